import Verif.Model.ErrText
import Verif.Model.HttpClient
import Verif.Model.HttpLife
import Verif.Model.ClientLife

/-!
# Model of the messages `err_msg()` of `TcpServer::Init`, `HttpServer::Init`, `HttpClient::Init`, `InitSSL` and `Send`

What the functions do otherwise is in `Model/TcpServer`, `Model/HttpLife`, `Model/ClientLife` and `Model/HttpClient`.
-/

namespace Cppnet

/-- The calls that can fail with an `errno` (tcp_server.cpp:19-50, 260-322, epoll.cpp:12-35, http_client.cpp:7-20, 83-101). -/
inductive FailCall where
  | socket | setReuse | bind | listen | epollCreate | noBlock | ctlAdd | connect | write
  deriving DecidableEq, Repr

/-- socket.hpp:182, `Socket::err_msg()` is `strerror(errno)`: the text after a call of this kind has failed.  (Closing or copying
sockets between the failure and the use of the text is taken not to change `errno`.) -/
abbrev ErrnoText := FailCall → Str

/-- tcp_server.cpp:19-50, `CreateSocket`: `err_msg_` afterwards (`old` before). -/
def createSocketErr (s : TcpSrv) (a : InitAns) (x : ErrnoText) (old : Str) : Str :=
  if a.socket < 0 then b!"[syserr]:" ++ x .socket
  else if a.reuse < 0 then b!"[syserr]:" ++ x .setReuse
  else if addressIP s.addr = [] ∨ addressPort s.addr = 0 then b!"[logicerr]:ip or port is invalid"
  else if a.bind < 0 then b!"[syserr]:" ++ x .bind
  else old

/-- epoll.cpp:21-35, `MonitorSoc`: `err_msg_` of the `Epoll` afterwards.  A failed `epoll_ctl` (76-81) writes nothing. -/
def epMonitorErr (nb : Int) (x : ErrnoText) (old : Str) : Str :=
  if epollTrigger then if nb < 0 then b!"[syserr]:" ++ x .noBlock else old else old

/-- tcp_server.cpp:285-307 with epoll.cpp:12-19: `err_msg_` of the server; the new `Epoll` starts with an empty one. -/
def initEpollErr (s : TcpSrv) (a : InitAns) (x : ErrnoText) (old : Str) : Str :=
  let (e, rc, _) := epInit {} a.epoll
  let ioErr : Str := if e.fd.status ≠ .init then b!"[syserr]:" ++ x .epollCreate else []
  if rc < 0 then b!"[syserr]:" ++ ioErr
  else if (epMonitor e s.listen.fd a.noBlock a.add).1 < 0 then b!"[syserr]:" ++ epMonitorErr a.noBlock x ioErr
  else old

/-- tcp_server.cpp:260-322, `Init` and `InitMode`: `err_msg_` of the server afterwards. -/
def tcpInitErr (s : TcpSrv) (a : InitAns) (x : ErrnoText) (old : Str) : Str :=
  let old := createSocketErr s a x old
  let s := { s with loop := true, listen := (createSocket s a).1 }
  if s.listen.status ≠ .init then old
  else if a.listen < 0 then b!"[syserr]:" ++ x .listen
  else
    match s.mode with
    | .mixed => initEpollErr s a x old
    | .io => initEpollErr s a x old
    | _ => old

/-- http_server.cpp:182-194, `HttpServer::Init`: `err_msg_` of the `HttpServer` afterwards; `tcp` is the one of its `TcpServer`. -/
def httpInitErr (h : HttpSrv) (addr : Address) (a : InitAns) (x : ErrnoText) (tcp old : Str) : Str :=
  let s := { h.srv with addr := addr }
  if (tcpInit s a).2.1 ≠ kSuccess then tcpInitErr s a x tcp else old

/-- http_client.cpp:7-20, `HttpClient::Init`: `err_msg_` afterwards.  If there is no socket `Connect` (socket.cpp:58-63) fails without a
call, and `errno` is still that of `::socket`. -/
def clientInitErr (res rc : Int) (x : ErrnoText) (old : Str) : Str :=
  if res < 0 then b!"[soc.Connect]:" ++ x .socket
  else if rc ≠ kSuccess then b!"[soc.Connect]:" ++ x .connect
  else old

/-- http_client.cpp:83-101, `HttpClient::InitSSL`: `err_msg_` afterwards.  `soc_` is a `shared_ptr<Socket>`, so line 97 calls the static
`Socket::err_msg` (socket.hpp:182) and not `SSLSocket::err_msg` (ssl_socket.hpp:31).  `errno` is the text of `errno` at that moment if
no system call has failed; `_ssl` is OpenSSL's text, which ssl_socket.cpp:56 stores in the other message. -/
def clientInitSSLErr (ctxNew : Option Nat) (res : Int) (sslNew : Option Nat) (rc sslRc : Int) (x : ErrnoText)
    (errno _ssl : Str) (old : Str) : Str :=
  match ctxNew with
  | none => b!"[ssl_soc.CreateSSLSocket]:[loginerr]:ssl context is null"
  | some _ =>
    if res < 0 then b!"[ssl_soc.CreateSSLSocket]:" ++ x .socket
    else
      match sslNew with
      | none => b!"[ssl_soc.CreateSSLSocket]:[syserr]:create ssl failed"
      | some _ =>
        if rc < 0 then b!"[ssl_soc.Connect]:" ++ x .connect
        else if sslRc ≤ 0 then b!"[ssl_soc.Connect]:" ++ errno
        else old

/-- http_client.cpp:22-66, `HttpClient::Send` on a connected socket, with `err_msg_` (`old` before) and the messages of the
response object. -/
def clientSendE (o : HashOrder) (req : HttpReq) (resp : HttpResp) (e : RespErr) (writeRc : Int) (c : Conn) (x : ErrnoText)
    (reqErr old : Str) : Out (Sent × Str) := do
  let reqErr := reqBuildErr req reqErr
  let (req, text, rc) := reqBuild o req []
  if rc ≠ kSuccess then .ok ({ rc, req, resp, written := none, conn := c }, b!"[req.Build]:" ++ reqErr)
  else if writeRc ≤ 0 then .ok ({ rc, req, resp, written := some text, conn := c }, b!"[soc.Write]:" ++ x .write)
  else do
    let (len, buf, c) ← sockReadUntil c [] crlf2
    if len ≤ 0 then
      .ok ({ rc := kLogicErr, req, resp, written := some text, conn := c }, b!"[logicerr]:empty http response")
    else do
      let (resp, e, rc) ← respParseE resp e buf
      if rc ≠ kSuccess then .ok ({ rc, req, resp, written := some text, conn := c }, b!"[resp.Parse]:" ++ e.own)
      else
        let n := headerGetContentLength resp.header
        if n > 0 then
          let (got, body, c) := sockRead c n.toNat true 0
          if got ≠ n then
            .ok ({ rc := kLogicErr, req, resp, written := some text, conn := c }, b!"[logicerr]:invalid http response")
          else .ok ({ rc := 0, req, resp := { resp with body }, written := some text, conn := c }, old)
        else .ok ({ rc := 0, req, resp := { resp with body := [] }, written := some text, conn := c }, old)

end Cppnet
