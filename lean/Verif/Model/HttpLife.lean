import Verif.Model.TcpServer

/-!
# Model of the life of `HttpServer` (`src/cppnet/http/server/http_server.cpp:182-263, 413-456`)

`Init`, `InitSSL`, `Run`, `Stop`, the timeouts and what `HandleAccept` does with a new connection.  Handling a
request is the subject of `Model/HttpServer.lean` and `Model/HttpTls.lean`; the sessions of the TLS connections that of
`Model/Ssl.lean`.  Log and error messages are not modelled.
-/

namespace Cppnet

/-- http_server.hpp:226-244: the members.  `ssl` is `ssl_context_`, a context by number (`none`: `nullptr`). -/
structure HttpSrv where
  srv : TcpSrv := {}
  cont : Bool := false
  readTimeout : Int × Int := (0, 0)
  writeTimeout : Int × Int := (0, 0)
  ssl : Option Nat := none
  deriving DecidableEq

/-- The number of the callback that `HttpServer` registers (`HttpServer::EventFunc`) (http_server.cpp:190-192). -/
def httpCb : Nat := 0

/-- http_server.cpp:182-194, `HttpServer::Init`. -/
def httpInit (h : HttpSrv) (addr : Address) (a : InitAns) : HttpSrv × Int × List NetEv :=
  let h := { h with srv := { h.srv with addr := addr }, cont := true }
  let (s, rc, t) := tcpInit h.srv a
  if rc ≠ kSuccess then ({ h with srv := s }, rc, t)
  else ({ h with srv := { s with cb := .user httpCb } }, kSuccess, t)

/-- http_server.cpp:440-456, `HttpServer::InitSSL`. -/
def httpInitSSL (h : HttpSrv) (addr : Address) (ctx : Option Nat) (a : InitAns) : HttpSrv × Int × List NetEv :=
  if h.srv.mode = .mixed then (h, kNotSupport, [])
  else
    match ctx with
    | none => (h, kLogicErr, [])
    | some c =>
      let (h, rc, t) := httpInit h addr a
      if rc ≠ kSuccess then (h, rc, t) else ({ h with ssl := some c }, kSuccess, t)

/-- http_server.cpp:196-216, `HttpServer::Run`. -/
def httpRun (h : HttpSrv) (rounds : List Round) (mt : List MtRound) : Out (HttpSrv × List NetEv × LoopEnd) :=
  if !h.cont then .ok (h, [], .returned kLogicErr)
  else do
    let (s, t, o) ← eventLoop h.srv rounds mt
    .ok ({ h with srv := s }, t, o)

/-- http_server.cpp:218-226, `HttpServer::Stop` (and http_server.hpp:180, the destructor), with the answers to `WakeUp`. -/
def httpStop (h : HttpSrv) (soc conn : Int) : Out (HttpSrv × List NetEv) :=
  if !h.cont then .ok (h, [])
  else do
    let s ← tcpStop h.srv
    let (_, t1) := tcpWakeUp s soc conn
    let (s, t2) := tcpClean s
    .ok ({ h with srv := s, cont := false }, t1 ++ t2)

/-- http_server.cpp:431-437, `SetReadTimeout` and `SetWriteTimeout`: two `unsigned`s kept in two `int`s
(http_server.hpp:243-244). -/
def httpTimeout (sec usec : Nat) : Int × Int := (toInt32 sec, toInt32 usec)

/-! ### A new connection -/

/-- What `HandleAccept` does, in order.  `setRecv` and `setSend` are `setsockopt` with `SO_RCVTIMEO` and
`SO_SNDTIMEO`; `handshake` is `SSL_accept` with a session of the context (http_server.cpp:232-263). -/
inductive AccEv where
  | getAddr (fd rc : Int) | setRecv (fd sec usec : Int) | setSend (fd sec usec : Int)
  | handshake (ctx : Nat) (fd : Int) (ok : Bool) | keep (fd : Int) | unwatch (fd : Int) | close (fd : Int)
  deriving DecidableEq, Repr

/-- http_server.cpp:232-263, `HandleAccept`; `addrRc` is the answer to `GetAddr`, `ok` whether the handshake completes.
The results of setting the options (socket.cpp:226-238) are not looked at. -/
def httpAccept (h : HttpSrv) (fd addrRc : Int) (ok : Bool) : List AccEv :=
  if addrRc ≠ kSuccess then [.getAddr fd addrRc, .unwatch fd, .close fd]
  else
    .getAddr fd addrRc ::
    (if h.readTimeout.1 ≠ 0 ∨ h.readTimeout.2 ≠ 0 then [.setRecv fd h.readTimeout.1 h.readTimeout.2] else []) ++
    (if h.writeTimeout.1 ≠ 0 ∨ h.writeTimeout.2 ≠ 0 then [.setSend fd h.writeTimeout.1 h.writeTimeout.2] else []) ++
    (match h.ssl with
     | none => []
     | some c => if ok then [.handshake c fd true, .keep fd] else [.handshake c fd false, .unwatch fd, .close fd])

/-! ### Histories -/

/-- A call on the server, with the answers it gets.  `setMode` is `server().set_mode` (tcp_server.hpp). -/
inductive HttpOp where
  | init (addr : Address) (a : InitAns) | initSSL (addr : Address) (ctx : Option Nat) (a : InitAns)
  | run (rounds : List Round) (mt : List MtRound) | stop (soc conn : Int)
  | setReadTimeout (sec usec : Nat) | setWriteTimeout (sec usec : Nat) | setMode (m : SrvMode)

/-- One call: the object afterwards, what happened, the result (`kSuccess` for a call without one)
(http_server.hpp:189-224). -/
def HttpSrv.apply (h : HttpSrv) : HttpOp → Out (HttpSrv × List NetEv × LoopEnd)
  | .init addr a => let (h, rc, t) := httpInit h addr a; .ok (h, t, .returned rc)
  | .initSSL addr c a => let (h, rc, t) := httpInitSSL h addr c a; .ok (h, t, .returned rc)
  | .run rounds mt => httpRun h rounds mt
  | .stop soc conn => (httpStop h soc conn).map fun r => (r.1, r.2, .returned kSuccess)
  | .setReadTimeout sec usec => .ok ({ h with readTimeout := httpTimeout sec usec }, [], .returned kSuccess)
  | .setWriteTimeout sec usec => .ok ({ h with writeTimeout := httpTimeout sec usec }, [], .returned kSuccess)
  | .setMode m => .ok ({ h with srv := { h.srv with mode := m } }, [], .returned kSuccess)

/-- The calls made by one thread, each with what it did and how it ended; a `Run` that has not returned is the last
(http_server.hpp:177-224). -/
def HttpSrv.history : HttpSrv → List HttpOp → Out (HttpSrv × List (HttpOp × List NetEv × LoopEnd))
  | h, [] => .ok (h, [])
  | h, op :: ops => do
    let (h, t, o) ← h.apply op
    if o = .waiting then .ok (h, [(op, t, o)])
    else do
      let (h, l) ← HttpSrv.history h ops
      .ok (h, (op, t, o) :: l)

end Cppnet
