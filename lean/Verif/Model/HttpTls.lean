import Verif.Model.HttpServer
import Verif.Model.HttpClient

/-!
# HTTP over TLS: the reading half of a TLS session, `HandleRead` and `Send` on it

`src/cppnet/ssl/ssl_socket.cpp:63-80` under `src/cppnet/socket/socket.cpp:113-164`.  A TLS session delivers records;
`SSL_read` takes the next record from the socket only when nothing is left of the previous one.  What is left of a
record is in the session's own buffer, where `epoll_wait` and `recv` do not see it.
-/

namespace Cppnet
variable {σ : Type}

/-- The receiving half of an open TLS session: the decrypted bytes not yet read, the records that are still in (or on
their way to) the socket, and what `SSL_read` returns after them (ssl_socket.hpp:38). -/
structure Tls where
  pending : Str := []
  records : List Str := []
  fin : Int := 0

/-- Everything that can still be read (ssl_socket.hpp:38). -/
def Tls.stream (t : Tls) : Str := t.pending ++ t.records.flatten

/-- `SSL_read` looks for bytes: when none are pending the next record is taken (a record may be empty)
(called at ssl_socket.cpp:68, 78). -/
def Tls.fill (t : Tls) : Tls :=
  if t.pending = [] then
    match t.records.dropWhile (·.isEmpty) with
    | [] => { t with records := [] }
    | r :: rs => { t with pending := r, records := rs }
  else t

/-- `SSL_read(ssl, buf, num)`: never more than what is left of one record (called at ssl_socket.cpp:68, 78). -/
def Tls.read (t : Tls) (num : Int) : Int × Str × Tls :=
  if num ≤ 0 then (-1, [], t)
  else if t.fill.pending = [] then (t.fin, [], t.fill)
  else ((min num.toNat t.fill.pending.length : Nat), t.fill.pending.take num.toNat,
    { t.fill with pending := t.fill.pending.drop num.toNat })

/-- socket.cpp:154-163, the loop of `ReadUntil`, with ssl_socket.cpp:78 for `IORead(&ch, 1)`.  `fuel`: one more than the
bytes of the stream always suffices. -/
def tlsUntilLoop (delim : Str) (last : Byte) : Nat → Byte → Str → Tls → Out (Int × Str × Tls)
  | 0, _, _, _ => .error .diverge
  | fuel + 1, ch, buf, t =>
    let more : Out (Int × Str × Tls) :=
      match t.read 1 with
      | (rc, bytes, t') =>
        if rc ≤ 0 then .ok (rc, buf, t')
        else tlsUntilLoop delim last fuel (bytes.headD 0) (buf ++ [bytes.headD 0]) t'
    if ch = last then
      match substrFrom buf (szSub buf.length delim.length) with
      | .error e => .error e
      | .ok s => if s = delim then .ok (toInt32 buf.length, buf, t) else more
    else more

/-- socket.cpp:149-164, `ReadUntil` on an open TLS socket. -/
def tlsReadUntil (t : Tls) (buf delim : Str) : Out (Int × Str × Tls) :=
  match delim.getLast? with
  | none => .ok (-1, buf, t)
  | some last => tlsUntilLoop delim last (t.stream.length + 1) 0 buf t

/-- ssl_socket.cpp:67-75, the loop of `IORead` with `MSG_WAITALL`. -/
def tlsReadAll (len : Nat) : Nat → Tls → Str → Out (Int × Str × Tls)
  | 0, _, _ => .error .diverge
  | fuel + 1, t, got =>
    if got.length < len then
      match t.read (toInt32 (len - got.length)) with
      | (rc, bytes, t') => if rc ≤ 0 then .ok (kSysErr, got, t') else tlsReadAll len fuel t' (got ++ bytes)
    else .ok (toInt32 got.length, got, t)

/-- socket.cpp:113-123 with `complete`, on an open TLS socket. -/
def tlsReadFull (t : Tls) (len : Nat) : Out (Int × Str × Tls) := do
  let (rc, bytes, t) ← tlsReadAll len (len + 1) t []
  .ok (rc, cString bytes, t)

/-- The session after `n` bytes were read by the handlers (http_server.hpp:53). -/
def Tls.skip : Nat → Tls → Tls
  | 0, t => t
  | n + 1, t => Tls.skip n (t.read 1).2.2

/-- http_server.cpp:279-411, `HttpServer::HandleRead` on a TLS connection: `soc` is the connection's session.  The
handlers see the stream as in `handleRead`; what they read of it is skipped.  The `conn` of the result is what they left. -/
def handleReadTls (env : Env) (s : Server σ) (t : Tls) (u : σ) : Out (Served σ × Tls) := do
  let serve (req : HttpReq) (t : Tls) : Out (Served σ × Tls) := do
    let r ← serveRequest env s req ⟨t.stream, t.fin⟩ u
    .ok (r, t.skip (t.stream.length - r.conn.input.length))
  let (len, buf, t) ← tlsReadUntil t [] crlf2
  if len ≤ 0 then .ok ({ sent := [], closed := true, conn := ⟨t.stream, t.fin⟩, user := u, types := env.types }, t)
  else do
    let (req, rc) ← reqParse {} buf
    if rc ≠ kSuccess then
      .ok ({ sent := [(respBuild env.order (respBadRequest {} (reqErrText buf)) []).2.1], closed := true,
             conn := ⟨t.stream, t.fin⟩, user := u, types := env.types }, t)
    else if headerGetContentLength req.header > 0 then do
      let (rc, body, t) ← tlsReadFull t (headerGetContentLength req.header).toNat
      if rc ≤ 0 then .ok ({ sent := [], closed := true, conn := ⟨t.stream, t.fin⟩, user := u, types := env.types }, t)
      else serve { req with body } t
    else serve req t

/-- http_client.cpp:22-66, `HttpClient::Send` on a connected TLS socket (http_client.cpp:83-101). -/
def clientSendTls (o : HashOrder) (req : HttpReq) (resp : HttpResp) (writeRc : Int) (t : Tls) : Out (Sent × Tls) := do
  let (req, text, rc) := reqBuild o req []
  if rc ≠ kSuccess then .ok ({ rc, req, resp, written := none, conn := ⟨t.stream, t.fin⟩ }, t)
  else if writeRc ≤ 0 then .ok ({ rc, req, resp, written := some text, conn := ⟨t.stream, t.fin⟩ }, t)
  else do
    let (len, buf, t) ← tlsReadUntil t [] crlf2
    if len ≤ 0 then .ok ({ rc := kLogicErr, req, resp, written := some text, conn := ⟨t.stream, t.fin⟩ }, t)
    else do
      let (resp, rc) ← respParse resp buf
      if rc ≠ kSuccess then .ok ({ rc, req, resp, written := some text, conn := ⟨t.stream, t.fin⟩ }, t)
      else if headerGetContentLength resp.header > 0 then do
        let (got, body, t) ← tlsReadFull t (headerGetContentLength resp.header).toNat
        if got ≠ headerGetContentLength resp.header then
          .ok ({ rc := kLogicErr, req, resp, written := some text, conn := ⟨t.stream, t.fin⟩ }, t)
        else .ok ({ rc := 0, req, resp := { resp with body }, written := some text, conn := ⟨t.stream, t.fin⟩ }, t)
      else .ok ({ rc := 0, req, resp := { resp with body := [] }, written := some text, conn := ⟨t.stream, t.fin⟩ }, t)

/-- The event loop (tcp_server.cpp:118-158, epoll.cpp:43-72) for one TLS connection: it is reported when a record has
come that has not been taken from the socket; then `HandleRead` runs (http_server.cpp:279-411).  When nothing is left
in the socket the loop waits, whatever is pending in the session. -/
def tlsReports (s : Server σ) : List Env → Tls → σ → UMap → Out (List (Served σ) × Tls × σ × UMap)
  | [], t, u, ty => .ok ([], t, u, ty)
  | env :: envs, t, u, ty =>
    if t.records = [] then .ok ([], t, u, ty)
    else do
      let (r, t) ← handleReadTls { env with types := ty } s t u
      if r.closed then .ok ([r], t, r.user, r.types)
      else do
        let (rs, t, u, ty) ← tlsReports s envs t r.user r.types
        .ok (r :: rs, t, u, ty)

end Cppnet
