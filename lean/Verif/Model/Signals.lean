import Verif.Model.HttpServer
import Verif.Model.HttpClient

/-!
# Reads that signals interrupt

`src/cppnet/socket/socket.hpp:199-205` calls `recv` once and gives its result to the caller.  When the program handles a signal while
its thread waits in `recv`, Linux does this: with no byte taken yet the call is started again if the handler was installed with
`SA_RESTART` (and the socket has no timeout), else it fails with `EINTR`; a call with `MSG_WAITALL` that has taken some bytes ends with
these, whatever the handler's flags are.
-/

namespace Cppnet
variable {σ : Type}

/-- What happens on a connection, in order: a byte comes, or the program handles a signal while a thread waits for the next byte;
`restarts`: interrupted calls are started again (seen at socket.hpp:201). -/
inductive Arrival where
  | byte (b : Byte)
  | signal (restarts : Bool)
  deriving DecidableEq

/-- The bytes that come (socket.hpp:201). -/
def arrivalBytes : List Arrival → Str
  | [] => []
  | .byte b :: as => b :: arrivalBytes as
  | .signal _ :: as => arrivalBytes as

/-- The receiving half of a connection with signals (socket.hpp:201): as `Conn`. -/
structure SigConn where
  todo : List Arrival
  fin : Int
  deriving DecidableEq

/-- The same connection without the signals (socket.hpp:201). -/
def SigConn.conn (c : SigConn) : Conn := ⟨arrivalBytes c.todo, c.fin⟩

/-- socket.cpp:154-163, the loop of `ReadUntil`: each round waits for one byte.  (A call that is started again shows as another
round here; its test gives the same again.) -/
def sigUntilLoop (delim : Str) (last : Byte) (fin : Int) (ch : Byte) (buf : Str) : List Arrival → Out (Int × Str × SigConn)
  | [] =>
    if ch = last then
      match substrFrom buf (szSub buf.length delim.length) with
      | .error e => .error e
      | .ok t => if t = delim then .ok (toInt32 buf.length, buf, ⟨[], fin⟩) else .ok (fin, buf, ⟨[], fin⟩)
    else .ok (fin, buf, ⟨[], fin⟩)
  | a :: as =>
    let more : Out (Int × Str × SigConn) :=
      match a with
      | .byte c => sigUntilLoop delim last fin c (buf ++ [c]) as
      | .signal true => sigUntilLoop delim last fin ch buf as
      | .signal false => .ok (-1, buf, ⟨as, fin⟩)
    if ch = last then
      match substrFrom buf (szSub buf.length delim.length) with
      | .error e => .error e
      | .ok t => if t = delim then .ok (toInt32 buf.length, buf, ⟨a :: as, fin⟩) else more
    else more

/-- socket.cpp:149-164, `ReadUntil`. -/
def sigReadUntil (c : SigConn) (buf delim : Str) : Out (Int × Str × SigConn) :=
  match delim.getLast? with
  | none => .ok (-1, buf, c)
  | some last => sigUntilLoop delim last c.fin 0 buf c.todo

/-- `recv` with `MSG_WAITALL` (socket.hpp:201, called at socket.cpp:131): `n` bytes are still wanted, `got` have been taken. -/
def sigRecvAll (fin : Int) (n : Nat) (got : Str) : List Arrival → Int × Str × SigConn
  | [] => (if n = 0 ∨ got ≠ [] then (got.length : Int) else fin, got, ⟨[], fin⟩)
  | a :: as =>
    if n = 0 then (got.length, got, ⟨a :: as, fin⟩)
    else
      match a with
      | .byte b => sigRecvAll fin (n - 1) (got ++ [b]) as
      | .signal restarts =>
        if got ≠ [] then (got.length, got, ⟨as, fin⟩)
        else if restarts then sigRecvAll fin n got as
        else (-1, [], ⟨as, fin⟩)

/-- socket.cpp:113-123 with `complete`, `Read(std::string &, len, true)`. -/
def sigReadFull (c : SigConn) (len : Nat) : Int × Str × SigConn :=
  let (rc, bytes, c') := sigRecvAll c.fin (min len maxRw) [] c.todo
  (rc, cString (bytes ++ List.replicate (len + 1 - bytes.length) 0), c')

/-- http_server.cpp:279-411, `HandleRead` on an open plain socket while signals come.  Simplification: none come while the handlers
read from the connection themselves. -/
def handleReadSig (env : Env) (s : Server σ) (c : SigConn) (u : σ) : Out (Served σ) := do
  let (len, buf, c) ← sigReadUntil c [] crlf2
  if len ≤ 0 then .ok { sent := [], closed := true, conn := c.conn, user := u, types := env.types }
  else do
    let (req, rc) ← reqParse {} buf
    if rc ≠ kSuccess then
      .ok { sent := [(respBuild env.order (respBadRequest {} (reqErrText buf)) []).2.1], closed := true, conn := c.conn, user := u,
            types := env.types }
    else
      let n := headerGetContentLength req.header
      if n > 0 then
        let (rc, body, c) := sigReadFull c n.toNat
        if rc ≤ 0 then .ok { sent := [], closed := true, conn := c.conn, user := u, types := env.types }
        else serveRequest env s { req with body } c.conn u
      else serveRequest env s req c.conn u

/-- http_client.cpp:22-66, `HttpClient::Send` on a connected socket while signals come. -/
def clientSendSig (o : HashOrder) (req : HttpReq) (resp : HttpResp) (writeRc : Int) (c : SigConn) : Out Sent := do
  let (req, text, rc) := reqBuild o req []
  if rc ≠ kSuccess then .ok { rc, req, resp, written := none, conn := c.conn }
  else if writeRc ≤ 0 then .ok { rc, req, resp, written := some text, conn := c.conn }
  else do
    let (len, buf, c) ← sigReadUntil c [] crlf2
    if len ≤ 0 then .ok { rc := kLogicErr, req, resp, written := some text, conn := c.conn }
    else do
      let (resp, rc) ← respParse resp buf
      if rc ≠ kSuccess then .ok { rc, req, resp, written := some text, conn := c.conn }
      else
        let n := headerGetContentLength resp.header
        if n > 0 then
          let (got, body, c) := sigReadFull c n.toNat
          if got ≠ n then .ok { rc := kLogicErr, req, resp, written := some text, conn := c.conn }
          else .ok { rc := 0, req, resp := { resp with body }, written := some text, conn := c.conn }
        else .ok { rc := 0, req, resp := { resp with body := [] }, written := some text, conn := c.conn }

end Cppnet
