import Verif.Model.HttpMsg
import Verif.Model.Socket

/-!
# Model of `src/cppnet/http/client/http_client.cpp` (plain connections)
-/

namespace Cppnet

/-- What `Send` leaves behind: the return code, request and response objects, the buffer passed to `Write`
(if it got that far), and the rest of the stream (http_client.cpp:22-66). -/
structure Sent where
  rc : Int
  req : HttpReq
  resp : HttpResp
  written : Option Str
  conn : Conn

/-- http_client.cpp:22-66, `HttpClient::Send` on a connected socket.  `writeRc` is what `Write` returns.
Line 38 returns `rc`, which is still `kSuccess`. -/
def clientSend (o : HashOrder) (req : HttpReq) (resp : HttpResp) (writeRc : Int) (c : Conn) : Out Sent := do
  let (req, text, rc) := reqBuild o req []
  if rc ≠ kSuccess then .ok { rc, req, resp, written := none, conn := c }
  else if writeRc ≤ 0 then .ok { rc, req, resp, written := some text, conn := c }
  else do
    let (len, buf, c) ← sockReadUntil c [] crlf2
    if len ≤ 0 then .ok { rc := kLogicErr, req, resp, written := some text, conn := c }
    else do
      let (resp, rc) ← respParse resp buf
      if rc ≠ kSuccess then .ok { rc, req, resp, written := some text, conn := c }
      else
        let n := headerGetContentLength resp.header
        if n > 0 then
          let (got, body, c) := sockRead c n.toNat true 0
          if got ≠ n then .ok { rc := kLogicErr, req, resp, written := some text, conn := c }
          else .ok { rc := 0, req, resp := { resp with body }, written := some text, conn := c }
        else .ok { rc := 0, req, resp := { resp with body := [] }, written := some text, conn := c }

end Cppnet
