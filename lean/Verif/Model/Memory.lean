import Verif.Model.HttpServer
import Verif.Model.HttpClient

/-!
# Reading a message when memory is limited

`Socket::Read(std::string &, size_t, bool)` makes a block of `len + 1` bytes before it reads anything
(`src/cppnet/socket/socket.cpp:117-118`).  `room` is the size of the largest block that `new` can still make; for a larger one
it throws `std::bad_alloc`, which nothing between there and the caller of `Run`, or of `Send`, catches.  The other blocks
(strings, which grow with what has been read) are not counted.
-/

namespace Cppnet
variable {σ : Type}

/-- The block that `HandleRead` asks for to read the body, if it gets as far as that
(http_server.cpp:299-300, 322-323, 336-339; socket.cpp:117). -/
def serverBlock (c : Conn) : Out (Option Nat) := do
  let (len, buf, _) ← sockReadUntil c [] crlf2
  if len ≤ 0 then .ok none
  else do
    let (req, rc) ← reqParse {} buf
    if rc ≠ kSuccess then .ok none
    else
      let n := headerGetContentLength req.header
      if n > 0 then .ok (some (n.toNat + 1)) else .ok none

/-- http_server.cpp:279-411, `HandleRead` on an open plain socket, with `room`; for the rest as `handleRead`. -/
def handleReadIn (room : Nat) (env : Env) (s : Server σ) (c : Conn) (u : σ) : Out (Served σ) := do
  let (len, buf, c) ← sockReadUntil c [] crlf2
  if len ≤ 0 then .ok { sent := [], closed := true, conn := c, user := u, types := env.types }
  else do
    let (req, rc) ← reqParse {} buf
    if rc ≠ kSuccess then
      .ok { sent := [(respBuild env.order (respBadRequest {} (reqErrText buf)) []).2.1], closed := true, conn := c, user := u, types := env.types }
    else
      let n := headerGetContentLength req.header
      if n > 0 then
        if room < n.toNat + 1 then .error .terminate
        else
          let (rc, body, c) := sockRead c n.toNat true 0
          if rc ≤ 0 then .ok { sent := [], closed := true, conn := c, user := u, types := env.types }
          else serveRequest env s { req with body } c u
      else serveRequest env s req c u

/-- The block that `Send` asks for to read the body, once the request has been written
(http_client.cpp:40-55; socket.cpp:117). -/
def clientBlock (resp : HttpResp) (c : Conn) : Out (Option Nat) := do
  let (len, buf, _) ← sockReadUntil c [] crlf2
  if len ≤ 0 then .ok none
  else do
    let (resp, rc) ← respParse resp buf
    if rc ≠ kSuccess then .ok none
    else
      let n := headerGetContentLength resp.header
      if n > 0 then .ok (some (n.toNat + 1)) else .ok none

/-- http_client.cpp:22-66, `Send` on a connected socket, with `room`; for the rest as `clientSend`. -/
def clientSendIn (room : Nat) (o : HashOrder) (req : HttpReq) (resp : HttpResp) (writeRc : Int) (c : Conn) : Out Sent := do
  let (req, text, rc) := reqBuild o req []
  if rc ≠ kSuccess then .ok { rc, req, resp, written := none, conn := c }
  else if writeRc ≤ 0 then .ok { rc, req, resp, written := some text, conn := c }
  else do
    let (len, buf, c) ← sockReadUntil c [] crlf2
    if len ≤ 0 then .ok { rc := kLogicErr, req, resp, written := some text, conn := c }
    else do
      let (resp, rc) ← respParse resp buf
      if rc ≠ kSuccess then .ok { rc, req, resp, written := some text, conn := c }
      else
        let n := headerGetContentLength resp.header
        if n > 0 then
          if room < n.toNat + 1 then .error .terminate
          else
            let (got, body, c) := sockRead c n.toNat true 0
            if got ≠ n then .ok { rc := kLogicErr, req, resp, written := some text, conn := c }
            else .ok { rc := 0, req, resp := { resp with body }, written := some text, conn := c }
        else .ok { rc := 0, req, resp := { resp with body := [] }, written := some text, conn := c }

end Cppnet
