import Verif.Model.HttpServer
import Verif.Model.Logger

/-!
# What `HttpServer::HandleRead` logs (`src/cppnet/http/server/http_server.cpp:279-411`)

The messages of `HandleRead` itself, in order; what the handlers log (the static handlers do, user handlers may) is not
included.
-/

namespace Cppnet
variable {σ : Type}


/-- http_server.cpp:359-361. -/
def logReqLine (fd : Int) (q : HttpReq) : Str :=
  b!"req: " ++ methodToStr q.method ++ b!" " ++ q.route.path ++ b!" soc:" ++ intToStr fd

/-- http_server.cpp:330-332 and 408-410: the text ends with `kEndl`. -/
def logRespLine (fd : Int) (st : HttpStatus) : Str := b!"resp: " ++ statusToStr st ++ b!" soc:" ++ intToStr fd ++ b!"\n"

/-- http_server.cpp:359-411: the messages once the request has been read. -/
def serveRequestLog (fd : Int) (sys : Str) (env : Env) (s : Server σ) (req : HttpReq) (conn : Conn) (u : σ) :
    Out (List (Level × Str)) := do
  let ctx ← dispatch s req.route.path
    { req, conn, running := env.running, types := env.types, fs := env.fs, live := env.live, user := u }
  let status := if ctx.resp.status = .UNKNOWN then .NOT_FOUND else ctx.resp.status
  .ok [(.info, logReqLine fd req),
       if env.writeRc < 0 then (.error, b!"[soc.Write]" ++ sys) else (.info, logRespLine fd status)]

/-- http_server.cpp:279-411: the messages of one `HandleRead` on an open plain socket. -/
def handleReadLog (fd : Int) (timedOut : Bool) (sys : Str) (env : Env) (s : Server σ) (c : Conn) (u : σ) :
    Out (List (Level × Str)) := do
  let (len, buf, c) ← sockReadUntil c [] crlf2
  if len = 0 then .ok [(.error, b!"[soc.ReadUntil]: peer close before read complete")]
  else if len < 0 then
    .ok [(.error, if timedOut then b!"[soc.ReadUntil]: read timeout" else b!"[soc.ReadUntil]:" ++ sys)]
  else do
    let (req, rc) ← reqParse {} buf
    if rc ≠ kSuccess then .ok [(.error, b!"[req.Parse]:" ++ reqErrText buf), (.info, logRespLine fd .BAD_REQUEST)]
    else
      let n := headerGetContentLength req.header
      if n > 0 then
        let (rc, body, c) := sockRead c n.toNat true 0
        if rc = 0 then .ok [(.error, b!"[soc.Read]: peer close before read complete")]
        else if rc < 0 then
          .ok [(.error, if timedOut then b!"[soc.Read]: read body timeout" else b!"[soc.Read]: " ++ sys)]
        else serveRequestLog fd sys env s { req with body } c u
      else serveRequestLog fd sys env s req c u

end Cppnet
