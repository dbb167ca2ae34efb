import Verif.Model.HttpServer
import Verif.Model.Logger

/-!
# What the static handlers log (`src/cppnet/http/server/http_server.cpp:91-180`)

The lambdas of `StaticDir` and `StaticFile` with the messages they give to the group's logger, in order.  A call that throws has logged
what it had logged before.
-/

namespace Cppnet
variable {σ : Type}

/-- http_server.cpp:100-133, the lambda of `StaticDir`: the messages, and the context afterwards. -/
def staticDirLog (g : Nat) (path dir : Str) (ctx : Ctx σ) : List (Level × Str) × Out (Ctx σ) :=
  if !ctx.live g then ([], .error .ub)
  else
    match find ctx.req.route.path path with
    | none =>
      ([(.warn, b!"[logicerr]:static dir path error " ++ ctx.req.route.path ++ b!" " ++ path)],
        .ok { ctx with resp := respNotFound ctx.resp })
    | some pos =>
      match substrFrom ctx.req.route.path (pos + path.length) with
      | .error e => ([], .error e)
      | .ok aim =>
        if (find aim b!"..").isSome then
          ([(.warn, b!"[logicerr]:static dir path error " ++ aim)], .ok { ctx with resp := respNotFound ctx.resp })
        else
          let file := dir ++ b!"/" ++ aim
          match fileExist ctx.fs file with
          | .error e => ([], .error e)
          | .ok false => ([(.warn, b!"[logicerr]:static dir not exist " ++ file)], .ok ctx.next)
          | .ok true =>
            match fileRead ctx.fs file ctx.resp.body with
            | .error e => ([], .error e)
            | .ok (rc, body) =>
              let resp := { ctx.resp with body }
              if rc ≠ kSuccess then ([(.error, file ++ b!" read error")], .ok { ctx with resp := respNotFound resp })
              else
                let msgs := [(.info, b!"static_dir: return static dir success " ++ file)]
                let resp := { resp with header := headerSetLongConnection resp.header true }
                match Suffix file with
                | .error e => (msgs, .error e)
                | .ok suffix =>
                  let (resp, types) := respSuccess ctx.types resp (contentTypeOfFile ctx.types suffix) []
                  (msgs, .ok { ctx with resp, types })

/-- http_server.cpp:151-173, the lambda of `StaticFile`: the messages, and the context afterwards. -/
def staticFileLog (g : Nat) (file : Str) (ctx : Ctx σ) : List (Level × Str) × Out (Ctx σ) :=
  if !ctx.live g then ([], .error .ub)
  else
    match fileExist ctx.fs file with
    | .error e => ([], .error e)
    | .ok false =>
      ([(.warn, b!"[logicerr]:static file not exist " ++ file)], .ok { ctx with resp := respNotFound ctx.resp }.next)
    | .ok true =>
      match fileRead ctx.fs file ctx.resp.body with
      | .error e => ([], .error e)
      | .ok (rc, body) =>
        let resp := { ctx.resp with body }
        if rc ≠ kSuccess then
          ([(.error, b!"[logicerr]:" ++ file ++ b!" read error")], .ok { ctx with resp := respNotFound resp })
        else
          let msgs := [(.info, b!"static_file: return static file success " ++ file)]
          let resp := { resp with header := headerSetLongConnection resp.header true }
          match Suffix file with
          | .error e => (msgs, .error e)
          | .ok suffix =>
            let (text, types) := contentTypeToStr ctx.types (contentTypeOfFile ctx.types suffix) suffix
            let resp := { resp with header := headerSetContentTypeStr resp.header text }
            (msgs, .ok { ctx with resp := respSuccess0 resp, types })

end Cppnet
