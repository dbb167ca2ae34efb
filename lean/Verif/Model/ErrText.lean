import Verif.Model.HttpMsg

/-!
# Model of the messages `err_msg()` of requests, responses, headers and routes

The parsers of `Model/HttpHeader`, `Model/HttpRoute` and `Model/HttpMsg` once more, with the members `err_msg_`.
`Props/ErrText` proves that without the texts they are the same functions.
-/

namespace Cppnet

/-- http_header.cpp:18-28, the loop of `HttpHeader::Parse`, with `err_msg_` (`e`). -/
def headerParseLinesE : HttpHeader → Str → List Str → Out (HttpHeader × Str × Int)
  | h, e, [] => .ok (h, e, kSuccess)
  | h, e, it :: rest =>
    match find it b!":" with
    | none => .ok (h, b!"header format error", kLogicErr)
    | some pos => do
      let key ← substr it 0 pos
      let tail ← substrFrom it (pos + 1)
      let value ← substrFrom it (szAdd (szAdd pos 1) (posOrNpos (findFirstNotOf 32 tail)))
      headerParseLinesE (h.set key value) e rest

/-- http_header.cpp:8-30, `HttpHeader::Parse`, with `err_msg_`. -/
def headerParseE (h : HttpHeader) (e : Str) (s : Str) : Out (HttpHeader × Str × Int) :=
  if s = [] then .ok (h, b!"header is empty", kLogicErr)
  else do
    let lines ← Split s crlf [] false
    headerParseLinesE h e lines

/-- http_route.cpp:8-41, `HttpRoute::Parse`, with `err_msg_`: only line 10 writes it. -/
def routeParseE (r : HttpRoute) (e : Str) (s : Str) : Out (HttpRoute × Str × Int) :=
  if s = [] then .ok (r, b!"path is empty", kLogicErr)
  else do
    let (r, rc) ← routeParse r s
    .ok (r, e, rc)

/-- The three `err_msg_` of a request: http_req.hpp:56, http_header.hpp:112, http_route.hpp:69. -/
structure ReqErr where
  own : Str := []
  header : Str := []
  route : Str := []
  deriving DecidableEq

/-- http_req.cpp:9-60, `HttpReq::Parse`, with the three `err_msg_`. -/
def reqParseE (r : HttpReq) (e : ReqErr) (s : Str) : Out (HttpReq × ReqErr × Int) :=
  if s = [] then .ok (r, { e with own := b!"[logicerr]:empty http request" }, kLogicErr)
  else
    match find s crlf2 with
    | none => .ok (r, { e with own := b!"[logicerr]:can't find endof header" }, kLogicErr)
    | some headerEnd =>
      match find s crlf with
      | none => .ok (r, { e with own := b!"[logicerr]:can't find endof line" }, kLogicErr)
      | some lineEnd => do
        let region ← substr s (lineEnd + 2) headerEnd
        let (header, eh, rc) ← headerParseE r.header e.header region
        let r := { r with header }
        let e := { e with header := eh }
        if rc = 0 then .ok (r, { e with own := e.header }, kLogicErr)
        else do
          let body ← substrFrom s (headerEnd + 4)
          let r := { r with body }
          let firstLine ← substr s 0 lineEnd
          let parts ← Split firstLine b!" " [] false
          match parts with
          | [m, target, v] => do
            let r := { r with method := methodOfStr m }
            if r.method = .UNKNOWN then .ok (r, { e with own := b!"[logicerr]:invalid http method" }, kLogicErr)
            else do
              let (route, er, rc) ← routeParseE r.route e.route target
              let r := { r with route }
              let e := { e with route := er }
              if rc ≠ kSuccess then .ok (r, { e with own := e.route }, kLogicErr)
              else
                let r := { r with version := versionOfStr v }
                if r.version = .UNKNOWN then .ok (r, { e with own := b!"[logicerr]:invalid http version" }, kLogicErr)
                else .ok (r, e, kSuccess)
          | _ => .ok (r, { e with own := b!"[logicerr]:invalid http request" }, kLogicErr)

/-- http_req.cpp:62-66, the message of `HttpReq::Build`: written when the method or the version is unknown. -/
def reqBuildErr (r : HttpReq) (e : Str) : Str :=
  if r.method = .UNKNOWN ∨ r.version = .UNKNOWN then b!"[logicerr]:invalid http request" else e

/-- The two `err_msg_` of a response: http_resp.hpp:72, http_header.hpp:112. -/
structure RespErr where
  own : Str := []
  header : Str := []
  deriving DecidableEq

/-- http_resp.cpp:9-64, `HttpResp::Parse`, with the two `err_msg_`. -/
def respParseE (r : HttpResp) (e : RespErr) (s : Str) : Out (HttpResp × RespErr × Int) :=
  if s = [] then .ok (r, { e with own := b!"empty http response" }, kLogicErr)
  else
    match find s crlf with
    | none => .ok (r, { e with own := b!"header format error" }, kLogicErr)
    | some pos => do
      let headerEnd := posOrNpos (find s crlf2)
      let firstLine ← substr s 0 pos
      let header ← substr s (pos + 2) (szSub (szSub headerEnd pos) 2)
      let body ← substrFrom s (szAdd headerEnd 4)
      let r := { r with body }
      match find firstLine b!" " with
      | none => .ok (r, { e with own := b!"first line format error" }, kLogicErr)
      | some sp1 =>
        match find firstLine b!" " (sp1 + 1) with
        | none => .ok (r, { e with own := b!"first line format error" }, kLogicErr)
        | some sp2 => do
          let v ← substr firstLine 0 sp1
          let codeText ← substr firstLine (sp1 + 1) (sp2 - sp1 - 1)
          let _ ← substrFrom firstLine (sp2 + 1)
          match stoi codeText with
          | .error _ => .ok (r, { e with own := b!"status code format error" }, kLogicErr)
          | .ok code => do
            let r := { r with status := statusOfInt code, version := versionOfStr v }
            let (h, eh, rc) ← headerParseE r.header e.header header
            let r := { r with header := h }
            let e := { e with header := eh }
            if rc ≠ kSuccess then .ok (r, { e with own := eh ++ b!"\n" ++ header }, rc)
            else .ok (r, e, kSuccess)

/-- http_resp.cpp:66-70, the message of `HttpResp::Build`. -/
def respBuildErr (r : HttpResp) (e : Str) : Str :=
  if r.status = .UNKNOWN then b!"status code is unknown" else e

/-- http_server.cpp:325-327, `req.err_msg()` of a fresh request after `Parse`: the body of the 400 answer and the text of the
log line. -/
def reqErrText (s : Str) : Str :=
  match reqParseE {} {} s with
  | .ok (_, e, _) => e.own
  | .error _ => []

end Cppnet
