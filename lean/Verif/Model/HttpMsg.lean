import Verif.Model.HttpHeader
import Verif.Model.HttpRoute

/-!
# Model of `src/cppnet/http/req/http_req.cpp` and `src/cppnet/http/resp/http_resp.cpp`

`err_msg_` is modelled in `Model/ErrText`.
-/

namespace Cppnet

/-- http_req.hpp:51-55, the members with their initial values. -/
structure HttpReq where
  method : HttpMethod := .UNKNOWN
  version : HttpVersion := .HTTP_1_1
  header : HttpHeader := UMap.empty
  route : HttpRoute := {}
  body : Str := []
  deriving DecidableEq

/-- http_req.cpp:9-60, `HttpReq::Parse`.  Line 27-32: the condition is `!header_.Parse(…)`, i.e. the
request is rejected when the header parser *succeeds*; and the length passed to `substr` is the
end position, not the difference.  The object is modified also when the result is an error. -/
def reqParse (r : HttpReq) (s : Str) : Out (HttpReq × Int) :=
  if s = [] then .ok (r, kLogicErr)
  else
    match find s crlf2 with
    | none => .ok (r, kLogicErr)
    | some headerEnd =>
      match find s crlf with
      | none => .ok (r, kLogicErr)
      | some lineEnd => do
        let region ← substr s (lineEnd + 2) headerEnd
        let (header, rc) ← headerParse r.header region
        let r := { r with header }
        if rc = 0 then .ok (r, kLogicErr)
        else do
          let body ← substrFrom s (headerEnd + 4)
          let r := { r with body }
          let firstLine ← substr s 0 lineEnd
          let parts ← Split firstLine b!" " [] false
          match parts with
          | [m, target, v] => do
            let r := { r with method := methodOfStr m }
            if r.method = .UNKNOWN then .ok (r, kLogicErr)
            else do
              let (route, rc) ← routeParse r.route target
              let r := { r with route }
              if rc ≠ kSuccess then .ok (r, kLogicErr)
              else
                let r := { r with version := versionOfStr v }
                if r.version = .UNKNOWN then .ok (r, kLogicErr) else .ok (r, kSuccess)
          | _ => .ok (r, kLogicErr)

/-- http_req.cpp:67-70, the headers `Build` adds.  `SetContentLength` takes an `int`, so the body
size is narrowed. -/
def reqBuildHeader (r : HttpReq) : HttpHeader :=
  headerSetContentLength
    (if headerGet r.header b!"Host" = [] then headerAdd r.header b!"Host" b!"localhost" else r.header)
    (toInt32 r.body.length)

/-- http_req.cpp:62-77, `HttpReq::Build`: the object afterwards, the text, the return code.  On
failure `req_str` keeps its old value. -/
def reqBuild (o : HashOrder) (r : HttpReq) (old : Str) : HttpReq × Str × Int :=
  if r.method = .UNKNOWN ∨ r.version = .UNKNOWN then (r, old, kLogicErr)
  else
    let r := { r with header := reqBuildHeader r }
    (r, methodToStr r.method ++ b!" " ++ routeToString o r.route ++ b!" " ++ versionToStr r.version ++ crlf ++
      headerToString o r.header ++ r.body, kSuccess)

/-- http_req.cpp:79-86, `HttpReq::Clear`. -/
def reqClear (_ : HttpReq) : HttpReq :=
  { method := .UNKNOWN, version := .UNKNOWN, header := UMap.empty, route := {}, body := [] }

/-- http_req.cpp:88-99, `HttpReq::GET`; the maps are visited in some order. -/
def reqGET (o : HashOrder) (r : HttpReq) (url : Str) (params extra : UMap) : HttpReq :=
  { r with
    method := .GET, version := .HTTP_1_1
    route := { path := url, params := r.route.params.setAll (o.order params) }
    header := r.header.setAll (o.order extra) }

/-- http_req.cpp:101-110, `HttpReq::POST(url, body, …)`. -/
def reqPOST (o : HashOrder) (r : HttpReq) (url body : Str) (extra : UMap) : HttpReq :=
  { r with
    method := .POST, version := .HTTP_1_1
    route := { r.route with path := url }
    body := body
    header := r.header.setAll (o.order extra) }

/-- http_req.cpp:112-124, `HttpReq::POST(url, params, …)`: the parameters are appended to the old
body; `body_.size() - 1` wraps for an empty body, so `substr` keeps everything. -/
def reqPOSTForm (o : HashOrder) (r : HttpReq) (url : Str) (params extra : UMap) : HttpReq :=
  let body := r.body ++ ((o.order params).map paramText).flatten
  { r with
    method := .POST, version := .HTTP_1_1
    route := { r.route with path := url }
    body := body.take (szSub body.length 1)
    header := r.header.setAll (o.order extra) }

/-- http_resp.hpp:68-71, the members with their initial values. -/
structure HttpResp where
  status : HttpStatus := .UNKNOWN
  version : HttpVersion := .HTTP_1_1
  header : HttpHeader := UMap.empty
  body : Str := []
  deriving DecidableEq

/-- http_resp.cpp:9-64, `HttpResp::Parse`.  The position of the blank line is used without a test
for `npos` (24-27): all `size_t` arithmetic wraps. -/
def respParse (r : HttpResp) (s : Str) : Out (HttpResp × Int) :=
  if s = [] then .ok (r, kLogicErr)
  else
    match find s crlf with
    | none => .ok (r, kLogicErr)
    | some pos => do
      let headerEnd := posOrNpos (find s crlf2)
      let firstLine ← substr s 0 pos
      let header ← substr s (pos + 2) (szSub (szSub headerEnd pos) 2)
      let body ← substrFrom s (szAdd headerEnd 4)
      let r := { r with body }
      match find firstLine b!" " with
      | none => .ok (r, kLogicErr)
      | some sp1 =>
        match find firstLine b!" " (sp1 + 1) with
        | none => .ok (r, kLogicErr)
        | some sp2 => do
          let v ← substr firstLine 0 sp1
          let codeText ← substr firstLine (sp1 + 1) (sp2 - sp1 - 1)
          let _ ← substrFrom firstLine (sp2 + 1)
          match stoi codeText with
          | .error _ => .ok (r, kLogicErr)
          | .ok code => do
            let r := { r with status := statusOfInt code, version := versionOfStr v }
            let (h, rc) ← headerParse r.header header
            .ok ({ r with header := h }, rc)

/-- http_resp.cpp:66-90, `HttpResp::Build`. -/
def respBuild (o : HashOrder) (r : HttpResp) (old : Str) : HttpResp × Str × Int :=
  if r.status = .UNKNOWN then (r, old, kLogicErr)
  else
    let r := { r with header := headerSetContentLength r.header (toInt32 r.body.length) }
    (r, versionToStr r.version ++ b!" " ++ intToStr (statusNum r.status) ++ b!" " ++ statusToStr r.status ++ crlf ++
      headerToString o r.header ++ r.body, kSuccess)

/-- http_resp.cpp:92-96, `HttpResp::Clear` (leaves the version alone). -/
def respClear (r : HttpResp) : HttpResp :=
  { r with status := .UNKNOWN, header := UMap.empty, body := [] }

/-- `header_.SetContentType` of a built-in type (http_header.cpp:186-188). -/
def respType (r : HttpResp) (s : Str) : HttpResp := { r with header := r.header.set b!"Content-Type" s }

/-- http_resp.cpp:98-102, `NotFound`. -/
def respNotFound (r : HttpResp) : HttpResp :=
  respType { r with status := .NOT_FOUND, body := b!"<html><body><h1>404 Not Found</h1></body></html>" }
    b!"text/html"

/-- http_resp.cpp:104-114, `Redirect`. -/
def respRedirect (r : HttpResp) (location : Str) (forever : Bool) : HttpResp :=
  let r := if forever then
      { r with status := .MOVED_PERMANENTLY, body := b!"<html><body><h1>301 Moved Permanently</h1></body></html>" }
    else { r with status := .FOUND, body := b!"<html><body><h1>302 Found</h1></body></html>" }
  let r := respType r b!"text/html"
  { r with header := headerAdd r.header b!"Location" location }

/-- http_resp.cpp:116-120, `SuccessWithBinary`. -/
def respSuccessWithBinary (r : HttpResp) (body : Str) : HttpResp :=
  respType { r with status := .OK, body } b!"application/octet-stream"

/-- http_resp.cpp:122-126, `SuccessWithJson`. -/
def respSuccessWithJson (r : HttpResp) (body : Str) : HttpResp :=
  respType { r with status := .OK, body } b!"application/json"

/-- http_resp.hpp:53, `Success()`. -/
def respSuccess0 (r : HttpResp) : HttpResp := { r with status := .OK }

/-- http_resp.cpp:128-135, `Success(content_type, body)`: an empty body keeps the old one.  `g` is the
global custom content type map. -/
def respSuccess (g : UMap) (r : HttpResp) (t : ContentType) (body : Str) : HttpResp × UMap :=
  let r := if body = [] then r else { r with body }
  let (h, g) := headerSetContentType g r.header t
  ({ r with status := .OK, header := h }, g)

/-- http_resp.cpp:137-141, `BadRequest`. -/
def respBadRequest (r : HttpResp) (body : Str) : HttpResp :=
  { respType { r with status := .BAD_REQUEST } b!"text/html" with body }

/-- http_resp.cpp:143-147, `InternalServerError`. -/
def respInternalServerError (r : HttpResp) (body : Str) : HttpResp :=
  { respType { r with status := .INTERNAL_SERVER_ERROR } b!"text/html" with body }

/-- http_resp.cpp:149-153, `Json`. -/
def respJson (r : HttpResp) (status : HttpStatus) (body : Str) : HttpResp :=
  respType { r with status, body } b!"application/json"

/-- http_resp.cpp:155-159, `Text`. -/
def respText (r : HttpResp) (status : HttpStatus) (body : Str) : HttpResp :=
  respType { r with status, body } b!"text/plain"

end Cppnet
