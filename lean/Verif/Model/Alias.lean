import Verif.Model.HttpMsg

/-!
# Calls that are given a text of the object itself

`HttpReq::body()`, `HttpHeader::operator[]` and `HttpRoute::operator[]` hand out references (http_req.hpp:46, http_header.cpp:53-55,
http_route.hpp:53-55), and the functions below take their arguments by reference.  In the other models an argument is a value.  Here it
is asked for again at each place at which the code looks at it (`arg`, a function of the object as it is then): a value is a constant
function, a text of the object is not.  References into an `unordered_map` stay good when other keys are added.
-/

namespace Cppnet

/-- The texts of a request that a caller can hold a reference to (http_req.hpp:42-46, http_header.cpp:53-55, http_route.hpp:53-55). -/
inductive ReqPlace where
  | body
  | header (k : Str)
  | param (k : Str)
  deriving DecidableEq, Repr

/-- What the reference refers to; the entry is there, `operator[]` has inserted it (http_header.cpp:53-55, http_route.hpp:53-55). -/
def ReqPlace.get (r : HttpReq) : ReqPlace → Str
  | .body => r.body
  | .header k => headerGet r.header k
  | .param k => routeGetParam r.route k

/-- An assignment through the reference (http_header.cpp:53-55, http_route.hpp:53-55). -/
def ReqPlace.set (r : HttpReq) (v : Str) : ReqPlace → HttpReq
  | .body => { r with body := v }
  | .header k => { r with header := r.header.set k v }
  | .param k => { r with route := { r.route with params := r.route.params.set k v } }

/-- The texts of a response that a caller can hold a reference to (http_resp.hpp:37-40, http_header.cpp:53-55). -/
inductive RespPlace where
  | body
  | header (k : Str)
  deriving DecidableEq, Repr

/-- What the reference refers to (http_resp.hpp:37-40, http_header.cpp:53-55). -/
def RespPlace.get (r : HttpResp) : RespPlace → Str
  | .body => r.body
  | .header k => headerGet r.header k

/-- An assignment through the reference (http_header.cpp:53-55). -/
def RespPlace.set (r : HttpResp) (v : Str) : RespPlace → HttpResp
  | .body => { r with body := v }
  | .header k => { r with header := r.header.set k v }

/-- `HttpRoute::Parse(arg)` (http_route.cpp:8-41): the argument is looked at before the loop over the parameters and, for the path,
after it (38). -/
def routeParseArg (arg : HttpRoute → Str) (r : HttpRoute) : Out (HttpRoute × Int) :=
  if arg r = [] then .ok (r, kLogicErr)
  else
    let start : Int := match find (arg r) b!"?" with
      | none => -1
      | some p => toInt32 p
    if start = -1 then .ok ({ r with path := arg r }, kSuccess)
    else if start = intMax then .error .ub
    else do
      let param ← substrFrom (arg r) (intToSize (start + 1))
      let items ← Split param b!"&" [] false
      let params ← routeParams r.params items
      let r := { r with params }
      let path ← substr (arg r) 0 (intToSize start)
      .ok ({ r with path }, kSuccess)

/-- `HttpHeader::Parse(arg)` (http_header.cpp:8-30): the lines are copied before any of them is stored. -/
def headerParseArg (arg : HttpHeader → Str) (h : HttpHeader) : Out (HttpHeader × Int) :=
  if arg h = [] then .ok (h, kLogicErr)
  else do
    let lines ← Split (arg h) crlf [] false
    headerParseLines h lines

/-- `HttpReq::Parse(arg)` (http_req.cpp:8-60): the argument is looked at before the header is parsed (9-28), for the body after it (33)
and for the first line after the body was stored (35). -/
def reqParseArg (arg : HttpReq → Str) (r : HttpReq) : Out (HttpReq × Int) :=
  if arg r = [] then .ok (r, kLogicErr)
  else
    match find (arg r) crlf2 with
    | none => .ok (r, kLogicErr)
    | some headerEnd =>
      match find (arg r) crlf with
      | none => .ok (r, kLogicErr)
      | some lineEnd => do
        let region ← substr (arg r) (lineEnd + 2) headerEnd
        let (header, rc) ← headerParse r.header region
        let r := { r with header }
        if rc = 0 then .ok (r, kLogicErr)
        else do
          let body ← substrFrom (arg r) (headerEnd + 4)
          let r := { r with body }
          let firstLine ← substr (arg r) 0 lineEnd
          let parts ← Split firstLine b!" " [] false
          match parts with
          | [m, target, v] => do
            let r := { r with method := methodOfStr m }
            if r.method = .UNKNOWN then .ok (r, kLogicErr)
            else do
              let (route, rc) ← routeParse r.route target
              let r := { r with route }
              if rc ≠ kSuccess then .ok (r, kLogicErr)
              else
                let r := { r with version := versionOfStr v }
                if r.version = .UNKNOWN then .ok (r, kLogicErr) else .ok (r, kSuccess)
          | _ => .ok (r, kLogicErr)

/-- `HttpResp::Parse(arg)` (http_resp.cpp:9-64): the first line, the header and the body are copied (24-28) before anything is stored. -/
def respParseArg (arg : HttpResp → Str) (r : HttpResp) : Out (HttpResp × Int) :=
  if arg r = [] then .ok (r, kLogicErr)
  else
    match find (arg r) crlf with
    | none => .ok (r, kLogicErr)
    | some pos => do
      let headerEnd := posOrNpos (find (arg r) crlf2)
      let firstLine ← substr (arg r) 0 pos
      let header ← substr (arg r) (pos + 2) (szSub (szSub headerEnd pos) 2)
      let body ← substrFrom (arg r) (szAdd headerEnd 4)
      let r := { r with body }
      match find firstLine b!" " with
      | none => .ok (r, kLogicErr)
      | some sp1 =>
        match find firstLine b!" " (sp1 + 1) with
        | none => .ok (r, kLogicErr)
        | some sp2 => do
          let v ← substr firstLine 0 sp1
          let codeText ← substr firstLine (sp1 + 1) (sp2 - sp1 - 1)
          let _ ← substrFrom firstLine (sp2 + 1)
          match stoi codeText with
          | .error _ => .ok (r, kLogicErr)
          | .ok code => do
            let r := { r with status := statusOfInt code, version := versionOfStr v }
            let (h, rc) ← headerParse r.header header
            .ok ({ r with header := h }, rc)

/-- `HttpReq::Build(place)` (http_req.cpp:62-77): the request line is assigned to the place, the header and the body are appended to it. -/
def reqBuildAt (o : HashOrder) (p : ReqPlace) (r : HttpReq) : HttpReq × Int :=
  if r.method = .UNKNOWN ∨ r.version = .UNKNOWN then (r, kLogicErr)
  else
    let r := { r with header := reqBuildHeader r }
    let r := p.set r (methodToStr r.method ++ b!" " ++ routeToString o r.route ++ b!" " ++ versionToStr r.version ++ crlf)
    let r := p.set r (p.get r ++ headerToString o r.header)
    let r := p.set r (p.get r ++ r.body)
    (r, kSuccess)

/-- `HttpResp::Build(place)` (http_resp.cpp:66-90): the place is cleared first, then everything is appended to it. -/
def respBuildAt (o : HashOrder) (p : RespPlace) (r : HttpResp) : HttpResp × Int :=
  if r.status = .UNKNOWN then (r, kLogicErr)
  else
    let r := p.set r []
    let r := p.set r (p.get r ++ (versionToStr r.version ++ b!" "))
    let r := p.set r (p.get r ++ (intToStr (statusNum r.status) ++ b!" " ++ statusToStr r.status ++ crlf))
    let r := { r with header := headerSetContentLength r.header (toInt32 r.body.length) }
    let r := p.set r (p.get r ++ headerToString o r.header)
    let r := p.set r (p.get r ++ r.body)
    (r, kSuccess)

/-- `HttpReq::POST(url, body)` (http_req.cpp:101-110), without further headers. -/
def reqPOSTArg (url body : HttpReq → Str) (r : HttpReq) : HttpReq :=
  let r := { r with method := .POST, version := .HTTP_1_1 }
  let r := { r with route := { r.route with path := url r } }
  { r with body := body r }

/-- The helpers of a response that take a text (http_resp.cpp:104-161). -/
inductive RespHelper where
  | redirect (forever : Bool)
  | binary
  | json (status : HttpStatus)
  | text (status : HttpStatus)
  | badRequest
  | internalServerError
  deriving DecidableEq, Repr

/-- What a helper makes of a text (http_resp.cpp:104-161). -/
def RespHelper.call (r : HttpResp) (s : Str) : RespHelper → HttpResp
  | .redirect forever => respRedirect r s forever
  | .binary => respSuccessWithBinary r s
  | .json c => respJson r c s
  | .text c => respText r c s
  | .badRequest => respBadRequest r s
  | .internalServerError => respInternalServerError r s

/-- The same, with the argument looked at where the code does: `Redirect` after the body and the type were stored (113), `BadRequest` and
`InternalServerError` after the type (139-140, 145-146), the others at once after the status (http_resp.cpp:104-161). -/
def RespHelper.callArg (arg : HttpResp → Str) (r : HttpResp) : RespHelper → HttpResp
  | .redirect forever =>
    let r := if forever then
        { r with status := .MOVED_PERMANENTLY, body := b!"<html><body><h1>301 Moved Permanently</h1></body></html>" }
      else { r with status := .FOUND, body := b!"<html><body><h1>302 Found</h1></body></html>" }
    let r := respType r b!"text/html"
    { r with header := headerAdd r.header b!"Location" (arg r) }
  | .binary =>
    let r := { r with status := .OK }
    respType { r with body := arg r } b!"application/octet-stream"
  | .json c =>
    let r := { r with status := c }
    respType { r with body := arg r } b!"application/json"
  | .text c =>
    let r := { r with status := c }
    respType { r with body := arg r } b!"text/plain"
  | .badRequest =>
    let r := respType { r with status := .BAD_REQUEST } b!"text/html"
    { r with body := arg r }
  | .internalServerError =>
    let r := respType { r with status := .INTERNAL_SERVER_ERROR } b!"text/html"
    { r with body := arg r }

end Cppnet
