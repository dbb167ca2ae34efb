import Verif.Model.Conversation
import Verif.Model.Context
import Verif.Model.HttpTls

/-!
# The project's own unit tests, run on the model: HTTP

These are tests of the model, not proofs of properties: the assertions of `src/test/http` that need no outside server are
evaluated by the kernel.  Client and server are connected as in `Model/Conversation.lean`.
-/

namespace Cppnet

/-! ### src/test/http/req/http_req_test.hpp -/

/-- http_req_test.hpp:8-20. -/
def reqTestText : Str :=
  b!"POST /api/users/123?uid=123&txt=%E5%95%8A%E5%95%8A&token=456 HTTP/1.1\r\nHost: example.com\r\n" ++
  b!"Content-Type: application/json\r\nCookie: BAIDUID_BFESS=2F6CC156A9ED4578232A0CE56EA6D92C:FG=1; " ++
  b!"BIDUPSID=2F1CC156A9ED4576222A0CE56EA6D92C; PSTM=1740629752; H_PS_PSSID=60272_60853_609749_61027_61024; BD_HOME=8; " ++
  b!"BD_UPN=121363; BA_HECTOR=8l8k242425ag8gslagah2g8g3pp7eq1jibhoh1v; ZFY=WsFmSErjKZZubvHTlSfpplvzMTR4GBwu1saGRamI5Arac:C\r\n" ++
  b!"Content-Length: 25\r\n\r\n{'name':'Alice','age':25}"

set_option synthInstance.maxSize 1000 in
/-- http_req_test.hpp:7-46, `TEST(HttpReq, Parse)`; the parameter `txt` is the UTF-8 text of two Chinese characters. -/
example : (do
    let (r, rc) ← reqParse {} reqTestText
    let cookies := [← headerGetCookieVal r.header b!"BIDUPSID", ← headerGetCookieVal r.header b!"unexist"]
    .ok (rc, r.method, r.route.path, [b!"uid", b!"token", b!"txt", b!"unexist"].map (routeGetParam r.route),
      headerGetContentLength r.header, r.body, cookies) : Out (Int × HttpMethod × Str × List Str × Int × Str × List Str)) =
    .ok (0, .POST, b!"/api/users/123", [b!"123", b!"456", [0xE5, 0x95, 0x8A, 0xE5, 0x95, 0x8A], b!""], 25,
      b!"{'name':'Alice','age':25}", [b!"2F1CC156A9ED4576222A0CE56EA6D92C", b!""]) := by decide +kernel

/-- http_req_test.hpp:48-53, `TEST(HttpReq, CustomType)`. -/
example : (let g := setCustomContentType UMap.empty b!"temp" b!"example"
    (contentTypeToStr g (contentTypeOfFile g b!"temp") b!"temp").1) = b!"example" := by decide +kernel

/-! ### src/test/http/resp/http_resp_test.hpp -/

/-- http_resp_test.hpp:7-22, `TEST(HttpResp, Parse)`. -/
example : (respParse {} b!"HTTP/1.1 200 OK\r\nContent-Type: application/json\r\nContent-Length: 21\r\n\r\n{'message':'Success'}").map
    (fun r => (r.2, r.1.version, r.1.status, r.1.body)) = .ok (0, .HTTP_1_1, .OK, b!"{'message':'Success'}") := by decide +kernel

/-! ### src/test/http/server/http_server_test.hpp -/

/-- http_resp.cpp:98-102, what `NotFound` writes; the tests do not look at it. -/
def notFoundBody : Str := (respNotFound {}).body

/-- A call of `Send` with `req.GET(path)`, as the tests make them. -/
def testGet (path : Str) : HttpReq := reqGET .insertion {} path UMap.empty UMap.empty

/-- The calls register, then the requests are sent one after the other on one connection: for each the result of `Send`, the
status and the body, and the user state at the end. -/
def testTalk {σ : Type} (calls : List (ApiCall σ)) (reqs : List (Env × HttpReq)) (u : σ) :
    Out (List (Int × HttpStatus × Str × ContentType × Str) × σ) := do
  let s ← calls.foldlM (fun s c => c.perform s) {}
  let (sents, _, _, u) ← converse .insertion s reqs ⟨[], 0⟩ ⟨[], 0⟩ u
  .ok (sents.map fun x => (x.rc, x.resp.status, x.resp.body, headerGetContentType x.resp.header,
    headerGet x.resp.header b!"Content-Type"), u)

/-- http_server_test.hpp:17-20: the handler answers and stops the server. -/
def helloStop : Handler Unit := fun ctx => .ok { ctx with resp := respText ctx.resp .OK b!"hello world", running := false }

set_option synthInstance.maxSize 1000 in
/-- http_server_test.hpp:11-48, `TEST(HttpServer, HelloWorld)`. -/
example : (testTalk [{ fn := .get b!"/hello" (some helloStop) [] }] [({}, testGet b!"/world"), ({}, testGet b!"/hello")] ()).map
    (fun r => r.1.map fun x => (x.1, x.2.1, x.2.2.1)) =
    .ok [(0, .NOT_FOUND, notFoundBody), (0, .OK, b!"hello world")] := by decide +kernel

/-- http_server_test.hpp:64-83: the files of the test; the system takes several slashes for one. -/
def staticTestFs : FileSys := fun p =>
  let name := (p.drop 1).dropWhile (· == 47)
  if name = b!"index.html" ∨ name = b!"index.demo" then .file (some b!"hello world")
  else if name = [] then .other
  else .missing

/-- http_server_test.hpp:65-70. -/
def staticTestCalls : List (ApiCall Unit) :=
  [{ fn := .staticDir b!"/static" b!"./" [] }, { fn := .staticFile b!"/index.h" b!"./index.html" [] },
   { fn := .staticDir b!"/test/" b!"./" [] }, { fn := .staticFile b!"/test/" b!"./index.html" [] },
   { fn := .staticFile b!"/demo" b!"./index.demo" [] }]

/-- What the kernel says about the static test. -/
def staticTestTalk : Out (List (Int × HttpStatus × Str × ContentType × Str) × Unit) :=
  testTalk staticTestCalls
    ((([b!"/static/index.html", b!"/index.ht", b!"/index.h", b!"/test/index.html", b!"/test/", b!"/demo"].map fun p =>
      (({ fs := staticTestFs } : Env), testGet p))) ++
      [({ fs := staticTestFs, types := setCustomContentType UMap.empty b!"demo" b!"application/demo" }, testGet b!"/demo")]) ()

set_option synthInstance.maxSize 1000 in
/-- http_server_test.hpp:50-171, `TEST(HttpServer, Static)`: status and body of all answers. -/
example : staticTestTalk.map (fun r => r.1.map fun x => (x.1, x.2.1, x.2.2.1)) =
    .ok [(0, .OK, b!"hello world"), (0, .NOT_FOUND, notFoundBody), (0, .OK, b!"hello world"),
      (0, .OK, b!"hello world"), (0, .OK, b!"hello world"), (0, .OK, b!"hello world"), (0, .OK, b!"hello world")] := by
  decide +kernel

/-- The same test: the content types it asks for (lines 104, 127, 155, 167). -/
example : staticTestTalk.map (fun r => (r.1.map fun x => x.2.2.2.1).take 3) = .ok [.textHtml, .textHtml, .textHtml] ∧
    staticTestTalk.map (fun r => ((r.1.map fun x => x.2.2.2.1).drop 5).take 1) = .ok [.applicationOctetStream] ∧
    staticTestTalk.map (fun r => (r.1.map fun x => x.2.2.2.2).drop 6) = .ok [b!"application/demo"] := by decide +kernel

set_option synthInstance.maxSize 1000 in
/-- http_server_test.hpp:173-214, `TEST(HttpServer, Group)`. -/
example : (testTalk [{ groups := [b!"/api"], fn := .get b!"/hello" (some helloStop) [] }]
      [({}, testGet b!"/hello"), ({}, testGet b!"/api/hello")] ()).map (fun r => r.1.map fun x => (x.1, x.2.1, x.2.2.1)) =
    .ok [(0, .NOT_FOUND, notFoundBody), (0, .OK, b!"hello world")] := by decide +kernel

/-- http_server_test.hpp:228-234: the middleware that counts (`count_func`); the state is the counter and whether `temp` is 10. -/
def countFunc : Handler (Nat × Bool) := fun ctx => .ok { ctx with user := (ctx.user.1 + 1, true) }.next

/-- http_server_test.hpp:238-247, the second handler: it answers, finds the value and stops the server. -/
def helloSeen : Handler (Nat × Bool) := fun ctx =>
  if ctx.user.2 then .ok { ctx with resp := respText ctx.resp .OK b!"hello world", running := false }
  else .error .terminate

set_option synthInstance.maxSize 1000 in
/-- http_server_test.hpp:216-275, `TEST(HttpServer, Middleware)`: the third handler is not called because the server was stopped. -/
example : (testTalk [{ fn := .use (some countFunc) [] },
      { fn := .gets b!"/hello" [some countFunc, some helloSeen, some countFunc] [] }] [({}, testGet b!"/hello")] (0, false)).map
    (fun r => (r.1.map fun x => (x.1, x.2.1, x.2.2.1), r.2.1)) = .ok ([(0, .OK, b!"hello world")], 2) := by decide +kernel

/-- http_server_test.hpp:231, 241-244: the data of a context; a value of another type is not found. -/
inductive TestTy where
  | int | string
  deriving DecidableEq

/-- The types the test stores in a context. -/
def testTypes : CppTypes where
  Ty := TestTy
  Val | .int => Int | .string => Str
  dflt | .int => (0 : Int) | .string => ([] : Str)

example : (ctxGet (ctxRun [.set b!"temp" .int (10 : Int)] : CtxData testTypes) b!"temp" .int).2 = (10 : Int) ∧
    (ctxGet (ctxRun [.set b!"temp" .int (10 : Int)] : CtxData testTypes) b!"temp" .string).2 = ([] : Str) := ⟨rfl, rfl⟩

/-- http_server_test.hpp:277-352, `TEST(HttpServer, HttpsServer)`: the request over TLS (lines 308-323), in one record and in
single bytes. -/
example : (do
    let s ← ({ fn := .get b!"/hello" (some fun ctx => .ok { ctx with resp := respText ctx.resp .OK b!"hello world" }) [] } :
      ApiCall Unit).perform {}
    let text := (reqBuild .insertion (testGet b!"/hello") []).2.1
    let (a, _) ← handleReadTls {} s { records := [text], fin := 0 } ()
    let (b, _) ← handleReadTls {} s { records := text.map fun c => [c], fin := 0 } ()
    let (x, _) ← clientSendTls .insertion (testGet b!"/hello") {} 1 { records := a.sent, fin := 0 }
    let (y, _) ← clientSendTls .insertion (testGet b!"/hello") {} 1 { records := b.sent.flatten.map fun c => [c], fin := 0 }
    .ok [(x.rc, x.resp.status, x.resp.body), (y.rc, y.resp.status, y.resp.body)] : Out (List (Int × HttpStatus × Str))) =
    .ok [(0, .OK, b!"hello world"), (0, .OK, b!"hello world")] := by decide +kernel

end Cppnet
