import Verif.Model.HttpServer

/-!
# Model of the example programs: `README.en.md`, `demo/use-lib-server`, `demo/simple-http-server`, `demo/mnist`

What the programs register; their output to the terminal, `Init` and `Run` are left out (C152 is about `Init`; the server
is the one of `Model/HttpServer`).
-/

namespace Cppnet
variable {σ : Type}

/-- demo/use-lib-server/main.cpp:16, README.en.md:41: the text of the page. -/
def helloPage : Str := b!"<h1>Hello, World!</h1>"

/-- demo/use-lib-server/main.cpp:14-17, demo/use-lib-server-ssl/main.cpp:23-26, README.en.md:39-42, 74-77, the callback. -/
def helloHandler : Handler σ := fun ctx =>
  let (resp, types) := respSuccess ctx.types ctx.resp .textHtml helloPage
  .ok { ctx with resp, types }

/-- demo/use-lib-server/main.cpp:14-17: what the program registers. -/
def helloCalls : List (ApiCall σ) := [{ fn := .get b!"/" (some helloHandler) [] }]

/-- demo/simple-http-server/main.cpp:26-35: what the program registers. -/
def simpleCalls : List (ApiCall σ) :=
  [{ fn := .get b!"/hello" (some fun ctx => .ok { ctx with resp := respText ctx.resp .OK b!"hello world" }) [] },
   { fn := .get b!"/world" (some fun ctx => .ok { ctx with resp := respRedirect ctx.resp b!"https://chenxuanweb.top" false }) [] },
   { fn := .staticFile b!"/" b!"../asset/index.html" [] },
   { fn := .staticDir b!"/" b!"../asset/blog-home/" [] }]

/-- What the JSON library and the network answer (both third-party; demo/mnist/main.cpp:14-26, 39-79, 94). -/
structure MnistAns where
  parse : Str → Option (List (List Int))
  predict : List Int → Int
  dump : Int → Str → Int → Str

/-- demo/mnist/main.cpp:28-37, `MnistResp`; `result` is uninitialised until it is assigned. -/
structure MnistResp where
  code : Int
  msg : Str
  result : Option Int := none

/-- demo/mnist/main.cpp:32-36, `Json::Dump`: reading an uninitialised `int` is undefined behaviour. -/
def mnistDump (a : MnistAns) (r : MnistResp) : Out Str :=
  match r.result with
  | none => .error .ub
  | some n => .ok (a.dump r.code r.msg n)

/-- `data[i][j]` of a vector of vectors (demo/mnist/main.cpp:60, 118): out of range is undefined behaviour. -/
def mnistAt (data : List (List Int)) (i j : Nat) : Out Int :=
  match data[i]? with
  | none => .error .ub
  | some row =>
    match row[j]? with
    | none => .error .ub
    | some n => .ok n

/-- demo/mnist/main.cpp:57-62, the loops of `GetMnistResult`. -/
def mnistInput (data : List (List Int)) : Out (List Int) :=
  ((List.range 28).flatMap fun i => (List.range 28).map fun j => (i, j)).mapM fun p => mnistAt data p.1 p.2

/-- demo/mnist/main.cpp:89-127, the callback.  (The copy of the picture on the terminal, 116-121, reads the same elements as 57-62.) -/
def mnistHandler (a : MnistAns) : Handler σ := fun ctx =>
  match a.parse ctx.req.body with
  | none => do
    let text ← mnistDump a { code := 400, msg := b!"parse json wrong " }
    .ok { ctx with resp := respBadRequest ctx.resp text }
  | some data =>
    if data.length ≠ 28 ∨ ∃ row ∈ data, row.length ≠ 28 then do
      let text ← mnistDump a { code := 400, msg := b!"data size must be 28 " }
      .ok { ctx with resp := respBadRequest ctx.resp text }
    else do
      let input ← mnistInput data
      let text ← mnistDump a { code := 200, msg := b!"ok", result := some (a.predict input) }
      .ok { ctx with resp := respSuccessWithJson ctx.resp text }

/-- demo/mnist/main.cpp:89-129: what the program registers. -/
def mnistCalls (a : MnistAns) : List (ApiCall σ) :=
  [{ fn := .post b!"/mnist" (some (mnistHandler a)) [] }, { fn := .staticFile b!"/" b!"./index.html" [] }]

end Cppnet
