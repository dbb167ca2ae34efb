import Verif.Model.ErrText
import Verif.Model.Socket
import Verif.Model.Trie

/-!
# Model of `src/cppnet/http/server/http_server.cpp`, `http_server.hpp`, the filters, and the file
reads of `src/cppnet/utils/file.cpp`

Plain (non-SSL) connections.  Log output is not modelled, except that a handler that logs needs a live
logger.  Callbacks do not register further handlers.
-/

namespace Cppnet

/-! ### Files, as the static handlers see them -/

/-- What the operating system reports for a path: nothing there, a regular file (with its contents, or one that
cannot be opened), a regular file that can be opened but not read to its end (`broken`), something else (a directory, …),
or a `stat` that fails for another reason (name too long, no permission on the way, too many links)
(seen by file.cpp:10-20, 32-35). -/
inductive FsEntry where
  | missing
  | file (content : Option Str)
  | broken
  | other
  | failed
  deriving DecidableEq

/-- A file system as it is while one request is served.  Paths are passed as C strings
(seen by file.cpp:10-20, 32-35). -/
abbrev FileSys := Str → FsEntry

/-- file.cpp:32-35, `File::Exist`: `std::filesystem::exists` throws when `stat` fails for another reason
than a missing file. -/
def fileExist (fs : FileSys) (path : Str) : Out Bool :=
  match fs (cString path) with
  | .missing => .ok false
  | .file _ => .ok true
  | .broken => .ok true
  | .other => .ok false
  | .failed => .error .fsError

/-- file.cpp:10-20, `File::Read`: the return code and `data` afterwards.  The bytes are taken from the buffer of the
stream, which throws when the system fails to read an open file (`std::filebuf` of libstdc++); a directory is such a
file. -/
def fileRead (fs : FileSys) (path data : Str) : Out (Int × Str) :=
  match fs (cString path) with
  | .file (some content) => .ok (kSuccess, content)
  | .broken => .error .fsError
  | .other => .error .fsError
  | _ => .ok (kLogicErr, data)

/-! ### Contexts, filters, handlers -/

/-- http_server.hpp:20-61, `HttpContext`, together with the rest of the world a handler can act on: the
connection (`soc()`), what was written to it, the server's own `is_continue_` flag (which `Stop` clears,
`running`), the global custom content types, the file system, which `HttpGroup`
objects still exist (`live`, by number), and any user state `σ`.  The inline data
is modelled in `Model/Context.lean`; here it is part of `σ`. -/
structure Ctx (σ : Type) where
  req : HttpReq
  resp : HttpResp := {}
  conn : Conn
  sent : List Str := []
  isContinue : Bool := false
  running : Bool := true
  types : UMap := UMap.empty
  fs : FileSys := fun _ => .missing
  live : Nat → Bool := fun _ => true
  user : σ

/-- http_server.hpp:32, `Next`. -/
def Ctx.next {σ : Type} (c : Ctx σ) : Ctx σ := { c with isContinue := true }

/-- http_server.hpp:33, `Abort`. -/
def Ctx.abort {σ : Type} (c : Ctx σ) : Ctx σ := { c with isContinue := false }

/-- http_filter.hpp:17, `IsMatchFilter`.  Simplification: a filter does not modify the request. -/
abbrev Filter := HttpReq → Out Bool

/-- http_method_filter.hpp:12-14, `HttpMethodFilter`. -/
def methodFilter (m : HttpMethod) : Filter := fun r => .ok (r.method == m)

/-- http_host_filter.hpp:18-22, `HttpHostFilter`.  `regex` is what `std::regex_match` answers for the
configured expression (a default-constructed `std::regex` matches nothing); `wildCard` is empty unless
set. -/
def hostFilter (regex : Str → Bool) (wildCard : Str) : Filter := fun r =>
  if regex (headerGetHost r.header) then .ok true else WildCardMatch wildCard (headerGetHost r.header)

/-- `std::regex` after its default constructor (http_host_filter.hpp:25). -/
def noRegex : Str → Bool := fun _ => false

/-- http_server.hpp:63, `HttpCallback`. -/
abbrev Handler (σ : Type) := Ctx σ → Out (Ctx σ)

/-- http_server.hpp:65-69, `HttpTrieData`; `none` is an empty `std::function`. -/
structure Entry (σ : Type) where
  callback : Option (Handler σ)
  exact : Bool := true
  filters : List Filter := []

/-- http_server.hpp:240-242: the trie holds `shared_ptr`s to vectors of entries; a pointer is an index
into `store`, so that a vector changed through one pointer is seen through every other. -/
structure Server (σ : Type) where
  trie : TNode Nat := TNode.empty
  store : List (List (Entry σ)) := []

variable {σ : Type}

/-- http_server.cpp:54-67, `HttpGroup::RegisterHandler` of a group with prefix `route`.  Line 58 looks
up `path`, line 62 stores under `route_ + path`. -/
def registerHandler (route path : Str) (e : Entry σ) (s : Server σ) : Out (Server σ) := do
  match ← trieGet s.trie path with
  | none => do
    let t ← trieSet s.trie (route ++ path) s.store.length
    .ok { trie := t, store := s.store ++ [[e]] }
  | some r => .ok { s with store := s.store.modify r (· ++ [e]) }

/-- http_server.cpp:69-80, the overload with several callbacks. -/
def registerHandlers (route path : Str) (cbs : List (Option (Handler σ))) (filters : List Filter) (exact : Bool)
    (s : Server σ) : Out (Server σ) :=
  cbs.foldlM (fun s cb => registerHandler route path { callback := cb, exact, filters } s) s

/-- http_server.cpp:12-19, `GET`: the method filter is added to a copy that is then not used. -/
def groupGET (route path : Str) (cb : Option (Handler σ)) (filters : List Filter) (s : Server σ) : Out (Server σ) :=
  let _newFilters := filters ++ [methodFilter .GET]
  registerHandler route path { callback := cb, filters := filters } s

/-- http_server.cpp:33-40, `POST`: likewise. -/
def groupPOST (route path : Str) (cb : Option (Handler σ)) (filters : List Filter) (s : Server σ) : Out (Server σ) :=
  let _newFilters := filters ++ [methodFilter .POST]
  registerHandler route path { callback := cb, filters := filters } s

/-- http_server.cpp:21-31, `GET` with several callbacks (each call returns `kSuccess`). -/
def groupGETs (route path : Str) (cbs : List (Option (Handler σ))) (filters : List Filter) (s : Server σ) :
    Out (Server σ) :=
  cbs.foldlM (fun s cb => groupGET route path cb filters s) s

/-- http_server.cpp:42-52, `POST` with several callbacks. -/
def groupPOSTs (route path : Str) (cbs : List (Option (Handler σ))) (filters : List Filter) (s : Server σ) :
    Out (Server σ) :=
  cbs.foldlM (fun s cb => groupPOST route path cb filters s) s

/-- http_server.cpp:82-84, `Group`: the prefix of the new group. -/
def groupRoute (route sub : Str) : Str := route ++ sub

/-- http_server.cpp:86-89, `Use`. -/
def groupUse (route : Str) (cb : Option (Handler σ)) (filters : List Filter) (s : Server σ) : Out (Server σ) :=
  registerHandler route [] { callback := cb, exact := false, filters } s

/-- http_server.cpp:100-133, the lambda of `StaticDir`.  It captures `this`, the group number `g`, and
uses its `logger_` on every way out. -/
def staticDirHandler (g : Nat) (path dir : Str) : Handler σ := fun ctx =>
  if !ctx.live g then .error .ub
  else
    match find ctx.req.route.path path with
    | none => .ok { ctx with resp := respNotFound ctx.resp }
    | some pos => do
      let aim ← substrFrom ctx.req.route.path (pos + path.length)
      if (find aim b!"..").isSome then .ok { ctx with resp := respNotFound ctx.resp }
      else do
        let file := dir ++ b!"/" ++ aim
        if !(← fileExist ctx.fs file) then .ok ctx.next
        else do
          let (rc, body) ← fileRead ctx.fs file ctx.resp.body
          let resp := { ctx.resp with body }
          if rc ≠ kSuccess then .ok { ctx with resp := respNotFound resp }
          else do
            let resp := { resp with header := headerSetLongConnection resp.header true }
            let suffix ← Suffix file
            let (resp, types) := respSuccess ctx.types resp (contentTypeOfFile ctx.types suffix) []
            .ok { ctx with resp, types }

/-- http_server.cpp:91-140, `StaticDir`. -/
def groupStaticDir (g : Nat) (route path dir : Str) (filters : List Filter) (s : Server σ) : Out (Server σ) :=
  registerHandler route path
    { callback := some (staticDirHandler g path dir), exact := false, filters := filters ++ [methodFilter .GET] } s

/-- http_server.cpp:151-173, the lambda of `StaticFile` (again with the captured group). -/
def staticFileHandler (g : Nat) (file : Str) : Handler σ := fun ctx => do
  if !ctx.live g then .error .ub
  else if !(← fileExist ctx.fs file) then .ok { ctx with resp := respNotFound ctx.resp }.next
  else do
    let (rc, body) ← fileRead ctx.fs file ctx.resp.body
    let resp := { ctx.resp with body }
    if rc ≠ kSuccess then .ok { ctx with resp := respNotFound resp }
    else do
      let resp := { resp with header := headerSetLongConnection resp.header true }
      let suffix ← Suffix file
      let (text, types) := contentTypeToStr ctx.types (contentTypeOfFile ctx.types suffix) suffix
      let resp := { resp with header := headerSetContentTypeStr resp.header text }
      .ok { ctx with resp := respSuccess0 resp, types }

/-- http_server.cpp:142-180, `StaticFile`. -/
def groupStaticFile (g : Nat) (route path file : Str) (filters : List Filter) (s : Server σ) : Out (Server σ) :=
  registerHandler route path
    { callback := some (staticFileHandler g file), filters := filters ++ [methodFilter .GET] } s

/-- A call of a registering member function (http_server.hpp:72-143). -/
inductive ApiFn (σ : Type) where
  | register (path : Str) (cb : Option (Handler σ)) (filters : List Filter) (exact : Bool)
  | registers (path : Str) (cbs : List (Option (Handler σ))) (filters : List Filter) (exact : Bool)
  | get (path : Str) (cb : Option (Handler σ)) (filters : List Filter)
  | gets (path : Str) (cbs : List (Option (Handler σ))) (filters : List Filter)
  | post (path : Str) (cb : Option (Handler σ)) (filters : List Filter)
  | posts (path : Str) (cbs : List (Option (Handler σ))) (filters : List Filter)
  | use (cb : Option (Handler σ)) (filters : List Filter)
  | staticDir (path dir : Str) (filters : List Filter)
  | staticFile (path file : Str) (filters : List Filter)

/-- A call on the group reached from the server by a chain of `Group` calls; `g` is the number of that
group object (http_server.hpp:72-149). -/
structure ApiCall (σ : Type) where
  groups : List Str := []
  g : Nat := 0
  fn : ApiFn σ

/-- http_server.hpp:154 (`HttpServer` is the group with the empty prefix) and http_server.cpp:12-180:
perform one call. -/
def ApiCall.perform (c : ApiCall σ) (s : Server σ) : Out (Server σ) :=
  let route := c.groups.foldl groupRoute []
  match c.fn with
  | .register path cb filters exact => registerHandler route path { callback := cb, exact, filters } s
  | .registers path cbs filters exact => registerHandlers route path cbs filters exact s
  | .get path cb filters => groupGET route path cb filters s
  | .gets path cbs filters => groupGETs route path cbs filters s
  | .post path cb filters => groupPOST route path cb filters s
  | .posts path cbs filters => groupPOSTs route path cbs filters s
  | .use cb filters => groupUse route cb filters s
  | .staticDir path dir filters => groupStaticDir c.g route path dir filters s
  | .staticFile path file filters => groupStaticFile c.g route path file filters s

/-! ### Serving one request -/

/-- http_server.cpp:374-380: do all filters match? -/
def filtersMatch (r : HttpReq) : List Filter → Out Bool
  | [] => .ok true
  | f :: fs => do if ← f r then filtersMatch r fs else .ok false

/-- http_server.cpp:367-389, the callback given to `Trie::Search`: the loop over the entries of one
node.  Line 383 tests the *server's* flag. -/
def runNode (isEnd : Bool) : List (Entry σ) → Ctx σ → Out (Ctx σ × Bool)
  | [], ctx => .ok (ctx, true)
  | e :: es, ctx =>
    if !isEnd && e.exact then runNode isEnd es ctx
    else do
      if ← filtersMatch ctx.req e.filters then
        match e.callback with
        | none => runNode isEnd es ctx
        | some f => do
          let ctx ← f ctx
          if !ctx.running then .ok (ctx, false) else runNode isEnd es ctx
      else runNode isEnd es ctx

/-- http_server.cpp:364-389, step 2 of `HandleRead`. -/
def dispatch (s : Server σ) (path : Str) (ctx : Ctx σ) : Out (Ctx σ) :=
  trieSearch (fun ctx ref isEnd => runNode isEnd (s.store.getD ref []) ctx) ctx s.trie path

/-- What one `HandleRead` did: the buffers written (in order), whether the connection was closed and
removed, the rest of the stream, the user state, the global custom content types (http_server.cpp:279-411). -/
structure Served (σ : Type) where
  sent : List Str
  closed : Bool
  conn : Conn
  user : σ
  types : UMap

/-- What the environment decides: the order in which header maps are printed, the result of the server's `Write`, and the world the handlers see (http_server.cpp:279-411). -/
structure Env where
  order : HashOrder := .insertion
  writeRc : Int := 1
  running : Bool := true
  types : UMap := UMap.empty
  fs : FileSys := fun _ => .missing
  live : Nat → Bool := fun _ => true

/-- http_server.cpp:391-411, step 3: the response text (line 396 to 400 cannot happen: after line 393 the
status is known, so `Build` succeeds; it is kept as in the code). -/
def responseText (o : HashOrder) (resp : HttpResp) : Str :=
  let resp := if resp.status = .UNKNOWN then respNotFound resp else resp
  let (resp, text, rc) := respBuild o resp []
  if rc ≠ kSuccess then (respBuild o (respInternalServerError resp b!"error") text).2.1 else text

/-- http_server.cpp:359-411: steps 2 and 3 for a request `req` and the rest of the stream `conn`. -/
def serveRequest (env : Env) (s : Server σ) (req : HttpReq) (conn : Conn) (u : σ) : Out (Served σ) := do
  let ctx ← dispatch s req.route.path
    { req, conn, running := env.running, types := env.types, fs := env.fs, live := env.live, user := u }
  .ok { sent := ctx.sent ++ [responseText env.order ctx.resp], closed := decide (env.writeRc < 0),
        conn := ctx.conn, user := ctx.user, types := ctx.types }

/-- http_server.cpp:279-411, `HttpServer::HandleRead` on an open plain socket. -/
def handleRead (env : Env) (s : Server σ) (c : Conn) (u : σ) : Out (Served σ) := do
  let (len, buf, c) ← sockReadUntil c [] crlf2
  if len ≤ 0 then .ok { sent := [], closed := true, conn := c, user := u, types := env.types }
  else do
    let (req, rc) ← reqParse {} buf
    if rc ≠ kSuccess then
      .ok { sent := [(respBuild env.order (respBadRequest {} (reqErrText buf)) []).2.1], closed := true, conn := c, user := u, types := env.types }
    else
      let n := headerGetContentLength req.header
      if n > 0 then
        let (rc, body, c) := sockRead c n.toNat true 0
        if rc ≤ 0 then .ok { sent := [], closed := true, conn := c, user := u, types := env.types }
        else serveRequest env s { req with body } c u
      else serveRequest env s req c u

end Cppnet
