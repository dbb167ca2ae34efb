import Verif.Model.ArgcDeal
import Verif.Model.HttpServer
import Verif.Model.File

/-!
# Model of `demo/web-server/main.cpp` and `demo/web-server/config/config.hpp`

The web server that is shipped with the library.  The JSON parser is third-party and not part of the repository: what it
makes of the configuration file is an answer.  The output to the terminal is not modelled.  `BackGround` and `Guard`
are in `Model/ProcessCtrl.lean`; here the process is followed that goes on to serve.
-/

namespace Cppnet

/-- config.hpp:7-17, `RedirectConfig`. -/
structure RedirectConfig where
  route : Str
  redirect : Str
  host : Str := []

/-- config.hpp:19-29, `StaticConfig`. -/
structure StaticConfig where
  route : Str
  path : Str
  host : Str := []

/-- config.hpp:31-41, `SSLConfig`. -/
structure SslConfig where
  certPath : Str := []
  keyPath : Str := []
  password : Str := []

/-- config.hpp:43-73, `Config`. -/
structure WebConfig where
  port : Int := 0
  host : Str := []
  isBackground : Bool := false
  isGuard : Bool := false
  logPath : Str := []
  redirects : List RedirectConfig := []
  statics : List StaticConfig := []
  ssl : SslConfig := {}

/-- main.cpp:50, the address the server is initialised with: `(uint16_t)config.port`. -/
def webAddress (c : WebConfig) : Str × Nat := (c.host, (c.port % 65536).toNat)

/-- main.cpp:76-81 and 89-94, the filters of one item. -/
def webFilters (host : Str) : List Filter := if host ≠ [] then [hostFilter noRegex host] else []

variable {σ : Type}

/-- main.cpp:74-86, one redirect (`Redirect` without a second argument is not for ever). -/
def webRedirect (r : RedirectConfig) : ApiCall σ :=
  { fn := .get r.route (some fun ctx => .ok { ctx with resp := respRedirect ctx.resp r.redirect false })
      (webFilters r.host) }

/-- main.cpp:88-106, one static item; `none`: nothing is there and the program ends. -/
def webStatic (res : Str → FsKey) (fs : FsTree) (s : StaticConfig) : Option (ApiCall σ) :=
  if fileIsDir res fs s.path then some { fn := .staticDir s.route s.path (webFilters s.host) }
  else if fileIsFile res fs s.path then some { fn := .staticFile s.route s.path (webFilters s.host) }
  else none

/-- main.cpp:74-106: all registrations, in order. -/
def webCalls (res : Str → FsKey) (fs : FsTree) (c : WebConfig) : Option (List (ApiCall σ)) :=
  (c.statics.mapM (webStatic res fs)).map (c.redirects.map webRedirect ++ ·)

/-- The results of `InitSvrFile` and of `Init` or `InitSSL` (main.cpp:54, 61, 67). -/
structure WebAns where
  ctxRc : Int := 0
  initRc : Int := 0
  write : FsAns := {}

/-- How far `RunWithConfig` gets (main.cpp:21-127). -/
inductive WebEnd (σ : Type) where
  | sslError
  | serverError
  | missing
  | runs (tls : Bool) (address : Str × Nat) (calls : List (ApiCall σ))

/-- main.cpp:119-127, the end of `RunWithConfig`: the pid is written to a file and the server runs. -/
def webServe (res : Str → FsKey) (fs : FsTree) (a : WebAns) (tls : Bool) (c : WebConfig) (pid : Int) : FsTree × WebEnd σ :=
  match webCalls res fs c with
  | none => (fs, .missing)
  | some calls => ((fileWrite res fs b!"./server.pid" (intToStr pid) a.write).1, .runs tls (webAddress c) calls)

/-- main.cpp:21-127, `RunWithConfig` in the process that leaves `BackGround` and `Guard`; `self`: `getpid()` after
`BackGround`.  (The logger and the timeouts are not modelled here: C58, C115.) -/
def runWithConfig (res : Str → FsKey) (fs : FsTree) (a : WebAns) (self : Int) (c : WebConfig) : FsTree × WebEnd σ :=
  let pid := if c.isBackground then self else 0
  if c.ssl.certPath ≠ [] then
    if a.ctxRc ≠ 0 then (fs, .sslError)
    else if a.initRc ≠ 0 then (fs, .serverError)
    else webServe res fs a true c pid
  else if a.initRc ≠ 0 then (fs, .serverError)
  else webServe res fs a false c pid

/-- How `_main` ends: the process exits, dies of an exception that nobody catches, or `RunWithConfig` is called (main.cpp:129-181). -/
inductive MainEnd where
  | exit (code : Int)
  | threw
  | run (c : WebConfig)

/-- What `_main` did: the signals it sent (pid, signal) and how it ends (main.cpp:129-181). -/
structure MainDone where
  kills : List (Int × Int) := []
  stop : MainEnd

/-- The answers of the system and of the JSON parser (main.cpp:132, 166, 173). -/
structure MainAns where
  pidRead : FsAns := {}
  configRead : FsAns := {}
  parse : Str → Int × WebConfig

variable {φ : Type}

/-- main.cpp:159-180, the second half of `_main`: the configuration is read. -/
def mainConfig (res : Str → FsKey) (fs : FsTree) (a : MainAns) (d : ArgcDeal φ) : MainEnd :=
  let file := if argcGetOption d b!"config" then argcGetVar d b!"config" else b!"./config.json"
  match fileGet res fs file [] a.configRead with
  | .error _ => .threw
  | .ok (rc, text) =>
    if rc ≠ 0 then .exit 0
    else match a.parse text with
      | (rc, c) => if rc ≠ 0 then .exit (-1) else .run c

/-- main.cpp:129-181, `_main`. -/
def webMain (res : Str → FsKey) (fs : FsTree) (a : MainAns) (d : ArgcDeal φ) : MainDone :=
  if argcGetOption d b!"reload" || argcGetOption d b!"stop" then
    match fileGet res fs b!"./server.pid" [] a.pidRead with
    | .error _ => { stop := .threw }
    | .ok (rc, text) =>
      if rc ≠ 0 then { stop := mainConfig res fs a d }
      else match stoi text with
        | .error _ => { stop := .exit 0 }
        | .ok pid =>
          if pid ≤ 66 then { stop := .exit 0 }
          else if argcGetOption d b!"stop" then { kills := [(pid, 2)], stop := .exit 0 }
          else { kills := [(pid, 2)], stop := mainConfig res fs a d }
  else { stop := mainConfig res fs a d }

/-- The file system as the handlers of the server see it (http_server.cpp:115, 153 call `File::Exist` and
`File::Read`). -/
def sysView (res : Str → FsKey) (fs : FsTree) : FileSys := fun path =>
  match fs (res path) with
  | none => .missing
  | some (.file data _) => .file (some data)
  | some _ => .other

end Cppnet
