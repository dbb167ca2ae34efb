import Verif.Model.HttpServer
import Verif.Model.File

/-!
# Files that other programs change meanwhile

The functions of `src/cppnet/utils/file.cpp` that ask the system more than once, and the static handlers, which call two of them: between
two of their system calls another program may do something.  `File::Read`, `Write`, `Append`, `LineCount` and `CanWrite` ask once (an
open file is taken to be read or written in one step).
-/

namespace Cppnet
variable {σ : Type}

/-- file.cpp:32-35, `File::Exist` as the static handlers see it: `std::filesystem::exists` finds `f0`, `is_regular_file` finds `f1`. -/
def fileExistAmid (f0 f1 : FileSys) (path : Str) : Out Bool :=
  match f0 (cString path) with
  | .missing => .ok false
  | .failed => .error .fsError
  | _ =>
    match f1 (cString path) with
    | .file _ => .ok true
    | .broken => .ok true
    | .missing => .ok false
    | .other => .ok false
    | .failed => .error .fsError

/-- http_server.cpp:151-173, the lambda of `StaticFile`; `File::Read` finds `f2`. -/
def staticFileAmid (g : Nat) (file : Str) (f0 f1 f2 : FileSys) : Handler σ := fun ctx => do
  if !ctx.live g then .error .ub
  else if !(← fileExistAmid f0 f1 file) then .ok { ctx with resp := respNotFound ctx.resp }.next
  else do
    let (rc, body) ← fileRead f2 file ctx.resp.body
    let resp := { ctx.resp with body }
    if rc ≠ kSuccess then .ok { ctx with resp := respNotFound resp }
    else do
      let resp := { resp with header := headerSetLongConnection resp.header true }
      let suffix ← Suffix file
      let (text, types) := contentTypeToStr ctx.types (contentTypeOfFile ctx.types suffix) suffix
      let resp := { resp with header := headerSetContentTypeStr resp.header text }
      .ok { ctx with resp := respSuccess0 resp, types }

/-- http_server.cpp:100-133, the lambda of `StaticDir`; `File::Read` finds `f2`. -/
def staticDirAmid (g : Nat) (path dir : Str) (f0 f1 f2 : FileSys) : Handler σ := fun ctx =>
  if !ctx.live g then .error .ub
  else
    match find ctx.req.route.path path with
    | none => .ok { ctx with resp := respNotFound ctx.resp }
    | some pos => do
      let aim ← substrFrom ctx.req.route.path (pos + path.length)
      if (find aim b!"..").isSome then .ok { ctx with resp := respNotFound ctx.resp }
      else do
        let file := dir ++ b!"/" ++ aim
        if !(← fileExistAmid f0 f1 file) then .ok ctx.next
        else do
          let (rc, body) ← fileRead f2 file ctx.resp.body
          let resp := { ctx.resp with body }
          if rc ≠ kSuccess then .ok { ctx with resp := respNotFound resp }
          else do
            let resp := { resp with header := headerSetLongConnection resp.header true }
            let suffix ← Suffix file
            let (resp, types) := respSuccess ctx.types resp (contentTypeOfFile ctx.types suffix) []
            .ok { ctx with resp, types }

/-- What other programs do between two system calls (between the calls of file.cpp:32-35, 50-74). -/
abbrev Meddle := FsTree → FsTree

/-- file.cpp:50-67, `File::Create`, with others at work between `exists` and `is_regular_file` (`m1`), before the directories are
looked at (`m2`) and before the file is opened (`m3`).  The directories themselves are made in one step. -/
def fileCreateAmid (res : Str → FsKey) (m1 m2 m3 : Meddle) (fs : FsTree) (path : Str) (a : FsAns) : Out (FsTree × Int) :=
  let k := res (cString path)
  if (fs k).isSome && fileIsFile res (m1 fs) path then .ok (m1 fs, kSuccess)
  else do
    let fs ← createDirs k a (m2 (m1 fs))
    createOpen k a (m3 fs)

/-- `std::filesystem::remove`: nothing there is not an error (`false`); it removes files and others, and directories as well if they are
empty (`grant`: the system lets it) (called at file.cpp:73). -/
def fsRemove (k : FsKey) (a : FsAns) (fs : FsTree) : Out (FsTree × Bool) :=
  match fs k with
  | none => .ok (fs, false)
  | some _ => if a.grant then .ok (fs.put k none, true) else .error .fsError

/-- file.cpp:69-74, `File::Remove`, with others at work between `exists` and `is_regular_file` (`m1`) and before the removal (`m2`). -/
def fileRemoveAmid (res : Str → FsKey) (m1 m2 : Meddle) (fs : FsTree) (path : Str) (a : FsAns) : Out (FsTree × Int) :=
  let k := res (cString path)
  if !((fs k).isSome && fileIsFile res (m1 fs) path) then .ok (m1 fs, kSuccess)
  else do
    let (fs, done) ← fsRemove k a (m2 (m1 fs))
    .ok (fs, if done then kSuccess else kSysErr)

end Cppnet
