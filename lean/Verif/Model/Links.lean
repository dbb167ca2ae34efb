import Verif.Model.File
import Verif.Model.FileLogger
import Verif.Model.HttpServer

/-!
# Names that lead elsewhere, or nowhere (`src/cppnet/utils/file.cpp`)

The functions of `File` in a tree with symbolic links and with directories that the process may not search.  The system walks along the
components of a name; a link is replaced by its target, at most 40 times (`path_resolution(7)`).  `Model/File` is the case without links
and closed directories (`C183_plain`).  A link's target is given as the components from the root (a relative one is read from the
directory of the link); names contain no `..`.
-/

namespace Cppnet

/-- What is found under a name: what `Model/File` knows, a directory without search permission, a symbolic link
(seen by the system calls of file.cpp:10-113). -/
inductive LNode where
  | node (n : FsNode)
  | shut
  | link (target : FsKey)
  deriving DecidableEq

/-- The tree with links (file.hpp:7-80). -/
abbrev LTree := FsKey → Option LNode

/-- One node is replaced (file.cpp:23, 57, 61, 73, 77). -/
def LTree.put (t : LTree) (k : FsKey) (v : Option LNode) : LTree := fun k' => if k' = k then v else t k'

/-- Where a name leads: something is there; nothing is there but its directory is; not even that (`ENOENT`, `ENOTDIR`); the system does
not say (`EACCES`, `ELOOP`) (the system calls of file.cpp:10-113). -/
inductive Walk where
  | found (k : FsKey) (n : LNode)
  | free (k : FsKey)
  | nothing
  | refused
  deriving DecidableEq

/-- The walk along `todo` from `here`; `follow`: a link at the end is followed; `jump`: what happens at a link, given what is still to be
walked along (`path_resolution(7)`; the system calls of file.cpp:10-113). -/
def walkVia (t : LTree) (follow : Bool) (jump : FsKey → Walk) : FsKey → FsKey → Walk
  | here, [] => match t here with
    | some n => .found here n
    | none => .nothing
  | here, c :: rest =>
    match t here with
    | some (.node .dir) =>
      match t (here ++ [c]) with
      | none => if rest = [] then .free (here ++ [c]) else .nothing
      | some (.link target) =>
        if rest = [] ∧ follow = false then .found (here ++ [c]) (.link target) else jump (target ++ rest)
      | some _ => walkVia t follow jump (here ++ [c]) rest
    | some .shut => .refused
    | _ => .nothing

/-- The walk with at most so many links: at a link it starts again at the root (`path_resolution(7)`; the system calls of
file.cpp:10-113). -/
def walk (t : LTree) (follow : Bool) : Nat → FsKey → FsKey → Walk
  | 0, here, todo => walkVia t follow (fun _ => .refused) here todo
  | n + 1, here, todo => walkVia t follow (walk t follow n []) here todo

/-- The walk for a path as `stat` and `open` do it (file.cpp:10-113). -/
def reach (res : Str → FsKey) (t : LTree) (path : Str) : Walk := walk t true 40 [] (res (cString path))

/-- `std::filesystem::status`: throws when the system does not say (called by `exists`, `is_regular_file`, `is_directory` at
file.cpp:33-34, 56, 87, 106-112). -/
def statusOf : Walk → Out (Option FsNode)
  | .found _ (.node n) => .ok (some n)
  | .found _ .shut => .ok (some .dir)
  | .found _ (.link _) => .ok none
  | .free _ => .ok none
  | .nothing => .ok none
  | .refused => .error .fsError

/-- What an `open` for reading gets at; nothing when it fails (file.cpp:11, 93). -/
def seen : Walk → Option FsNode
  | .found _ (.node n) => some n
  | .found _ .shut => some .dir
  | _ => none

/-- file.cpp:32-35 and 110-113, `File::Exist` and `File::IsFile`. -/
def linkIsFile (res : Str → FsKey) (t : LTree) (path : Str) : Out Bool := do
  let s ← statusOf (reach res t path)
  .ok (fileIsFile (fun _ => []) (fun _ => s) path)

/-- file.cpp:105-108, `File::IsDir`. -/
def linkIsDir (res : Str → FsKey) (t : LTree) (path : Str) : Out Bool := do
  let s ← statusOf (reach res t path)
  .ok (fileIsDir (fun _ => []) (fun _ => s) path)

/-- file.cpp:86-90, `File::CanWrite`. -/
def linkCanWrite (res : Str → FsKey) (t : LTree) (path : Str) : Out Bool := do
  let s ← statusOf (reach res t path)
  .ok (fileCanWrite (fun _ => []) (fun _ => s) path)

/-- file.cpp:10-20, `File::Read`: what is read is as in `fileGet`. -/
def linkGet (res : Str → FsKey) (t : LTree) (path data : Str) (a : FsAns) : Out (Int × Str) :=
  fileGet (fun _ => []) (fun _ => seen (reach res t path)) path data a

/-- file.cpp:92-103, `File::LineCount`. -/
def linkLineCount (res : Str → FsKey) (t : LTree) (path : Str) (a : FsAns) : Out Nat :=
  fileLineCount (fun _ => []) (fun _ => seen (reach res t path)) path a

/-- `std::ofstream`: the tree after an open for writing at this place that sets the content by `f`, or `none` if it fails; a new file is
empty before (file.cpp:23, 61, 77). -/
def openOut (t : LTree) (w : Walk) (grant : Bool) (f : Str → Str) : Option LTree :=
  if !grant then none
  else match w with
    | .found k (.node (.file d b)) => some (t.put k (some (.node (.file (f d) b))))
    | .found _ (.node .other) => some t
    | .free k => some (t.put k (some (.node (.file (f []) true))))
    | _ => none

/-- file.cpp:22-30, `File::Write`. -/
def linkWrite (res : Str → FsKey) (t : LTree) (path data : Str) (a : FsAns) : LTree × Int :=
  match openOut t (reach res t path) a.grant (fun _ => a.cut data) with
  | none => (t, kLogicErr)
  | some t => (t, kSuccess)

/-- file.cpp:76-84, `File::Append`. -/
def linkAppend (res : Str → FsKey) (t : LTree) (path data : Str) (a : FsAns) : LTree × Int :=
  match openOut t (reach res t path) a.grant (· ++ a.cut data) with
  | none => (t, kLogicErr)
  | some t => (t, kSuccess)

/-- `std::filesystem::create_directory` for one directory on the way: it does not follow a link at the end, and what is there must be a
directory (inside `create_directories`, called at file.cpp:57). -/
def makeDir (a : FsAns) (t : LTree) (k : FsKey) : Out LTree := do
  match ← statusOf (walk t true 40 [] k) with
  | some .dir => .ok t
  | some _ => .error .fsError
  | none =>
    match walk t false 40 [] k with
    | .free k' => if a.mkdirs then .ok (t.put k' (some (.node .dir))) else .error .fsError
    | _ => .error .fsError

/-- `std::filesystem::create_directories`, from the root down (called at file.cpp:57). -/
def makeAll (a : FsAns) (t : LTree) (k : FsKey) : Out LTree :=
  (List.range (k.length + 1)).foldlM (fun t i => makeDir a t (k.take i)) t

/-- file.cpp:50-67, `File::Create`; `parent_path()` as in `fileCreate`. -/
def linkCreate (res : Str → FsKey) (t : LTree) (path : Str) (a : FsAns) : Out (LTree × Int) := do
  if ← linkIsFile res t path then .ok (t, kSuccess)
  else do
    let up := (res (cString path)).dropLast
    let t ← match ← statusOf (walk t true 40 [] up) with
      | some _ => .ok t
      | none => makeAll a t up
    match openOut t (reach res t path) a.grant (fun _ => []) with
    | none => .ok (t, kSysErr)
    | some t => .ok (t, kSuccess)

/-- file.cpp:69-74, `File::Remove`: `std::filesystem::remove` does not follow a link at the end. -/
def linkRemove (res : Str → FsKey) (t : LTree) (path : Str) (a : FsAns) : Out (LTree × Int) := do
  if !(← linkIsFile res t path) then .ok (t, kSuccess)
  else match walk t false 40 [] (res (cString path)) with
    | .found k _ => if a.grant then .ok (t.put k none, kSuccess) else .error .fsError
    | .refused => .error .fsError
    | _ => .ok (t, kSysErr)

/-- file_logger.cpp:28-56, `FileLogger::Init` for this path: the file is made and asked about (file_logger.cpp:32-39). -/
def linkLoggerInit (res : Str → FsKey) (t : LTree) (path : Str) (a : FsAns) : Out (Int ⊕ Unit) :=
  match linkCreate res t path a with
  | .error e => .error e
  | .ok (t, rc) => fileLoggerInit (.ok rc) (linkCanWrite res t path)

/-- What the static handlers find in this tree (`File::Exist` and `File::Read`, file.cpp:10-35; the process may read everything). -/
def linkFiles (res : Str → FsKey) (t : LTree) : FileSys := fun path =>
  match walk t true 40 [] (res path) with
  | .found _ (.node (.file d _)) => .file (some d)
  | .found _ _ => .other
  | .free _ => .missing
  | .nothing => .missing
  | .refused => .failed

end Cppnet
