import Verif.Model.Socket

/-!
# Model of `src/cppnet/utils/file.cpp`

The file system is a tree: a path text is resolved by the system to the list of components from the root (`res`:
working directory, `.`, `..`, repeated slashes; symbolic links are not modelled).  Whether the system lets the
process open, create or remove, and how many bytes it takes or delivers, are answers (`FsAns`).  `stat` is assumed
to work.  `File::Suffix` is in `Model/StringUtil.lean`; `File::Exist` and `File::Read` as the static handlers see them
are in `Model/HttpServer.lean`.
-/

namespace Cppnet

/-- What is found under a path.  `ownerWrite`: the owner's write permission bit.  `other`: a device, a FIFO, …
(seen by file.cpp:32-35, 86-90, 105-113). -/
inductive FsNode where
  | file (data : Str) (ownerWrite : Bool)
  | dir
  | other
  deriving DecidableEq

/-- Components from the root (file.hpp:7-80). -/
abbrev FsKey := List Str

/-- The tree (file.hpp:7-80). -/
abbrev FsTree := FsKey → Option FsNode

/-- How the system answers during one call: does it grant the open (or the removal), how many bytes does it take or
deliver, does it let directories be made, does reading an open file fail in the end; and, of the C++ library,
whether a `basic_filebuf` throws when `read` fails (libstdc++ does, libc++ reports the end of the file)
(answers to the calls of file.cpp:10-113). -/
structure FsAns where
  grant : Bool := true
  taken : Option Nat := none
  mkdirs : Bool := true
  readFails : Bool := false
  libThrows : Bool := true

/-- The bytes that get through (file.cpp:17, 27, 81). -/
def FsAns.cut (a : FsAns) (data : Str) : Str :=
  match a.taken with
  | none => data
  | some n => data.take n

/-- One node is replaced (file.cpp:23, 61, 73, 77). -/
def FsTree.put (fs : FsTree) (k : FsKey) (v : Option FsNode) : FsTree := fun k' => if k' = k then v else fs k'

/-- `std::ofstream(path, out …)`: opening a directory fails; a missing file is created in an existing directory
(file.cpp:23, 61, 77). -/
def canOpenOut (fs : FsTree) (k : FsKey) (a : FsAns) : Bool :=
  match fs k with
  | some .dir => false
  | some (.file _ _) => a.grant
  | some .other => a.grant
  | none => a.grant && decide (fs k.dropLast = some .dir)

/-- file.cpp:22-30, `File::Write`: errors after the open are not looked at. -/
def fileWrite (res : Str → FsKey) (fs : FsTree) (path data : Str) (a : FsAns) : FsTree × Int :=
  let k := res (cString path)
  if !canOpenOut fs k a then (fs, kLogicErr)
  else
    match fs k with
    | some (.file _ w) => (fs.put k (some (.file (a.cut data) w)), kSuccess)
    | none => (fs.put k (some (.file (a.cut data) true)), kSuccess)
    | _ => (fs, kSuccess)

/-- file.cpp:76-84, `File::Append`. -/
def fileAppend (res : Str → FsKey) (fs : FsTree) (path data : Str) (a : FsAns) : FsTree × Int :=
  let k := res (cString path)
  if !canOpenOut fs k a then (fs, kLogicErr)
  else
    match fs k with
    | some (.file old w) => (fs.put k (some (.file (old ++ a.cut data) w)), kSuccess)
    | none => (fs.put k (some (.file (a.cut data) true)), kSuccess)
    | _ => (fs, kSuccess)

/-- file.cpp:10-20, `File::Read`: result and `data` afterwards.  A directory can be opened, but not read.  The bytes
are taken from the buffer of the stream, not through the stream, so what the buffer throws is not caught.  `other` gives
nothing here. -/
def fileGet (res : Str → FsKey) (fs : FsTree) (path data : Str) (a : FsAns) : Out (Int × Str) :=
  match fs (res (cString path)) with
  | none => .ok (kLogicErr, data)
  | some (.file content _) =>
    if !a.grant then .ok (kLogicErr, data)
    else if a.readFails && a.libThrows then .error .fsError
    else .ok (kSuccess, a.cut content)
  | some .dir =>
    if !a.grant then .ok (kLogicErr, data) else if a.libThrows then .error .fsError else .ok (kSuccess, [])
  | some .other => if a.grant then .ok (kSuccess, []) else .ok (kLogicErr, data)

/-- file.cpp:32-35 and 110-113, `File::Exist` and `File::IsFile`. -/
def fileIsFile (res : Str → FsKey) (fs : FsTree) (path : Str) : Bool :=
  match fs (res (cString path)) with
  | some (.file _ _) => true
  | _ => false

/-- file.cpp:105-108, `File::IsDir`. -/
def fileIsDir (res : Str → FsKey) (fs : FsTree) (path : Str) : Bool :=
  fs (res (cString path)) = some .dir

/-- `std::filesystem::create_directories`: every missing directory on the way is made; it throws when something on
the way is not a directory or the system refuses (called at file.cpp:57). -/
def makeDirs (fs : FsTree) (k : FsKey) (a : FsAns) : Out FsTree :=
  if !a.mkdirs || (List.range (k.length + 1)).any (fun i => match fs (k.take i) with
    | none => false
    | some .dir => false
    | some _ => true) then .error .fsError
  else .ok fun p => if p <+: k then some .dir else fs p

/-- file.cpp:61-66, the end of `Create`: the file is opened for writing. -/
def createOpen (k : FsKey) (a : FsAns) (fs : FsTree) : Out (FsTree × Int) :=
  if !canOpenOut fs k a then .ok (fs, kSysErr)
  else
    match fs k with
    | none => .ok (fs.put k (some (.file [] true)), kSuccess)
    | some (.file _ w) => .ok (fs.put k (some (.file [] w)), kSuccess)
    | some _ => .ok (fs, kSuccess)

/-- file.cpp:55-59: the missing directories are made. -/
def createDirs (k : FsKey) (a : FsAns) (fs : FsTree) : Out FsTree :=
  if (fs k.dropLast).isSome then .ok fs else makeDirs fs k.dropLast a

/-- file.cpp:50-67, `File::Create`.  Simplification: `parent_path()` is the path without its last component (the
text does not end in a slash or in `..`). -/
def fileCreate (res : Str → FsKey) (fs : FsTree) (path : Str) (a : FsAns) : Out (FsTree × Int) :=
  if fileIsFile res fs path then .ok (fs, kSuccess)
  else (createDirs (res (cString path)) a fs).bind (createOpen (res (cString path)) a)

/-- file.cpp:69-74, `File::Remove`: `std::filesystem::remove` throws when the system refuses. -/
def fileRemove (res : Str → FsKey) (fs : FsTree) (path : Str) (a : FsAns) : Out (FsTree × Int) :=
  if !fileIsFile res fs path then .ok (fs, kSuccess)
  else if !a.grant then .error .fsError
  else .ok (fs.put (res (cString path)) none, kSuccess)

/-- file.cpp:86-90, `File::CanWrite`: the status of a missing file has the permissions `unknown` (all bits set).
Directories and others are taken to have the bit. -/
def fileCanWrite (res : Str → FsKey) (fs : FsTree) (path : Str) : Bool :=
  match fs (res (cString path)) with
  | none => true
  | some (.file _ w) => w
  | some _ => true

/-- `std::getline` on the rest of a file: `none` when nothing can be extracted (called at file.cpp:99). -/
def getLine : Str → Option (Str × Str)
  | [] => none
  | c :: s => some ((c :: s).takeWhile (· ≠ 10), ((c :: s).dropWhile (· ≠ 10)).drop 1)

theorem getLine_shorter {s line rest : Str} (h : getLine s = some (line, rest)) : rest.length < s.length := by
  cases s with
  | nil => cases h
  | cons c s =>
    simp only [getLine, Option.some.injEq, Prod.mk.injEq] at h
    rw [← h.2, List.length_drop]
    have := (List.dropWhile_suffix (l := c :: s) (p := (· ≠ 10))).length_le
    simp only [List.length_cons] at this ⊢
    omega

/-- file.cpp:97-102, the loop of `LineCount`; the counter is an `int`. -/
def lineLoop (count : Nat) (s : Str) : Out Nat :=
  match h : getLine s with
  | none => .ok count
  | some (_, rest) => if count + 1 < 2 ^ 31 then lineLoop (count + 1) rest else .error .ub
termination_by s.length
decreasing_by exact getLine_shorter h

/-- file.cpp:92-103, `File::LineCount`.  (`getline` turns the failing read of a directory into the end of the file.  A device or FIFO
gives nothing here.) -/
def fileLineCount (res : Str → FsKey) (fs : FsTree) (path : Str) (a : FsAns) : Out Nat :=
  match fs (res (cString path)) with
  | none => .ok 0
  | some (.file content _) => if a.grant then lineLoop 0 (a.cut content) else .ok 0
  | some .dir => .ok 0
  | some .other => .ok 0

/-! ### Histories -/

/-- A call of `File`, with the system's answers (file.hpp:15-80). -/
inductive FileOp where
  | write (path data : Str) (a : FsAns)
  | append (path data : Str) (a : FsAns)
  | create (path : Str) (a : FsAns)
  | remove (path : Str) (a : FsAns)

/-- One call; a call that throws leaves the tree as it was (file.cpp:10-113). -/
def fileApply (res : Str → FsKey) (fs : FsTree) : FileOp → FsTree × Option Int
  | .write p d a => let r := fileWrite res fs p d a; (r.1, some r.2)
  | .append p d a => let r := fileAppend res fs p d a; (r.1, some r.2)
  | .create p a => match fileCreate res fs p a with
    | .ok r => (r.1, some r.2)
    | .error _ => (fs, none)
  | .remove p a => match fileRemove res fs p a with
    | .ok r => (r.1, some r.2)
    | .error _ => (fs, none)

/-- A history: the tree afterwards and the result of each call (`none`: it threw) (file.cpp:10-113). -/
def fileRun (res : Str → FsKey) : FsTree → List FileOp → FsTree × List (FileOp × Option Int)
  | fs, [] => (fs, [])
  | fs, op :: ops =>
    let (fs, rc) := fileApply res fs op
    let (fs, rs) := fileRun res fs ops
    (fs, (op, rc) :: rs)

end Cppnet
