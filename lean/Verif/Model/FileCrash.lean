import Verif.Model.File

/-!
# Model of `src/cppnet/utils/file.cpp`, one system call at a time

The program may die (a signal, `abort`, an exception nobody catches) between any two of them.  What the system has been given it keeps;
the machine itself does not fail.  `close` changes nothing and is left out.
-/

namespace Cppnet

/-- The system calls that change something (made by file.cpp:22-30, 50-84). -/
inductive FsCall where
  /-- `open` for writing, created if missing; `trunc`: with `O_TRUNC` -/
  | openOut (k : FsKey) (trunc : Bool)
  | write (k : FsKey) (data : Str)
  | mkdir (k : FsKey)
  | unlink (k : FsKey)

/-- What a system call does (made by file.cpp:22-30, 50-84); an existing directory stays. -/
def fsCall (fs : FsTree) : FsCall → FsTree
  | .openOut k trunc =>
    match fs k with
    | some (.file old w) => fs.put k (some (.file (if trunc then [] else old) w))
    | none => fs.put k (some (.file [] true))
    | _ => fs
  | .write k data =>
    match fs k with
    | some (.file old w) => fs.put k (some (.file (old ++ data) w))
    | _ => fs
  | .mkdir k => if (fs k).isNone then fs.put k (some .dir) else fs
  | .unlink k => fs.put k none

/-- file.cpp:22-30, `File::Write`; the stream hands the data to the system in these pieces. -/
def writeCalls (res : Str → FsKey) (fs : FsTree) (path : Str) (pieces : List Str) (a : FsAns) : List FsCall :=
  let k := res (cString path)
  if !canOpenOut fs k a then [] else .openOut k true :: pieces.map (.write k)

/-- file.cpp:76-84, `File::Append`. -/
def appendCalls (res : Str → FsKey) (fs : FsTree) (path : Str) (pieces : List Str) (a : FsAns) : List FsCall :=
  let k := res (cString path)
  if !canOpenOut fs k a then [] else .openOut k false :: pieces.map (.write k)

/-- file.cpp:50-67, `File::Create`, when it succeeds: the directories from the root on, then the file. -/
def createCalls (res : Str → FsKey) (fs : FsTree) (path : Str) : List FsCall :=
  let k := res (cString path)
  if fileIsFile res fs path then []
  else (if (fs k.dropLast).isSome then [] else (List.range (k.dropLast.length + 1)).map fun i => .mkdir (k.dropLast.take i)) ++ [.openOut k true]

/-- file.cpp:69-74, `File::Remove`, when the system does not refuse. -/
def removeCalls (res : Str → FsKey) (fs : FsTree) (path : Str) : List FsCall :=
  if fileIsFile res fs path then [.unlink (res (cString path))] else []

/-- The program dies after `n` of its calls (file.cpp:22-30, 50-84). -/
def diedAfter (n : Nat) (calls : List FsCall) (fs : FsTree) : FsTree := (calls.take n).foldl fsCall fs

end Cppnet
