import Verif.Model.StaticLog

/-!
# Specification for C181: what a static handler logs
-/

namespace Cppnet.Spec

/-- What the system has under the name that a handler asks for. -/
inductive Found where
  /-- a file that can be read, with this content -/
  | content (s : Str)
  /-- a file that cannot be opened -/
  | locked
  /-- no file -/
  | nothing
  /-- a failure of the system, on which the C++ library throws -/
  | failure
  deriving DecidableEq

/-- What the system has under a name. -/
def found (fs : FileSys) (name : Str) : Found :=
  match fs (cString name) with
  | .file (some c) => .content c
  | .file none => .locked
  | .missing | .other => .nothing
  | .broken | .failed => .failure

end Cppnet.Spec
