import Verif.Model.HttpLife
import Verif.Model.HttpClient
import Verif.Model.ClientLife
import Verif.Model.File
import Verif.Model.Timer

/-!
# Specification for C175: the values that the documentation promises

`docs/cppnet/**/*.md` and the comments in the headers: "0 if success, -1 if failed".
-/

namespace Cppnet.Spec

/-- 0 for success or -1 for failure, as documented. -/
def AsDocumented (rc : Int) : Prop := rc = 0 ∨ rc = -1

/-- One of the library's codes (utils/const.hpp): success is 0, every failure is negative. -/
def IsCode (rc : Int) : Prop := rc = 0 ∨ rc = -1 ∨ rc = -2 ∨ rc = -3

/-- A loop that has ended has ended with such a code. -/
def EndsWith (P : Int → Prop) : LoopEnd → Prop
  | .waiting => True
  | .returned rc => P rc

end Cppnet.Spec
