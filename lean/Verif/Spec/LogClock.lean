import Verif.Model.LogClock
import Verif.Spec.Logger

/-!
# The line of a call (C186)
-/

namespace Cppnet.Spec

/-- The line of a call `(level, time, text)`: the level, the time as text, and the text. -/
def logText (z : Zone) (c : Level × Nat × Str) : Str :=
  b!"[" ++ levelName c.1 ++ b!"]" ++ getNowTime z c.2.1 ++ b!"|" ++ c.2.2 ++ b!"\n"

end Cppnet.Spec
