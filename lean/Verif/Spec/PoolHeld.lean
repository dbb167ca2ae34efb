import Verif.Model.PoolHeld
import Verif.Spec.Pool

/-!
# What C165 says
-/

namespace Cppnet.Spec
variable {α : Type}

/-- An execution of a pool whose tasks have captured something. -/
inductive HRun (calls : α → Prop) : HPool α → List (PoolLabel α) → HPool α → Prop where
  | nil (s) : HRun calls s [] s
  | snoc {s tr s' l s''} : HRun calls s tr s' → s'.pool.phase = .live → HPool.Act calls s' l s'' → HRun calls s (tr ++ [l]) s''

/-- The tasks that the workers keep. -/
def keptTasks (s : HPool α) : List α := (List.range s.pool.workers.length).filterMap s.held

end Cppnet.Spec
