import Verif.Model.ThreadLimit
import Verif.Spec.Pool

/-!
# Specification for C185: a pool that is refused threads
-/

namespace Cppnet.Spec
open Pool
variable {α : Type}

/-- An execution in which the system may refuse threads. -/
inductive LimRun : Pool α → List (LimLabel α) → Pool α → Prop where
  | nil (s) : LimRun s [] s
  | snoc {s tr s' l s''} : LimRun s tr s' → s'.phase = .live → LimAct s' l s'' → LimRun s (tr ++ [l]) s''

/-- The calls belong to one controlling thread, except `AddTask` and `GetBusyAndTaskNum`. -/
def LimDisciplined (ctl : Nat) (l : LimLabel α) : Prop := ∀ l', l = .pool l' → Disciplined ctl l'

/-- A call of neither `Init` nor `Resize`. -/
def LimNoStart (l : LimLabel α) : Prop := ∀ a op, l = .pool (.call a op) → (∀ n, op ≠ .init n) ∧ ∀ n, op ≠ .resize n

end Cppnet.Spec
