import Verif.Model.PoolMemory
import Verif.Spec.Pool

/-!
# Specification for C199: a pool whose program runs out of memory
-/

namespace Cppnet.Spec
open Pool
variable {α : Type}

/-- An execution in which allocations may fail. -/
inductive MemRun : Pool α → List (MemLabel α) → Pool α → Prop where
  | nil (s) : MemRun s [] s
  | snoc {s tr s' l s''} : MemRun s tr s' → s'.phase = .live → MemAct s' l s'' → MemRun s (tr ++ [l]) s''

/-- The calls belong to one controlling thread, except `AddTask` and `GetBusyAndTaskNum`. -/
def MemDisciplined (ctl : Nat) (l : MemLabel α) : Prop := ∀ l', l = .pool l' → Disciplined ctl l'

/-- How often `AddTask` has returned 0. -/
def addedOk (tr : List (MemLabel α)) : Nat :=
  tr.countP fun l => match l with
    | .pool (.ret _ (.added n)) => n == 0
    | _ => false

end Cppnet.Spec
