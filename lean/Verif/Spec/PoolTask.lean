import Verif.Spec.Pool

/-!
# Specification vocabulary for tasks that use their own pool
-/

namespace Cppnet.Spec
open Pool
variable {α : Type}

/-- The calls that stop a running pool. -/
def CanStop : PoolOp α → Prop
  | .stop | .resize _ | .destroy => True
  | _ => False

/-- The calls a task may make of its own pool. -/
def Harmless : PoolOp α → Prop
  | .add _ | .numbers => True
  | _ => False

/-- What a task may get back from call `op` of its own pool, after the trace `tr`, when it is worker `i` that runs the
task: an answer from `AddTask` and `GetBusyAndTaskNum`; nothing at all from `Init` and the destructor; from `Resize`
only if it asks for no change (`size` is the number of threads); from `Stop` only if somebody else has stopped
the pool. -/
def TaskGets (tr : List (PoolLabel α)) (i size : Nat) (op : PoolOp α) (r : PoolRet) : Prop :=
  match op with
  | .add _ => r = .added 0 ∨ r = .added (-2)
  | .numbers => ∃ busy task, r = .numbers busy task
  | .init _ | .destroy => False
  | .resize n => r = .resized ∧ (n = 0 ∨ n = size)
  | .stop => r = .stopped ∧ ∃ b op', b ≠ .worker i ∧ CanStop op' ∧ .call b op' ∈ tr

end Cppnet.Spec
