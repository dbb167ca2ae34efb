import Verif.Model.ThreadPool

/-!
# Specification vocabulary for the thread pool

Executions, and which part of its loop a worker is in.
-/

namespace Cppnet.Spec
open Pool
variable {α : Type}

/-- An execution: finitely many atomic actions of a live pool, with what they show. -/
inductive Run : Pool α → List (PoolLabel α) → Pool α → Prop where
  | nil (s) : Run s [] s
  | snoc {s tr s' l s''} : Run s tr s' → s'.phase = .live → Act s' l s'' → Run s (tr ++ [l]) s''

/-- The states of a pool that starts out default-constructed and is used by any number of threads in
any way. -/
def Reachable (s : Pool α) : Prop := ∃ tr, Run {} tr s

/-- The tasks a worker has popped and not finished. -/
def inHand : WPc α → List α
  | .taken t | .start t | .run t => [t]
  | _ => []

/-- The tasks a worker is executing. -/
def executing : WPc α → List α
  | .run t => [t]
  | _ => []

/-- The worker is on its way to look at the queue, without having to be notified. -/
def onTheWay : WPc α → Bool
  | .lock | .check | .pred | .wake | .cont | .size => true
  | _ => false

/-- The worker is blocked and needs a notification. -/
def blocked : WPc α → Bool
  | .waiting => true
  | _ => false

/-- The worker has taken up a task and not yet finished with it, as `busy_now_` counts. -/
def counted : WPc α → Bool
  | .start _ | .run _ | .done => true
  | _ => false

/-- The worker has no task: it is looking for one or waiting for one. -/
def free : WPc α → Bool
  | .lock | .check | .pred | .block | .waiting | .wake | .cont | .size => true
  | _ => false

/-- A call only client `ctl` may make: everything but `AddTask` and `GetBusyAndTaskNum` belongs to one
controlling thread.  (The library does not lock `threads_` and `thread_num_`.) -/
def Disciplined (ctl : Nat) (l : PoolLabel α) : Prop :=
  ∀ a op, l = .call a op → (∃ t, op = .add t) ∨ op = .numbers ∨ a = .client ctl

/-- The worker has no task and will take none once the pool is stopped. -/
def noTask : WPc α → Bool
  | .lock | .check | .pred | .block | .waiting | .wake | .cont | .exited => true
  | _ => false

/-- Neither a new call nor a spurious wake-up nor an exception: the pool and the calls already begun go on by themselves. -/
def Quiet (l : PoolLabel α) : Prop := (∀ a op, l ≠ .call a op) ∧ l ≠ .spurious ∧ l ≠ .throws

/-- The last call agent `a` made in a trace. -/
def lastCall (tr : List (PoolLabel α)) (a : Agent) : Option (PoolOp α) :=
  tr.foldl (fun o l => match l with
    | .call b op => if b = a then some op else o
    | _ => o) none

/-- If `l`, after `before`, is the return of 0 from an `AddTask` call: the task of that call. -/
def newlyAdded (before : List (PoolLabel α)) (l : PoolLabel α) : List α :=
  match l with
  | .ret a (.added rc) =>
    if rc = 0 then
      match lastCall before a with
      | some (.add t) => [t]
      | _ => []
    else []
  | _ => []

/-- The tasks of the `AddTask` calls that returned 0, in the order of the returns. -/
def succeeded (tr : List (PoolLabel α)) : List α :=
  (tr.foldl (fun (p : List (PoolLabel α) × List α) l => (p.1 ++ [l], p.2 ++ newlyAdded p.1 l)) ([], [])).2

end Cppnet.Spec
