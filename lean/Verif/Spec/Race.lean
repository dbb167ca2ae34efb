import Verif.Spec.Pool
import Verif.Model.PoolAccess
import Verif.Model.LogAccess
import Verif.Model.ServerThreads

/-!
# Data races

A data race (C++, [intro.races]): two threads are about to access the same plain variable, at least one of them to write it,
and nothing orders them.  In an interleaving semantics this is a reachable state in which both are the next actions of two
different threads.
-/

namespace Cppnet.Spec
variable {α : Type}

/-- In this state two threads race for `v`. -/
def Race (s : Pool α) (v : PoolVar) : Prop :=
  ∃ a b, a ≠ b ∧ .write v ∈ s.accesses a ∧ (.write v ∈ s.accesses b ∨ .read v ∈ s.accesses b)

/-- The two pools hold the same value in `v`. (`err_msg_` is not part of the model's state.) -/
def SameAt (v : PoolVar) (s t : Pool α) : Prop :=
  match v with
  | .taskQue => t.queue = s.queue
  | .threadNum => t.threadNum = s.threadNum
  | .threads => t.threads = s.threads
  | .errMsg => True

/-- The two pools are the same but for the value of `v`. -/
def SameBut (v : PoolVar) (s t : Pool α) : Prop :=
  match v with
  | .taskQue => t = { s with queue := t.queue }
  | .threadNum => t = { s with threadNum := t.threadNum }
  | .threads => t = { s with threads := t.threads }
  | .errMsg => t = s

/-- The pool is in use: nobody calls `Init`, `Resize` or the destructor, and only client `ctl` calls `Stop`. -/
def InUse (ctl : Nat) (l : PoolLabel α) : Prop :=
  ∀ a op, l = .call a op → (∃ t, op = .add t) ∨ op = .numbers ∨ (a = .client ctl ∧ op = .stop)

/-- In this state the thread that uses a file logger and the logger's own worker race for `v`. -/
def LogRace (s : FLog) (v : LogVar) : Prop :=
  (.write v ∈ s.userAccesses ∧ (.write v ∈ s.flushAccesses ∨ .read v ∈ s.flushAccesses)) ∨
    (.read v ∈ s.userAccesses ∧ .write v ∈ s.flushAccesses)

/-- The logger with another text in buffer `b`. -/
def WithText (s : FLog) (b : Nat) (x : List Str) : FLog :=
  { s with bufs := fun i => if i = b then { lines := x, need := (s.bufs b).need } else s.bufs i }

/-- In this state two threads of a server race for `v`. -/
def ServerRace (s : MtSys) (v : SVar) : Prop :=
  ∃ a b, a ≠ b ∧ .write v ∈ s.acc a ∧ (.write v ∈ s.acc b ∨ .read v ∈ s.acc b)

/-- The thread that acts (taking a task from the queue touches none of the variables). -/
def _root_.Cppnet.MtLabel.actor : MtLabel → MtThread
  | .loop _ => .loop
  | .start => .loop
  | .task i _ => .task i
  | .ctl _ | .callStop | .callDtor => .ctl

/-- A task of the server's pool is at work: it may be in a handler. -/
def TaskRuns (s : MtSys) : Prop := ∃ t ∈ s.tasks, t.2 ≠ .queued ∧ t.2 ≠ .done

/-- A suffix for which a content type was set with `SetCustomContentType`, and that is not one of the built-in ones. -/
def CustomSuffix (types : UMap) (suffix : Str) : Prop := contentTypeOfFile types suffix = .custom

/-- No request reaches a `StaticDir` handler with a file of a custom type, or the table has an entry without a suffix. -/
def TypesQuiet (types : UMap) (tr : List MtLabel) : Prop :=
  (types.get []).isSome = true ∨
    ∀ i a suffix, .task i a ∈ tr → a.next = some (.dir suffix) → ¬ CustomSuffix types suffix

end Cppnet.Spec
