import Verif.Model.FdReuse

/-!
# What it means that tasks keep to their own connections
-/

namespace Cppnet.Spec

/-- Every system call on a descriptor reaches the connection it was meant for. -/
def OwnConnection (log : List FdTouch) : Prop := ∀ t ∈ log, t.conn = some t.owner

/-- The callbacks of the multi-thread mode close a connection only when they are told that the peer has left. -/
def ClosesOnLeave : FdStep → Prop
  | .start _ acts => FdAct.close ∉ acts
  | .peek _ true acts => FdAct.close ∉ acts
  | _ => True

/-- The callbacks of the mixed mode close nothing (the server closes a connection whose peer has left). -/
def ClosesNothing : FdStep → Prop
  | .start _ acts => FdAct.close ∉ acts
  | .ioAccept _ acts => FdAct.close ∉ acts
  | .left _ acts => FdAct.close ∉ acts
  | _ => True

/-- A task of connection `fd` is waiting or running. -/
def Pending (s : FdSys) (fd : Int) : Prop := ∃ t ∈ s.tasks, t.fd = fd ∧ t.pc ≠ .done

/-- No peer leaves while a task of its connection is waiting or running. -/
def LeavesIdle (s : FdSys) (steps : List FdStep) : Prop :=
  ∀ pre fd acts post s', steps = pre ++ .left fd acts :: post → s.runSteps pre = some s' → ¬ Pending s' fd

end Cppnet.Spec
