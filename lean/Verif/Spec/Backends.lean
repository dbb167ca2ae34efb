import Verif.Model.Backends

/-! # Specification: what a multiplexer owes its user -/

namespace Cppnet.Spec
open Cppnet

/-- Is `fd` to be watched after these calls (all of which reported success)? -/
def toWatch (fd : Int) : List MuxAct → Bool → Bool
  | [], w => w
  | .monitor x :: as, w => toWatch fd as (if x = fd then true else w)
  | .remove x :: as, w => toWatch fd as (if x = fd then false else w)
  | .stop :: as, w => toWatch fd as w

/-- At most `n` different descriptors are ever monitored. -/
def AtMost (n : Nat) (acts : List MuxAct) : Prop :=
  ∀ l : List Int, l.Nodup → (∀ fd ∈ l, MuxAct.monitor fd ∈ acts) → l.length ≤ n

/-- In this round `fd` is ready, and no callback removes it or stops the loop. -/
def KeepsReady (fd : Int) (r : SelRound) : Prop :=
  r.ready fd = true ∧ ∀ x, MuxAct.remove fd ∉ r.acts x (selEvent (r.peek x)) ∧ MuxAct.stop ∉ r.acts x (selEvent (r.peek x))

/-- A round of the epoll loop that was interrupted by a signal (and during which nobody called `Stop`). -/
def interrupted (r : Round) : Bool :=
  match r.res with
  | .intr => !r.stopped
  | _ => false

/-- What is seen of a run besides the interrupted waits. -/
def withoutIntr : NetEv → Bool
  | .waitFailed _ => false
  | _ => true

end Cppnet.Spec
