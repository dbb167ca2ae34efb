import Verif.Model.TimerWatch
import Verif.Spec.Timer

/-!
# Specification for C179: a server that watches a timer
-/

namespace Cppnet.Spec

/-- How often a timer that was started at `base` with the given period has fired by time `t`. -/
def firedBy (base period t : Nat) : Nat := firings base period base t

/-- The rounds come one after the other, the first not before time `t`, and in each the callback reads the timer. -/
def Reading : Nat → List TimerRound → Prop
  | _, [] => True
  | t, x :: xs => t ≤ x.wait ∧ ∃ r, x.read = some r ∧ x.wait ≤ r ∧ Reading r xs

/-- The firings that the callbacks were told of. -/
def toldFirings (cs : List (Option (Option TimerRead))) : Nat :=
  (cs.map fun c => match c with
    | some (some (.got n _)) => n
    | _ => 0).sum

/-- How often the callback was called. -/
def timerCalls (cs : List (Option (Option TimerRead))) : Nat := (cs.filter (·.isSome)).length

end Cppnet.Spec
