import Verif.Model.MuxSettings

/-!
# What C167 and C168 say
-/

namespace Cppnet.Spec

/-- The number of events that was set last, 1024 if none was. -/
def lastMax (hist : List MuxEv) : Int :=
  ((hist.filterMap fun | .setMax n => some n | _ => none).getLast?).getD 1024

/-- The timeout that was set last, -1 if none was. -/
def lastTimeout (hist : List MuxEv) : Int :=
  ((hist.filterMap fun | .setTimeout t => some t | _ => none).getLast?).getD (-1)

/-- A timeout is a number of milliseconds; a negative one means to wait for ever. -/
def lasts (timeout : Int) : WaitFor := if timeout < 0 then .ever else .ns (timeout.toNat * 1000000)

/-- Between two waits nobody overtakes `fd`: of those before it in the list some may be gone. -/
def NotOvertaken (fd : Int) (later : List Int → List Int) : Prop :=
  ∀ a b, ∃ a' b', later (a ++ fd :: b) = a' ++ fd :: b' ∧ a'.length ≤ a.length

end Cppnet.Spec
