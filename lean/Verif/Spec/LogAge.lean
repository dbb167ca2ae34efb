import Verif.Model.LogAge

/-!
# Words for C190: how old the lines are that are not yet in the file
-/

namespace Cppnet.Spec

/-- The clock does not go back during the history, nor before `start`. -/
def Clock (start : Int) : List AgeEv → Prop
  | [] => True
  | e :: evs => start ≤ e.time ∧ Clock e.time evs

/-- The lines that were logged, with their times. -/
def loggedAt : List AgeEv → List (Int × Str)
  | [] => []
  | .log t l :: evs => (t, l) :: loggedAt evs
  | .flush _ :: evs => loggedAt evs

/-- Only the worker works. -/
def OnlyWorker (evs : List AgeEv) : Prop := ∀ e ∈ evs, ∃ t, e = .flush t

end Cppnet.Spec
