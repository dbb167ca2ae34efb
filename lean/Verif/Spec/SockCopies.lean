import Verif.Model.SockCopies

/-! # What a copy of a socket may be used for -/

namespace Cppnet.Spec

/-- Some `Close` has reached the opening `n`. -/
def ClosedIn (log : List Reach) (n : Nat) : Prop := ∃ r ∈ log, r.close = true ∧ r.hit = some n

/-- The opening `n` is open under some number. -/
def StillOpen (w : SockVars) (n : Nat) : Prop := ∃ fd, w.table fd = some n

end Cppnet.Spec
