import Verif.Model.RunErr

/-!
# Specification for C176: a message belongs to its failure
-/

namespace Cppnet.Spec

/-- The reports of all waits. -/
def msgReports (rounds : List MsgRound) : List MsgEv :=
  rounds.flatMap fun r => match r.res with
    | .events evs => evs
    | _ => []

/-- The only thing that fails in handling this report is, perhaps, the acceptance of a connection: no connection fails, and an accepted
connection can be watched. -/
def OnlyAcceptFails (listen : Int) (v : MsgEv) : Prop :=
  (v.fd = listen → 0 ≤ v.ans.add) ∧ (v.fd ≠ listen → epEvent v.bits ≠ some .error)

/-- The message of the failure of handling this report: the system's text. -/
def failureText (v : MsgEv) : Str := b!"[syserr]:" ++ v.sys

end Cppnet.Spec
