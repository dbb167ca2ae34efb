import Verif.Model.WebStatus

/-!
# What the web server was asked to do

`stop`: the command line has `-stop`.  Help and version are texts; with `-stop` a process is to be signalled; otherwise a server is to run.
-/

namespace Cppnet.Spec

def WebDone {σ : Type} (stop : Bool) (p : WebProc σ) : Prop :=
  p.printed = true ∨ (stop = true ∧ ∃ pid sig, p.kills = [(pid, sig)] ∧ p.served = none) ∨
    (stop = false ∧ ∃ tls addr calls, p.served = some (.runs tls addr calls))

end Cppnet.Spec
