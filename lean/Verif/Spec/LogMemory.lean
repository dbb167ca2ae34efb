import Verif.Model.LogMemory
import Verif.Spec.Logger

/-!
# Executions of a file logger whose logging calls may run out of memory
-/

namespace Cppnet.Spec

/-- An execution: finitely many steps, as long as the logger's pool lives. -/
inductive MRun : FLog → List MLabel → FLog → Prop where
  | nil (s) : MRun s [] s
  | snoc {s tr s' l s''} : MRun s tr s' → s'.pool.phase = .live → MStep s' l s'' → MRun s (tr ++ [l]) s''

/-- The lines that were logged in a history: those of the calls that returned, and of the calls that threw after their line was
appended to the buffer. -/
def mLogged (tr : List MLabel) : List Str :=
  tr.flatMap fun l => match l with
    | .step (.log line) => [line]
    | _ => []

/-- The number of buffers is at least one and is set before `Init`, and the operating system takes what the logger writes, in `Stop`
at the latest. -/
def MGood (l : MLabel) : Prop := ∀ x, l = .step x → NumOk x ∧ x ≠ .cut ∧ x ≠ .stopOpenFailed

end Cppnet.Spec
