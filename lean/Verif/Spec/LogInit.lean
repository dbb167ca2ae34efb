import Verif.Model.LogInit
import Verif.Spec.Logger

/-!
# Words for C187
-/

namespace Cppnet.Spec

/-- A history of a logger and its files. -/
inductive PRun : PLog → List PLabel → PLog → Prop where
  | nil (s) : PRun s [] s
  | snoc {s tr s' l s''} : PRun s tr s' → s'.log.pool.phase = .live → PStep s' l s'' → PRun s (tr ++ [l]) s''

/-- A new logger. -/
def newPLog (files : Str → FileAt) : PLog := ⟨newLogger [], [], files⟩

/-- The lines logged in a history, in order. -/
def linesOf (tr : List PLabel) : List Str :=
  tr.flatMap fun l => match l with
    | .log (.log line) => [line]
    | _ => []

/-- A failed `Init` or an ignored message. -/
def Idle : PLabel → Prop
  | .initFailed _ _ => True
  | .log (.ignored _ _) => True
  | _ => False

/-- The text in a file that can be written, or that can be created. -/
def textAt : FileAt → Option Str
  | .text s => some s
  | .absent => some []
  | _ => none

end Cppnet.Spec
