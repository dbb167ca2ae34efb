import Verif.Model.FileLogger
import Verif.Spec.Pool

/-!
# Specification vocabulary for the loggers
-/

namespace Cppnet.Spec

/-- An execution of a file logger: finitely many steps, as long as its pool lives. -/
inductive LRun : FLog → List LLabel → FLog → Prop where
  | nil (s) : LRun s [] s
  | snoc {s tr s' l s''} : LRun s tr s' → s'.pool.phase = .live → FLog.Step s' l s'' → LRun s (tr ++ [l]) s''

/-- The lines logged in a history, in order. -/
def loggedLines (tr : List LLabel) : List Str :=
  tr.flatMap fun l => match l with
    | .log line => [line]
    | _ => []

/-- How often `Stop`, or the destructor, was called in a history. -/
def stopsIn (tr : List LLabel) : Nat :=
  tr.countP fun l => match l with
    | .stop _ => true
    | _ => false

/-- A fresh logger whose file holds `prev`. -/
def newLogger (prev : Str) : FLog := { file := prev }

/-- The label keeps to the rules for the number of buffers: it is at least one and is set before `Init`. -/
def NumOk (l : LLabel) : Prop := ∀ n r, l = .setNum n r → 1 ≤ n ∧ r = false

/-- No file operation went wrong: no append could not open the file, none was cut short. -/
def NoFault (l : LLabel) : Prop := l ≠ .openFailed ∧ l ≠ .stopOpenFailed ∧ l ≠ .cut

/-- The name of a level, as it is printed. -/
def levelName : Level → Str
  | .debug => b!"DEBUG"
  | .info => b!"INFO"
  | .warn => b!"WARN"
  | .error => b!"ERROR"
  | .fatal => b!"FATAL"

/-- The levels, from the least to the most important. -/
def levels : List Level := [.debug, .info, .warn, .error, .fatal]

/-- A message of level `lvl` is at least as important as `level` asks for. -/
def atLeast (level lvl : Level) : Prop := levels.idxOf level ≤ levels.idxOf lvl

instance (level lvl : Level) : Decidable (atLeast level lvl) := inferInstanceAs (Decidable (_ ≤ _))

/-- What a `StdLogger` prints for a message, if it prints anything: errors go to the error stream. -/
def printed (lvl : Level) (msg : Str) : LogOut :=
  let text := b!"[" ++ levelName lvl ++ b!"]:" ++ msg ++ b!"\n"
  if lvl = .error ∨ lvl = .fatal then .cerr text else .cout text

/-- What a logger that is not a `MultiLogger` does with a message. -/
def leafOut (lvl : Level) (msg : Str) : Logger → List LogOut
  | .std level => if atLeast level lvl then [printed lvl msg] else []
  | .sink n => [.sink n lvl msg]
  | _ => []

mutual
/-- The loggers in a tree of `MultiLogger`s that are not `MultiLogger`s themselves, in order; `none` if there is a
null pointer somewhere. -/
def leaves : Logger → Option (List Logger)
  | .multi _ ls => leavesAll ls
  | l => some [l]

def leavesAll : List (Option Logger) → Option (List Logger)
  | [] => some []
  | none :: _ => none
  | some l :: ls =>
    match leaves l, leavesAll ls with
    | some a, some b => some (a ++ b)
    | _, _ => none
end

end Cppnet.Spec
