import Verif.Spec.Http

/-!
# Lexical meaning of file paths
-/

namespace Cppnet.Spec

/-- The pieces between the slashes. -/
def components : Str → List Str
  | [] => [[]]
  | c :: cs =>
    if c = 47 then [] :: components cs
    else
      match components cs with
      | [] => [[c]]
      | h :: t => (c :: h) :: t

/-- A path after normalisation: absolute or not, how many levels it leaves the starting point upwards, and
the names below. -/
structure Resolved where
  absolute : Bool
  ups : Nat
  names : List Str
  deriving DecidableEq

/-- One component: empty and `.` do nothing, `..` goes up, a name goes down. -/
def stepName (r : Resolved) (n : Str) : Resolved :=
  if n = [] ∨ n = b!"." then r
  else if n = b!".." then
    match r.names with
    | [] => if r.absolute then r else { r with ups := r.ups + 1 }
    | _ => { r with names := r.names.dropLast }
  else { r with names := r.names ++ [n] }

/-- Lexical normalisation. -/
def resolve (p : Str) : Resolved :=
  (components p).foldl stepName ⟨p.head? == some 47, 0, []⟩

/-- `p` is `dir` or lies below it. -/
def Inside (dir p : Str) : Prop :=
  (resolve p).absolute = (resolve dir).absolute ∧ (resolve p).ups = (resolve dir).ups ∧
  (resolve dir).names <+: (resolve p).names

instance (dir p : Str) : Decidable (Inside dir p) := by unfold Inside; infer_instance

/-- The content type of a file suffix: the built-in one, else the registered one, else the default. -/
def typeOfSuffix (registered : UMap) (suffix : Str) : Str :=
  match contentTable.find? (fun r => decide (suffix ∈ r.2.2)) with
  | some r => r.2.1
  | none => (registered.get suffix).getD b!"application/octet-stream"

end Cppnet.Spec
