import Verif.Model.ArgcDeal

/-!
# What a command line means

Only the type of the calls is taken from the model.
-/

namespace Cppnet.Spec

/-- An argument is any number of dashes, a name, and possibly `=` and a value; without one the value is empty. -/
def ArgMeans (arg name value : Str) : Prop :=
  ∃ dashes rest, arg = dashes ++ rest ∧ (∀ c ∈ dashes, c = 45) ∧ rest.head? ≠ some 45 ∧ 61 ∉ name ∧
    (rest = name ++ 61 :: value ∨ (rest = name ∧ value = []))

/-- The name is given on the command line (without the name of the program). -/
def Given (args : List Str) (name : Str) : Prop := ∃ a ∈ args, ∃ v, ArgMeans a name v

variable {φ : Type}

/-- The name that a call requires. -/
def required : ArgcCall φ → Option Str
  | .setOption n _ true => some n
  | .setVar n _ true => some n
  | _ => none

/-- The program that a call assigns. -/
def assigned : ArgcCall φ → Option φ
  | .setProgram f => some f
  | _ => none

/-- The last program that was assigned. -/
def programOf (cs : List (ArgcCall φ)) : Option φ := (cs.filterMap assigned).getLast?

/-- The last name that was set; empty if none was. -/
def nameOf (cs : List (ArgcCall φ)) : Str :=
  ((cs.filterMap fun | .setName n => some n | _ => none).getLast?).getD []

/-- The last version that was set; empty if none was. -/
def versionOf (cs : List (ArgcCall φ)) : Str :=
  ((cs.filterMap fun | .setVersion v => some v | _ => none).getLast?).getD []

/-- The last usage lines that were set; none if none were. -/
def usageOf (cs : List (ArgcCall φ)) : List Str :=
  ((cs.filterMap fun | .setUsage u => some u | _ => none).getLast?).getD []

/-- Everything that is required is declared after the program was assigned for the last time. -/
def ProgramFirst (cs : List (ArgcCall φ)) : Prop :=
  ∃ pre post, cs = pre ++ post ∧ (∀ c ∈ pre, required c = none) ∧ ∀ c ∈ post, assigned c = none

/-- Nothing that is required is missing. -/
def AllGiven (args : List Str) (cs : List (ArgcCall φ)) : Prop := ∀ c ∈ cs, ∀ n, required c = some n → Given args n

/-- Neither help nor the version is asked for. -/
def AsksNothing (args : List Str) : Prop :=
  ¬ Given args b!"h" ∧ ¬ Given args b!"help" ∧ ¬ Given args b!"v" ∧ ¬ Given args b!"version"

/-- A text filled up with blanks to 32 characters. -/
def filled (s : Str) : Str := s ++ List.replicate (32 - s.length) 32

/-- The line of the usage text about an option. -/
def usageLine (p : Str × Str) : Str := b!"\t--" ++ filled p.1 ++ b!" " ++ filled p.2 ++ b!"\n"

/-- What the usage text calls a declared option or variable, and what it says about it. -/
def declared : ArgcCall φ → Option (Str × Str)
  | .setOption n u m => some (n, u ++ if m then b!",must" else b!",no must")
  | .setVar n u m => some (n ++ b!"=(variable)", u ++ if m then b!",must" else b!",no must")
  | _ => none

end Cppnet.Spec
