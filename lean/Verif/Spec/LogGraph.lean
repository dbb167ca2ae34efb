import Verif.Model.LogGraph
import Verif.Spec.Logger

/-!
# What C195 says
-/

namespace Cppnet.Spec

/-- What a logger that is not a `MultiLogger` does with a message. -/
def objOut (lvl : Level) (msg : Str) : LogObj → List LogOut
  | .std level => if atLeast level lvl then [printed lvl msg] else []
  | .sink n => [.sink n lvl msg]
  | _ => []

/-- The `MultiLogger` at `a` was given the logger at `b`. -/
def HoldsLogger (h : LogHeap) (a b : Nat) : Prop := ∃ ls, h a = .multi ls ∧ some b ∈ ls

/-- From `a` one comes to `c`, a logger that is not a `MultiLogger`, by taking the loggers at these places in the lists. -/
inductive Way (h : LogHeap) : Nat → List Nat → Nat → Prop where
  | here {a} (ha : ∀ ls, h a ≠ .multi ls) : Way h a [] a
  | down {a ls i b p c} (ha : h a = .multi ls) (hi : ls[i]? = some (some b)) (hw : Way h b p c) : Way h a (i :: p) c

/-- `b` is in the list of `a`, or in that of one that is in it, and so on. -/
inductive Within (h : LogHeap) : Nat → Nat → Prop where
  | held {a b} (hh : HoldsLogger h a b) : Within h a b
  | deeper {a b c} (hh : HoldsLogger h a b) (hw : Within h b c) : Within h a c

/-- No logger is given to two `MultiLogger`s, or twice to one. -/
def Unshared (h : LogHeap) : Prop :=
  ∀ (a a' : Nat) (ls ls' : List (Option Nat)) (i i' b : Nat), h a = .multi ls → h a' = .multi ls' → ls[i]? = some (some b) → ls'[i']? = some (some b) → a = a' ∧ i = i'

/-- There are no null pointers. -/
def NoNull (h : LogHeap) : Prop := ∀ a ls, h a = .multi ls → none ∉ ls

end Cppnet.Spec
