import Verif.Model.Trie

/-!
# What a trie means: a map from keys to the last value stored

Only the type of operations is taken from the model.
-/

namespace Cppnet.Spec
variable {α : Type}

/-- The map after one operation. -/
def mapStep (m : Str → Option α) : TrieOp α → (Str → Option α)
  | .set k v => fun x => if x = k then some v else m x
  | .reset => fun _ => none

/-- The map after a history. -/
def mapOf (ops : List (TrieOp α)) : Str → Option α := ops.foldl mapStep fun _ => none

/-- All bytes below 0x80. -/
def Ascii (s : Str) : Prop := ∀ c ∈ s, c < 128

instance (s : Str) : Decidable (Ascii s) := inferInstanceAs (Decidable (∀ c ∈ s, c < 128))

/-- Every key in the history is ASCII. -/
def AsciiOps (ops : List (TrieOp α)) : Prop := ∀ k v, TrieOp.set k v ∈ ops → Ascii k

/-- The stored keys that are prefixes of `key`, shortest first, with their values, each marked
whether it is `key` itself. -/
def prefixHits (m : Str → Option α) (key : Str) : List (α × Bool) :=
  (List.range (key.length + 1)).filterMap fun i => (m (key.take i)).map fun v => (v, i == key.length)

/-- Call `cb` on each item in turn, until it asks to stop. -/
def callUntilStop {σ : Type} (cb : σ → α → Bool → Out (σ × Bool)) : σ → List (α × Bool) → Out σ
  | s, [] => .ok s
  | s, (v, last) :: rest => do
    let r ← cb s v last
    if r.2 then callUntilStop cb r.1 rest else .ok r.1

/-- `p` is the shortest stored key starting with `k`, and every stored key starting with `k` also
starts with `p`. -/
def LeastExtension (m : Str → Option α) (k p : Str) : Prop :=
  k <+: p ∧ (m p).isSome ∧ ∀ q, k <+: q → (m q).isSome → p <+: q

end Cppnet.Spec
