import Verif.Props.Trie
import Verif.Spec.TrieAny

/-!
# C172: a trie with values of several types
-/

namespace Cppnet
open Spec
variable {P : Type}

/-- C172, `Get<T>` of a key that was stored: the pointer stored last if it was stored with the type `T`, the exception if it was stored
with another. -/
theorem C172_get_partial (ops : List (TrieOp (AnyPtr P))) (hops : AsciiOps ops) (k : Str) (hk : Ascii k) (a : AnyPtr P)
    (h : mapOf ops k = some a) (T : Nat) :
    ∃ t, trieRun ops = .ok t ∧ trieGetAs T t k = .ok (if a.type = T then .value (some a.ptr) else .badAnyCast) := by
  obtain ⟨t, h1, h2, _⟩ := C09_get_stored ops hops k a hk h
  refine ⟨t, h1, ?_⟩
  unfold trieGetAs ptrCast
  rw [h2]
  simp only [bind, Except.bind]
  by_cases e : a.type = T
  · simp [e]
  · simp [e]

/-- C172, `Get<T>` of a key that was not stored and that no stored key extends: the null pointer. -/
theorem C172_absent_partial (ops : List (TrieOp (AnyPtr P))) (hops : AsciiOps ops) (k : Str) (hk : Ascii k)
    (hn : mapOf ops k = none) (h : k = [] ∨ ∀ q, k <+: q → q ≠ k → mapOf ops q = none) (T : Nat) :
    ∃ t, trieRun ops = .ok t ∧ trieGetAs T t k = .ok (.value none) := by
  obtain ⟨t, h1, h2, _⟩ := C10_get_absent_partial ops hops k hk h
  refine ⟨t, h1, ?_⟩
  unfold trieGetAs
  rw [h2, hn]
  rfl

/-- C172 is false: with one value, of type 1, under "hello", `Get` with another type of the key "hel", under which nothing was stored,
throws. -/
theorem C172_absent_refuted :
    mapOf [TrieOp.set b!"hello" (⟨1, 7⟩ : AnyPtr Nat)] b!"hel" = none ∧
    (trieRun [TrieOp.set b!"hello" (⟨1, 7⟩ : AnyPtr Nat)]).bind (fun t => trieGetAs 2 t b!"hel") = .ok .badAnyCast := by
  decide +kernel

theorem callTyped_eq {σ : Type} (T : Nat) (cb : σ → P → Bool → Out (σ × Bool)) :
    ∀ (hits : List (AnyPtr P × Bool)) (s : σ),
      callUntilStop (castCb T cb) (.value s, s) hits = callTyped T cb s hits := by
  intro hits
  induction hits with
  | nil => intro s; rfl
  | cons x rest ih =>
    intro s
    obtain ⟨a, last⟩ := x
    unfold callUntilStop callTyped castCb ptrCast
    by_cases e : a.type = T
    · simp only [e, if_true, bind, Except.bind]
      cases cb s a.ptr last with
      | error f => rfl
      | ok r =>
        simp only
        split
        · exact ih r.1
        · rfl
    · simp [e, bind, Except.bind]

/-- C172, `Search<T>`: the callback gets the pointers stored under the prefixes of the key, shortest first, until it asks to stop; at the
first one that was stored with another type the call throws, and the callback is not called any more. -/
theorem C172_search_partial {σ : Type} (ops : List (TrieOp (AnyPtr P))) (hops : AsciiOps ops) (key : Str) (hk : Ascii key) (T : Nat)
    (cb : σ → P → Bool → Out (σ × Bool)) (s : σ) :
    ∃ t, trieRun ops = .ok t ∧ trieSearchAs T cb s t key = callTyped T cb s (prefixHits (mapOf ops) key) := by
  obtain ⟨t, h1, h2⟩ := C08_search ops hops key hk (castCb T cb) (.value s, s)
  exact ⟨t, h1, by unfold trieSearchAs; rw [h2, callTyped_eq]⟩

/-- Three values of type 1 and one of type 2. -/
def typedOps : List (TrieOp (AnyPtr Nat)) :=
  [.set b!"/a" ⟨1, 10⟩, .set b!"/a/b/c" ⟨2, 30⟩, .set b!"/a/b" ⟨1, 20⟩, .set b!"/x" ⟨1, 40⟩]

example : (trieRun typedOps).bind (fun t => trieGetAs 1 t b!"/a/b") = .ok (.value (some 20)) ∧
    (trieRun typedOps).bind (fun t => trieGetAs 2 t b!"/a/b") = .ok .badAnyCast ∧
    (trieRun typedOps).bind (fun t => trieGetAs 2 t b!"/zz") = .ok (.value none) ∧
    (trieRun typedOps).bind (fun t => trieSearchAs 1 (fun s p _ => .ok (s ++ [p], true)) [] t b!"/a/b/c") =
      .ok (.badAnyCast, [10, 20]) := by decide +kernel

end Cppnet
