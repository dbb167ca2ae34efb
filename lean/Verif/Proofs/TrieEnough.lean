import Verif.Model.TrieMemory

/-!
# With enough memory `Model/TrieMemory` is `Model/Trie`
-/

namespace Cppnet
open TNode
variable {α : Type}

theorem object_all : ({} : Mem).object = some {} := rfl
theorem text_all : ({} : Mem).text = some {} := rfl

theorem setVal_all (v : α) (n : TNode α) : setVal v n {} = (mk n.key (some v) n.next, some {}) := rfl

/-- A tree together with all the memory (trie.cpp:60-111). -/
def withAll (r : Out (TNode α)) : Out (TNode α × Option Mem) :=
  match r with
  | .error e => .error e
  | .ok t => .ok (t, some {})

theorem forkMem_all (n : TNode α) (pos : Nat) : forkMem n pos {} = withAll (forkNode n pos) := by
  unfold forkMem forkNode withAll
  by_cases h : pos ≤ 0 ∨ pos ≥ n.key.length
  · rw [if_pos h, if_pos h]
  · simp only [h, if_false, object_all, text_all]
    cases hc : n.key[pos]? with
    | none => simp
    | some c =>
      simp only [TNode.setSlot, bind, Except.bind]
      by_cases h8 : c < 128 <;> simp [h8]

theorem setGoMem_all (v : α) : ∀ (k : Str) (n : TNode α) (pos : Nat), setGoMem v n pos k {} = withAll (setGo v n pos k)
  | [], n, pos => by
    unfold setGoMem setGo forkIf
    by_cases h : pos ≠ n.key.length
    · simp only [h, decide_true, if_true, bind, Except.bind, forkMem_all, ne_eq, not_false_eq_true]
      cases forkNode n pos <;> simp [withAll, setVal_all]
    · simp [h, withAll, setVal_all, bind, Except.bind]
  | c :: cs, n, pos => by
    unfold setGoMem setGo
    by_cases h : pos < n.key.length ∧ n.key[pos]? = some c
    · rw [if_pos h, if_pos h]
      exact setGoMem_all v cs n (pos + 1)
    · rw [if_neg h, if_neg h]
      have go : ∀ x : TNode α,
          (if pos < x.key.length then (.error .diverge : Out (TNode α × Option Mem))
            else do
              match ← x.slot c with
              | none =>
                match ({} : Mem).object with
                | none => .ok (x, none)
                | some m =>
                  match m.text with
                  | none => do
                    let now ← x.setSlot c TNode.empty
                    .ok (now, none)
                  | some m => do
                    let now ← x.setSlot c (setVal v (mk (c :: cs) none fun _ => none) m).1
                    .ok (now, (setVal v (mk (c :: cs) none fun _ => none) m).2)
              | some ch => do
                let r ← setGoMem v ch 1 cs {}
                let now ← x.setSlot c r.1
                .ok (now, r.2)) =
          withAll (if pos < x.key.length then .error .diverge
            else do
              match ← x.slot c with
              | none => x.setSlot c (mk (c :: cs) (some v) fun _ => none)
              | some ch => do
                let ch ← setGo v ch 1 cs
                x.setSlot c ch) := by
        intro x
        by_cases h1 : pos < x.key.length
        · simp [h1, withAll]
        · simp only [h1, if_false, object_all, text_all, setVal_all, bind, Except.bind]
          cases x.slot c with
          | error e => rfl
          | ok o =>
            cases o with
            | none =>
              simp only
              generalize hx : x.setSlot c _ = y
              cases y <;> rfl
            | some ch =>
              simp only [setGoMem_all v cs ch 1]
              cases setGo v ch 1 cs with
              | error e => rfl
              | ok ch' =>
                simp only [withAll]
                cases x.setSlot c ch' <;> rfl
      by_cases h2 : pos < n.key.length
      · simp only [forkIf, h2, decide_true, if_true, bind, Except.bind, forkMem_all]
        cases forkNode n pos with
        | error e => rfl
        | ok x => exact go x
      · simp only [forkIf, h2, decide_false, if_false, bind, Except.bind, Bool.false_eq_true]
        have := go n
        simp only [h2, if_false, bind, Except.bind] at this
        exact this

theorem setFirst_all (v : α) (root : TNode α) (c : Byte) (key : Str) (now : TNode α) :
    setFirst v root c key now {} = withAll (root.setSlot c (mk key (some v) now.next)) := by
  simp only [setFirst, text_all, setVal_all, bind, Except.bind]
  generalize hx : root.setSlot c _ = y
  cases y <;> rfl

/-- `Set` with all the memory it wants is `Set`. -/
theorem trieSetMem_all (root : TNode α) (key : Str) (v : α) : trieSetMem root key v {} = withAll (trieSet root key v) := by
  unfold trieSetMem trieSet
  simp only [object_all]
  cases key with
  | nil => rfl
  | cons c cs =>
    simp only [bind, Except.bind]
    cases root.slot c with
    | error e => rfl
    | ok o =>
      cases o with
      | none =>
        simp only [setFirst_all]
        simp [TNode.empty, TNode.key]
      | some ch =>
        simp only
        by_cases h : ch.key = []
        · simp only [h, if_true, setFirst_all]
        · simp only [h, if_false, setGoMem_all]
          cases setGo v ch 0 (c :: cs) with
          | error e => rfl
          | ok ch' =>
            simp only [withAll]
            cases root.setSlot c ch' <;> rfl

end Cppnet
