import Verif.Model.TrieMemory
import Verif.Proofs.Trie

/-!
# The trie when memory runs out

As `Proofs/Trie`, but nodes may be left without a value and with fewer than two children.
-/

namespace Cppnet
open Spec TNode
variable {α : Type}

/-- Invariant of every node below the root. -/
inductive Fair : TNode α → Prop
  | mk (n : TNode α) (hk : n.key ≠ []) (ha : Ascii n.key)
      (hn : ∀ c ch, n.next c = some ch → c < 128 ∧ ch.key.head? = some c)
      (hg : ∀ c ch, n.next c = some ch → Fair ch) : Fair n

/-- Invariant of the root. -/
structure FairRoot (n : TNode α) : Prop where
  key : n.key = []
  kids : ∀ c ch, n.next c = some ch → c < 128 ∧ ch.key.head? = some c ∧ Fair ch

theorem Fair.key {n : TNode α} (h : Fair n) : n.key ≠ [] := by
  obtain ⟨_, h, _, _, _⟩ := h; exact h
theorem Fair.pos {n : TNode α} (h : Fair n) : 1 ≤ n.key.length := by
  have := h.key; cases hk : n.key <;> simp_all
theorem Fair.ascii {n : TNode α} (h : Fair n) : Ascii n.key := by
  obtain ⟨_, _, h, _, _⟩ := h; exact h
theorem Fair.kids {n : TNode α} (h : Fair n) :
    ∀ c ch, n.next c = some ch → c < 128 ∧ ch.key.head? = some c ∧ Fair ch := by
  obtain ⟨_, _, _, h1, h2⟩ := h
  exact fun c ch e => ⟨(h1 c ch e).1, (h1 c ch e).2, h2 c ch e⟩
theorem Fair.mk' (n : TNode α) (hk : n.key ≠ []) (ha : Ascii n.key)
    (hn : ∀ c ch, n.next c = some ch → c < 128 ∧ ch.key.head? = some c ∧ Fair ch) : Fair n :=
  Fair.mk n hk ha (fun c ch e => ⟨(hn c ch e).1, (hn c ch e).2.1⟩) (fun c ch e => (hn c ch e).2.2)

theorem fairRoot_empty : FairRoot (TNode.empty : TNode α) := ⟨rfl, by simp [TNode.empty]⟩

theorem text_enough {m : Mem} (h : m.texts = none) : m.text = some m := by simp [Mem.text, h]

theorem object_some {m m' : Mem} (h : m.object = some m') :
    (m.texts = none → m'.texts = none) ∧ (m.objects = none → m'.objects = none) := by
  unfold Mem.object at h
  split at h
  · cases h; exact ⟨id, id⟩
  · cases h
  · cases h; rename_i e; exact ⟨id, fun h => by rw [h] at e; cases e⟩

theorem object_none {m : Mem} (h : m.object = none) : m.objects ≠ none := by
  intro h'
  simp [Mem.object, h'] at h

/-- What is left after a call: there are still texts, and a call that had enough memory has returned. -/
def Left (m : Mem) (r : Option Mem) : Prop :=
  (∀ m', r = some m' → m'.texts = none ∧ (m.objects = none → m'.objects = none)) ∧ (m.objects = none → r.isSome = true)

theorem left_none {m : Mem} (h : m.object = none) : Left m none :=
  ⟨fun _ h => (nomatch h), fun h' => absurd h' (object_none h)⟩

theorem left_self {m : Mem} (h : m.texts = none) : Left m (some m) :=
  ⟨fun _ e => by cases e; exact ⟨h, id⟩, fun _ => rfl⟩

theorem Left.trans {m m' : Mem} {r : Option Mem} (h : m.objects = none → m'.objects = none) (h' : Left m' r) : Left m r :=
  ⟨fun x e => ⟨(h'.1 x e).1, fun h2 => (h'.1 x e).2 (h h2)⟩, fun h2 => h'.2 (h h2)⟩

theorem setVal_left (v : α) (n : TNode α) {m : Mem} (h : m.texts = none) : Left m (setVal v n m).2 := by
  unfold setVal
  cases e : m.object with
  | none => exact left_none e
  | some m' => exact Left.trans (object_some e).2 (left_self ((object_some e).1 h))

theorem setVal_node (v : α) (n : TNode α) (m : Mem) :
    (setVal v n m).1 = TNode.mk n.key (if (setVal v n m).2.isSome then some v else n.val) n.next := by
  unfold setVal
  cases m.object
  · cases n; rfl
  · rfl

/-- A leaf stores at most one key. -/
theorem lkGo_leafO (o : Option α) (w : Str) : ∀ (n pos : Nat) (ds : Str), w.length - pos = n → pos ≤ w.length →
    lkGo (TNode.mk w o fun _ => none) pos ds = if ds = w.drop pos then o else none := by
  intro n
  induction n with
  | zero =>
    intro pos ds e1 e2
    have : pos = w.length := by omega
    subst this
    cases ds <;> simp [lkGo]
  | succ n ihn =>
    intro pos ds e1 e2
    have hl : pos < w.length := by omega
    rw [List.drop_eq_getElem_cons hl]
    cases ds with
    | nil =>
      have h1 : ¬ pos = w.length := by omega
      have h2 : ¬ w.length ≤ pos := by omega
      simp [lkGo, h1, h2]
    | cons y ys =>
      simp only [lkGo, if_pos hl, List.getElem?_eq_getElem hl, Option.some.injEq, List.cons.injEq]
      by_cases hy : w[pos] = y
      · simp only [hy, if_true, true_and]
        exact ihn (pos + 1) ys (by omega) (by omega)
      · simp [hy, Ne.symm hy]

theorem fair_leaf {c : Byte} {cs : Str} (o : Option α) (ha : Ascii (c :: cs)) : Fair (TNode.mk (c :: cs) o fun _ => none) :=
  Fair.mk' _ (by simp) ha (fun _ _ h => nomatch h)

/-- A slot is filled. -/
theorem fair_slot {n : TNode α} {c : Byte} {ch : TNode α} (h : Fair n) (hc : c < 128) (hh : ch.key.head? = some c) (hf : Fair ch) :
    Fair (TNode.mk n.key n.val fun y => if y = c then some ch else n.next y) := by
  refine Fair.mk' _ h.key h.ascii ?_
  intro d x e
  simp only at e
  split at e
  · rename_i hd; subst hd; cases e; exact ⟨hc, hh, hf⟩
  · exact h.kids d x e

/-- What a fork leaves: either nothing has happened, or the node is split at `pos` and holds the same keys. -/
theorem forkMem_spec {n : TNode α} {pos : Nat} {m : Mem} (hg : Fair n) (h0 : 0 < pos) (h1 : pos < n.key.length) (ht : m.texts = none) :
    ∃ n' r, forkMem n pos m = .ok (n', r) ∧ Fair n' ∧ pos ≤ n'.key.length ∧ n'.key <+: n.key ∧ Left m r ∧
      (r.isSome → n'.key.length = pos ∧ ∀ c, n.key[pos]? ≠ some c → n'.next c = none) ∧ ∀ k, lkGo n' pos k = lkGo n pos k := by
  have hx : n.key[pos]? = some n.key[pos] := List.getElem?_eq_getElem h1
  have hlt : n.key[pos] < 128 := hg.ascii _ (List.getElem_mem h1)
  generalize n.key[pos] = x at hx hlt
  unfold forkMem
  rw [if_neg (by omega), hx]
  dsimp only
  cases e : m.object with
  | none => exact ⟨n, none, rfl, hg, by omega, List.prefix_refl _, left_none e, fun h => (nomatch h), fun _ => rfl⟩
  | some m' =>
    have ht' := (object_some e).1 ht
    have htl : (n.key.take pos).length = pos := by simp; omega
    simp only [text_enough ht', setSlot_ok hlt, bind, Except.bind]
    refine ⟨_, _, rfl, ?_, ?_, List.take_prefix _ _, Left.trans (object_some e).2 (left_self ht'), fun _ => ⟨htl, ?_⟩, ?_⟩
    · refine Fair.mk' _ ?_ ?_ ?_
      · intro h; simp only at h; rw [h] at htl; simp at htl; omega
      · intro c hc; exact hg.ascii c (List.mem_of_mem_take hc)
      · intro c ch h
        simp only at h
        split at h
        · rename_i hcx; subst hcx; cases h
          refine ⟨hlt, by simp [List.head?_drop, hx], Fair.mk' _ (by simp; omega) ?_ hg.kids⟩
          intro c hc; exact hg.ascii c (List.mem_of_mem_drop hc)
        · cases h
    · simp; omega
    · intro c hc
      have : c ≠ x := fun h => hc (by rw [h])
      simp [this]
    · intro k
      cases k with
      | nil => simp only [lkGo, htl]; rw [if_neg (by omega : ¬ pos = n.key.length)]; simp
      | cons c cs =>
        simp only [lkGo, htl, Nat.lt_irrefl, if_false, h1, if_true, hx, Option.some.injEq]
        by_cases hc : c = x
        · subst hc
          simp only [if_true]
          cases n; exact lkGo_shift _ _ _ pos (by omega) cs 1
        · simp [hc, Ne.symm hc]

/-- The end of the key is reached: the value is stored, or nothing happens. -/
theorem endMem (v : α) {n : TNode α} {m : Mem} (hg : Fair n) (ht : m.texts = none) :
    Fair (setVal v n m).1 ∧ (setVal v n m).1.key = n.key ∧ Left m (setVal v n m).2 ∧
      ∀ k, lkGo (setVal v n m).1 n.key.length k = if (setVal v n m).2.isSome ∧ k = [] then some v else lkGo n n.key.length k := by
  have hl := setVal_left v n ht
  rw [setVal_node]
  generalize (setVal v n m).2 = r at hl
  refine ⟨Fair.mk' _ hg.key hg.ascii hg.kids, rfl, hl, ?_⟩
  intro k
  cases k with
  | nil => cases r <;> simp [lkGo]
  | cons c cs => simp [lkGo]

/-- A new leaf is hung to a node. -/
theorem leafMem (v : α) {n : TNode α} {c : Byte} {cs : Str} {m : Mem} (hg : Fair n) (ht : m.texts = none) (ha : Ascii (c :: cs))
    (hn : n.next c = none) (n' : TNode α)
    (e : n' = TNode.mk n.key n.val fun y => if y = c then some (setVal v (TNode.mk (c :: cs) none fun _ => none) m).1 else n.next y) :
    Fair n' ∧ n'.key = n.key ∧ Left m (setVal v (TNode.mk (c :: cs) none fun _ => none) m).2 ∧
      ∀ k, lkGo n' n.key.length k =
        if (setVal v (TNode.mk (c :: cs) none fun _ => none) m).2.isSome ∧ k = c :: cs then some v else lkGo n n.key.length k := by
  have hl := setVal_left v (TNode.mk (c :: cs) none fun _ => none) ht
  rw [setVal_node] at e
  generalize (setVal v (TNode.mk (c :: cs) none fun _ => none) m).2 = r at hl e
  subst e
  refine ⟨fair_slot hg (ha c (by simp)) rfl (fair_leaf _ ha), rfl, hl, ?_⟩
  intro k
  cases k with
  | nil => simp [lkGo]
  | cons d ds =>
    simp only [lkGo, Nat.lt_irrefl, if_false]
    by_cases hd : d = c
    · subst hd
      simp only [if_true, hn]
      rw [lkGo_leafO _ (d :: cs) _ 1 ds rfl (by simp)]
      cases r <;> simp
    · simp [hd]

theorem setGoMem_spec (v : α) : ∀ (k : Str) (now : TNode α) (pos : Nat) (m : Mem), Fair now → 0 < pos →
    pos ≤ now.key.length → Ascii k → m.texts = none →
    ∃ now' r, setGoMem v now pos k m = .ok (now', r) ∧ Fair now' ∧ pos ≤ now'.key.length ∧ now'.key <+: now.key ∧ Left m r ∧
      ∀ k', lkGo now' pos k' = if r.isSome ∧ k' = k then some v else lkGo now pos k' := by
  intro k
  induction k with
  | nil =>
    intro now pos m hg h0 h1 _ ht
    unfold setGoMem
    by_cases hp : pos = now.key.length
    · obtain ⟨a1, a2, a3, a4⟩ := endMem v hg ht
      refine ⟨(setVal v now m).1, (setVal v now m).2, by simp [forkIf, hp, bind, Except.bind], a1, by rw [a2]; exact h1, by rw [a2]; exact List.prefix_refl _, a3, ?_⟩
      rw [hp]; exact a4
    · obtain ⟨n', r, e1, e2, e3, e4, e5, e6, e7⟩ := forkMem_spec hg h0 (by omega) ht
      simp only [forkIf, ne_eq, hp, not_false_eq_true, decide_true, if_true, e1, bind, Except.bind]
      cases r with
      | none => exact ⟨n', none, rfl, e2, e3, e4, e5, fun k' => by simp [e7]⟩
      | some m' =>
        obtain ⟨l1, l2⟩ := e5.1 m' rfl
        obtain ⟨a1, a2, a3, a4⟩ := endMem v e2 l1
        refine ⟨(setVal v n' m').1, (setVal v n' m').2, rfl, a1, by rw [a2]; exact e3, by rw [a2]; exact e4, a3.trans l2, ?_⟩
        intro k'
        have := a4 k'
        rw [(e6 rfl).1] at this
        rw [this, e7]
  | cons c cs ih =>
    intro now pos m hg h0 h1 ha ht
    have hc128 : c < 128 := ha c (by simp)
    have hacs : Ascii cs := fun x hx => ha x (by simp [hx])
    unfold setGoMem
    by_cases hm : pos < now.key.length ∧ now.key[pos]? = some c
    · obtain ⟨hlt, hx⟩ := hm
      obtain ⟨now', r, e1, e2, e3, e4, e5, e6⟩ := ih now (pos + 1) m hg (by omega) (by omega) hacs ht
      refine ⟨now', r, by rw [if_pos ⟨hlt, hx⟩, e1], e2, by omega, e4, e5, ?_⟩
      intro k'
      have hk' : now'.key[pos]? = some c := by
        obtain ⟨w, hw⟩ := e4
        rw [← hw, List.getElem?_append_left (by omega)] at hx
        exact hx
      cases k' with
      | nil =>
        simp only [lkGo]
        rw [if_neg (by omega : ¬ pos = now'.key.length), if_neg (by omega : ¬ pos = now.key.length)]
        simp
      | cons d ds =>
        simp only [lkGo]
        rw [if_pos (by omega : pos < now'.key.length), if_pos hlt, hk', hx]
        by_cases hd : c = d
        · subst hd; simp [e6 ds]
        · simp [hd, Ne.symm hd]
    · rw [if_neg hm]
      -- the node after the fork, if there is one
      have hfork : ∃ n' r, forkIf (decide (pos < now.key.length)) now pos m = .ok (n', r) ∧ Fair n' ∧
          pos ≤ n'.key.length ∧ n'.key <+: now.key ∧ Left m r ∧ (r.isSome → n'.key.length = pos) ∧
          ∀ k, lkGo n' pos k = lkGo now pos k := by
        by_cases hlt : pos < now.key.length
        · obtain ⟨n', r, e1, e2, e3, e4, e5, e6, e7⟩ := forkMem_spec hg h0 hlt ht
          exact ⟨n', r, by simp [forkIf, hlt, e1], e2, e3, e4, e5, fun h => (e6 h).1, e7⟩
        · exact ⟨now, some m, by simp [forkIf, hlt], hg, h1, List.prefix_refl _, left_self ht, fun _ => by omega, fun _ => rfl⟩
      obtain ⟨n', r, e1, e2, e3, e4, e5, e6, e7⟩ := hfork
      rw [e1]
      simp only [bind, Except.bind]
      cases r with
      | none => exact ⟨n', none, rfl, e2, e3, e4, e5, fun k' => by simp [e7]⟩
      | some m' =>
        obtain ⟨l1, l2⟩ := e5.1 m' rfl
        have hp := e6 rfl
        simp only [hp, Nat.lt_irrefl, if_false, slot_ok hc128]
        cases hnx : n'.next c with
        | none =>
          simp only
          cases ho : m'.object with
          | none =>
            exact ⟨n', none, rfl, e2, e3, e4, (left_none ho).trans l2, fun k' => by simp [e7]⟩
          | some m2 =>
            have ht2 := (object_some ho).1 l1
            simp only [text_enough ht2, setSlot_ok hc128]
            obtain ⟨a1, a2, a3, a4⟩ := leafMem v e2 ht2 ha hnx _ rfl
            refine ⟨_, _, rfl, a1, by rw [a2]; exact e3, by rw [a2]; exact e4, (a3.trans (object_some ho).2).trans l2, ?_⟩
            intro k'
            have := a4 k'
            rw [hp] at this
            rw [this, e7]
        | some ch =>
          obtain ⟨_, hhd, hchg⟩ := e2.kids c ch hnx
          obtain ⟨ch', r', b1, b2, b3, b4, b5, b6⟩ := ih ch 1 m' hchg (by omega) hchg.pos hacs l1
          simp only [b1, setSlot_ok hc128]
          refine ⟨_, _, rfl, fair_slot e2 hc128 ?_ b2, e3, e4, b5.trans l2, ?_⟩
          · obtain ⟨w, hw⟩ := b4
            cases hk : ch'.key with
            | nil => rw [hk] at b3; simp at b3
            | cons y ys => rw [← hw, hk] at hhd; simpa using hhd
          · intro k'
            rw [← e7]
            cases k' with
            | nil => simp [lkGo]
            | cons d ds =>
              simp only [lkGo, hp, Nat.lt_irrefl, if_false]
              by_cases hd : d = c
              · subst hd
                simp only [if_true, hnx, b6]
                simp
              · simp [hd]

theorem lookupF_nil {root : TNode α} (h : FairRoot root) : lookup root [] = root.val := by
  simp [lookup, lkGo, h.key]

theorem lookupF_cons {root : TNode α} (h : FairRoot root) (c : Byte) (cs : Str) :
    lookup root (c :: cs) = match root.next c with
      | none => none
      | some ch => lkGo ch 1 cs := by
  simp only [lookup, lkGo, h.key, List.length_nil, Nat.lt_irrefl, if_false]
  cases root.next c <;> rfl

theorem fairRoot_slot {n : TNode α} {c : Byte} {ch : TNode α} (h : FairRoot n) (hc : c < 128) (hh : ch.key.head? = some c)
    (hf : Fair ch) : FairRoot (TNode.mk n.key n.val fun y => if y = c then some ch else n.next y) := by
  refine ⟨h.key, ?_⟩
  intro d x e
  simp only at e
  split at e
  · rename_i hd; subst hd; cases e; exact ⟨hc, hh, hf⟩
  · exact h.kids d x e

theorem trieSetMem_spec (v : α) (root : TNode α) (h : FairRoot root) (k : Str) (ha : Ascii k) (m : Mem) (ht : m.texts = none) :
    ∃ root' r, trieSetMem root k v m = .ok (root', r) ∧ FairRoot root' ∧ Left m r ∧
      ∀ k', lookup root' k' = if r.isSome ∧ k' = k then some v else lookup root k' := by
  unfold trieSetMem
  cases ho : m.object with
  | none => exact ⟨root, none, rfl, h, left_none ho, fun k' => by simp⟩
  | some m1 =>
    have ht1 := (object_some ho).1 ht
    have ho1 := (object_some ho).2
    cases k with
    | nil =>
      have hl := setVal_left v root ht1
      have hn := setVal_node v root m1
      refine ⟨(setVal v root m1).1, (setVal v root m1).2, rfl, ?_, hl.trans ho1, ?_⟩
      · rw [hn]; exact ⟨h.key, h.kids⟩
      · intro k'
        rw [hn]
        generalize (setVal v root m1).2 = r
        have hg : FairRoot (TNode.mk root.key (if r.isSome then some v else root.val) root.next) := ⟨h.key, h.kids⟩
        cases k' with
        | nil => rw [lookupF_nil hg, lookupF_nil h]; simp
        | cons d ds => rw [lookupF_cons hg, lookupF_cons h]; simp
    | cons c cs =>
      have hc128 : c < 128 := ha c (by simp)
      have hacs : Ascii cs := fun x hx => ha x (by simp [hx])
      simp only [slot_ok hc128, bind, Except.bind]
      cases hnx : root.next c with
      | none =>
        simp only
        cases ho2 : m1.object with
        | none => exact ⟨root, none, rfl, h, (left_none ho2).trans ho1, fun k' => by simp⟩
        | some m2 =>
          have ht2 := (object_some ho2).1 ht1
          simp only [setFirst, text_enough ht2, setSlot_ok hc128, bind, Except.bind, TNode.empty]
          have hl := setVal_left v (TNode.mk (c :: cs) none fun _ => none) ht2
          have hn := setVal_node v (TNode.mk (c :: cs) none fun _ => none) m2
          refine ⟨_, _, rfl, ?_, (hl.trans (object_some ho2).2).trans ho1, ?_⟩
          · rw [hn]; exact fairRoot_slot h hc128 rfl (fair_leaf _ ha)
          · intro k'
            rw [hn]
            generalize (setVal v (TNode.mk (c :: cs) none fun _ => none) m2).2 = r
            have hg := fairRoot_slot h hc128 rfl (fair_leaf (if r.isSome then some v else none) ha)
            cases k' with
            | nil => rw [lookupF_nil hg, lookupF_nil h]; simp
            | cons d ds =>
              rw [lookupF_cons hg, lookupF_cons h]
              by_cases hd : d = c
              · subst hd
                simp only [if_true, hnx]
                rw [lkGo_leafO _ (d :: cs) _ 1 ds rfl (by simp)]
                cases r <;> simp
              · simp [hd]
      | some ch =>
        obtain ⟨_, hhd, hchg⟩ := h.kids c ch hnx
        obtain ⟨t, hr⟩ : ∃ t, ch.key = c :: t := by
          cases hk : ch.key with
          | nil => simp [hk] at hhd
          | cons x t => simp [hk] at hhd; exact ⟨t, by rw [hhd]⟩
        obtain ⟨ch', r', b1, b2, b3, b4, b5, b6⟩ := setGoMem_spec v cs ch 1 m1 hchg (by omega) hchg.pos hacs ht1
        have hstep : setGoMem v ch 0 (c :: cs) m1 = setGoMem v ch 1 cs m1 := by
          conv => lhs; unfold setGoMem
          simp [hr]
        have hh : ch'.key.head? = some c := by
          obtain ⟨w, hw⟩ := b4
          cases hk : ch'.key with
          | nil => rw [hk] at b3; simp at b3
          | cons y ys => rw [← hw, hk] at hhd; simpa using hhd
        simp only [hchg.key, if_false, hstep, b1, setSlot_ok hc128]
        have hg := fairRoot_slot h hc128 hh b2
        refine ⟨_, _, rfl, hg, b5.trans ho1, ?_⟩
        intro k'
        cases k' with
        | nil => rw [lookupF_nil hg, lookupF_nil h]; simp
        | cons d ds =>
          rw [lookupF_cons hg, lookupF_cons h]
          by_cases hd : d = c
          · subst hd; simp only [if_true, hnx, b6]; simp
          · simp [hd]

/-! ### Get and Search -/

theorem headKey {n : TNode α} {c : Byte} (hh : n.key.head? = some c) : ∃ r, n.key = c :: r := by
  cases hk : n.key with
  | nil => simp [hk] at hh
  | cons x r => simp [hk] at hh; exact ⟨r, by rw [hh]⟩

theorem getGo_stored : ∀ (k : Str) (n : TNode α) (pos : Nat) (v : α), Ascii k → lkGo n pos k = some v → getGo n pos k = .ok (some v) := by
  intro k
  induction k with
  | nil =>
    intro n pos v _ h
    simp only [lkGo] at h
    split at h
    · simp [getGo, h]
    · cases h
  | cons c cs ih =>
    intro n pos v ha h
    have hc128 : c < 128 := ha c (by simp)
    have hacs : Ascii cs := fun x hx => ha x (by simp [hx])
    simp only [lkGo] at h
    simp only [getGo]
    by_cases hlt : pos < n.key.length
    · simp only [hlt, if_true] at h ⊢
      by_cases hx : n.key[pos]? = some c
      · simp only [hx, if_true] at h ⊢
        exact ih n (pos + 1) v hacs h
      · simp [hx] at h
    · simp only [hlt, if_false, slot_ok hc128, bind, Except.bind] at h ⊢
      cases hnx : n.next c with
      | none => simp [hnx] at h
      | some ch =>
        simp only [hnx] at h ⊢
        exact ih ch 1 v hacs h

theorem trieGet_stored {root : TNode α} (h : FairRoot root) (k : Str) (ha : Ascii k) (v : α) (hv : lookup root k = some v) :
    trieGet root k = .ok (some v) := by
  cases k with
  | nil => rw [lookupF_nil h] at hv; simp [trieGet, hv]
  | cons c cs =>
    have hc128 : c < 128 := ha c (by simp)
    have hacs : Ascii cs := fun x hx => ha x (by simp [hx])
    rw [lookupF_cons h] at hv
    simp only [trieGet, slot_ok hc128, bind, Except.bind]
    cases hnx : root.next c with
    | none => simp [hnx] at hv
    | some ch =>
      simp only [hnx] at hv ⊢
      obtain ⟨_, hhd, hchg⟩ := h.kids c ch hnx
      obtain ⟨t, hr⟩ : ∃ t, ch.key = c :: t := by
        cases hk : ch.key with
        | nil => simp [hk] at hhd
        | cons x t => simp [hk] at hhd; exact ⟨t, by rw [hhd]⟩
      have : getGo ch 0 (c :: cs) = getGo ch 1 cs := by
        conv => lhs; unfold getGo
        simp [hr]
      rw [this]
      exact getGo_stored cs ch 1 v hacs hv

theorem searchGo_fair {σ : Type} (cb : σ → α → Bool → Out (σ × Bool)) :
    ∀ (k : Str) (s : σ) (n : TNode α) (pos : Nat), pos ≤ n.key.length → Fair n → Ascii k →
      searchGo cb s n pos k = callUntilStop cb s (hitsRec (lkGo n pos) k) := by
  intro k
  induction k with
  | nil =>
    intro s n pos h1 _ _
    simp only [searchGo, hitsRec, lkGo]
    cases hv : n.val with
    | none => simp [callUntilStop]
    | some v =>
      by_cases hp : pos = n.key.length
      · simp only [hp, if_true, Option.map_some, Option.toList_some, callUntilStop, bind, Except.bind]
        cases cb s v true with
        | error e => rfl
        | ok r => simp
      · simp [hp, callUntilStop]
  | cons c cs ih =>
    intro s n pos h1 hg ha
    have hc128 : c < 128 := ha c (by simp)
    have hacs : Ascii cs := fun x hx => ha x (by simp [hx])
    by_cases hlt : pos < n.key.length
    · have hnil : lkGo n pos [] = none := by
        simp only [lkGo]; rw [if_neg (by omega)]
      by_cases hx : n.key[pos]? = some c
      · have hf : (fun k => lkGo n pos (c :: k)) = lkGo n (pos + 1) := by
          funext k; simp only [lkGo, hlt, if_true, hx]
        simp only [searchGo, hlt, if_true, hx, hitsRec, hnil, hf, Option.map_none, Option.toList_none,
          List.nil_append]
        exact ih s n (pos + 1) (by omega) hg hacs
      · have hf : (fun k => lkGo n pos (c :: k)) = fun _ => none := by
          funext k; simp only [lkGo, hlt, if_true, hx, if_false]
        simp only [searchGo, hlt, if_true, hx, if_false, hitsRec, hnil, hf, hitsRec_none, Option.map_none,
          Option.toList_none, List.nil_append, callUntilStop]
    · have hp : pos = n.key.length := by omega
      have hnil : lkGo n pos [] = n.val := by simp [lkGo, hp]
      have hrest : ∀ s', (match n.next c with
            | none => (.ok s' : Out σ)
            | some ch => searchGo cb s' ch 1 cs) =
          callUntilStop cb s' (hitsRec (fun k => lkGo n pos (c :: k)) cs) := by
        intro s'
        cases hnx : n.next c with
        | none =>
          have hf : (fun k => lkGo n pos (c :: k)) = fun _ => none := by
            funext k; simp only [lkGo, hlt, if_false, hnx]
          simp only [hf, hitsRec_none, callUntilStop]
        | some ch =>
          obtain ⟨_, hhd, hchg⟩ := hg.kids c ch hnx
          have hl : 1 ≤ ch.key.length := by
            have := hchg.key; cases hk : ch.key <;> simp_all
          have hf : (fun k => lkGo n pos (c :: k)) = lkGo ch 1 := by
            funext k; simp only [lkGo, hlt, if_false, hnx]
          simp only [hf]
          exact ih s' ch 1 hl hchg hacs
      simp only [searchGo, hlt, if_false, hitsRec, hnil, bind, Except.bind, slot_ok hc128]
      cases hv : n.val with
      | none => simp; exact hrest s
      | some v =>
        simp only [Option.map_some, Option.toList_some, List.singleton_append, callUntilStop, bind,
          Except.bind]
        cases cb s v false with
        | error e => rfl
        | ok r =>
          obtain ⟨s', b⟩ := r
          cases b with
          | false => simp
          | true => simp; exact hrest s'

theorem trieSearch_fair {σ : Type} (cb : σ → α → Bool → Out (σ × Bool)) (s : σ) {root : TNode α}
    (h : FairRoot root) (k : Str) (ha : Ascii k) :
    trieSearch cb s root k = callUntilStop cb s (prefixHits (lookup root) k) := by
  rw [prefixHits_eq]
  cases k with
  | nil =>
    simp only [trieSearch, hitsRec, lookupF_nil h, List.isEmpty_nil, bind, Except.bind]
    cases hv : root.val with
    | none => simp [callUntilStop]
    | some v =>
      simp only [Option.map_some, Option.toList_some, callUntilStop, bind, Except.bind]
      cases cb s v true with
      | error e => rfl
      | ok r => obtain ⟨s', b⟩ := r; cases b <;> simp
  | cons c cs =>
    have hc128 : c < 128 := ha c (by simp)
    have hacs : Ascii cs := fun x hx => ha x (by simp [hx])
    have hrest : ∀ s', (match root.next c with
          | none => (.ok s' : Out σ)
          | some ch => searchGo cb s' ch 0 (c :: cs)) =
        callUntilStop cb s' (hitsRec (fun k => lookup root (c :: k)) cs) := by
      intro s'
      cases hnx : root.next c with
      | none =>
        have hf : (fun k => lookup root (c :: k)) = fun _ => none := by
          funext k; rw [lookupF_cons h, hnx]
        simp only [hf, hitsRec_none, callUntilStop]
      | some ch =>
        obtain ⟨_, hhd, hchg⟩ := h.kids c ch hnx
        obtain ⟨r, hr⟩ := headKey hhd
        have hf : (fun k => lookup root (c :: k)) = lkGo ch 1 := by
          funext k; rw [lookupF_cons h, hnx]
        have hstep : searchGo cb s' ch 0 (c :: cs) = searchGo cb s' ch 1 cs := by
          conv => lhs; unfold searchGo
          simp [hr]
        simp only [hf, hstep]
        exact searchGo_fair cb cs s' ch 1 (by simp [hr]) hchg hacs
    simp only [trieSearch, hitsRec, lookupF_nil h, List.isEmpty_cons, bind, Except.bind, slot_ok hc128]
    cases hv : root.val with
    | none => simp; exact hrest s
    | some v =>
      simp only [Option.map_some, Option.toList_some, List.singleton_append, callUntilStop, bind,
        Except.bind]
      cases cb s v false with
      | error e => rfl
      | ok r =>
        obtain ⟨s', b⟩ := r
        cases b with
        | false => simp
        | true => simp; exact hrest s'

end Cppnet
