import Verif.Spec.Trie

namespace Cppnet
open Spec TNode
variable {α : Type}

/-- Exact lookup below `now`, from position `pos` of its key. -/
def lkGo : TNode α → Nat → Str → Option α
  | now, pos, [] => if pos = now.key.length then now.val else none
  | now, pos, c :: cs =>
    if pos < now.key.length then
      if now.key[pos]? = some c then lkGo now (pos + 1) cs else none
    else
      match now.next c with
      | none => none
      | some ch => lkGo ch 1 cs

/-- Two different slots are in use. -/
def TwoKids (n : TNode α) : Prop := ∃ c1 c2, c1 ≠ c2 ∧ (n.next c1).isSome ∧ (n.next c2).isSome

/-- Invariant of every node below the root. -/
inductive Good : TNode α → Prop
  | mk (n : TNode α) (hk : n.key ≠ []) (hc : n.val.isSome ∨ TwoKids n) (ha : Ascii n.key)
      (hn : ∀ c ch, n.next c = some ch → c < 128 ∧ ch.key.head? = some c)
      (hg : ∀ c ch, n.next c = some ch → Good ch) : Good n

/-- Invariant of the root. -/
structure GoodRoot (n : TNode α) : Prop where
  key : n.key = []
  kids : ∀ c ch, n.next c = some ch → c < 128 ∧ ch.key.head? = some c ∧ Good ch

theorem Good.key {n : TNode α} (h : Good n) : n.key ≠ [] := by
  obtain ⟨_, h, _, _, _, _⟩ := h; exact h
theorem Good.canon {n : TNode α} (h : Good n) : n.val.isSome ∨ TwoKids n := by
  obtain ⟨_, _, h, _, _, _⟩ := h; exact h
theorem Good.ascii {n : TNode α} (h : Good n) : Ascii n.key := by
  obtain ⟨_, _, _, h, _, _⟩ := h; exact h
theorem Good.kids {n : TNode α} (h : Good n) :
    ∀ c ch, n.next c = some ch → c < 128 ∧ ch.key.head? = some c ∧ Good ch := by
  obtain ⟨_, _, _, _, h1, h2⟩ := h
  exact fun c ch e => ⟨(h1 c ch e).1, (h1 c ch e).2, h2 c ch e⟩

theorem Good.mk' (n : TNode α) (hk : n.key ≠ []) (hc : n.val.isSome ∨ TwoKids n) (ha : Ascii n.key)
    (hn : ∀ c ch, n.next c = some ch → c < 128 ∧ ch.key.head? = some c ∧ Good ch) : Good n :=
  Good.mk n hk hc ha (fun c ch e => ⟨(hn c ch e).1, (hn c ch e).2.1⟩) (fun c ch e => (hn c ch e).2.2)

theorem goodRoot_empty : GoodRoot (TNode.empty : TNode α) := ⟨rfl, by simp [TNode.empty]⟩

theorem slot_ok {n : TNode α} {c : Byte} (h : c < 128) : n.slot c = .ok (n.next c) := by
  simp [slot, h]

theorem setSlot_ok {n : TNode α} {c : Byte} (h : c < 128) (ch : TNode α) :
    n.setSlot c ch = .ok (mk n.key n.val fun x => if x = c then some ch else n.next x) := by
  simp [setSlot, h]

/-- `lkGo` in a node whose key starts with `c`. -/
theorem lkGo_cons_head {ch : TNode α} {c : Byte} (h : ch.key.head? = some c) (cs : Str) :
    lkGo ch 0 (c :: cs) = lkGo ch 1 cs := by
  obtain ⟨r, hr⟩ : ∃ r, ch.key = c :: r := by
    cases hk : ch.key with
    | nil => simp [hk] at h
    | cons x r => simp [hk] at h; exact ⟨r, by rw [h]⟩
  simp [lkGo, hr]

theorem lkGo_shift (key : Str) (v : Option α) (nx) (p : Nat) (hp : p ≤ key.length) :
    ∀ (k : Str) (q : Nat), lkGo (mk (key.drop p) v nx) q k = lkGo (mk key v nx) (p + q) k := by
  intro k
  induction k with
  | nil =>
    intro q
    simp only [lkGo, List.length_drop]
    by_cases h : q = key.length - p
    · rw [if_pos h, if_pos (by omega)]
    · rw [if_neg h, if_neg (by omega)]
  | cons c cs ih =>
    intro q
    simp only [lkGo, List.length_drop, List.getElem?_drop]
    by_cases h : q < key.length - p
    · have h' : p + q < key.length := by omega
      simp only [h, h', if_true, ih, Nat.add_assoc]
    · have h' : ¬ p + q < key.length := by omega
      simp only [h, h', if_false]

/-- The value at a node is found under the rest of its key. -/
theorem lkGo_self (n : TNode α) : ∀ (m pos : Nat), n.key.length - pos = m → pos ≤ n.key.length →
    lkGo n pos (n.key.drop pos) = n.val := by
  intro m
  induction m with
  | zero =>
    intro pos h1 h2
    have : n.key.drop pos = [] := List.drop_of_length_le (by omega)
    simp only [this, lkGo]; rw [if_pos (by omega)]
  | succ m ih =>
    intro pos h1 h2
    have hlt : pos < n.key.length := by omega
    rw [List.drop_eq_getElem_cons hlt]
    simp only [lkGo, if_pos hlt, List.getElem?_eq_getElem hlt, if_true]
    exact ih (pos + 1) (by omega) (by omega)

/-- Whatever is found below a node starts with the rest of its key. -/
theorem lkGo_prefix (n : TNode α) : ∀ (k : Str) (pos : Nat), pos ≤ n.key.length →
    (lkGo n pos k).isSome → n.key.drop pos <+: k := by
  intro k
  induction k with
  | nil =>
    intro pos h1 h2
    simp only [lkGo] at h2
    split at h2
    · rename_i h; rw [h]; simp
    · simp at h2
  | cons c cs ih =>
    intro pos h1 h2
    simp only [lkGo] at h2
    split at h2
    · rename_i hlt
      split at h2
      · rename_i he
        rw [List.drop_eq_getElem_cons hlt]
        rw [List.getElem?_eq_getElem hlt] at he
        simp at he
        rw [he, List.cons_prefix_cons]
        exact ⟨rfl, ih (pos + 1) (by omega) h2⟩
      · simp at h2
    · have : n.key.drop pos = [] := List.drop_of_length_le (by omega)
      rw [this]; exact List.nil_prefix

theorem lkGo_ext (n : TNode α) : ∀ (m pos : Nat), n.key.length - pos = m → pos ≤ n.key.length →
    ∀ k, lkGo n pos (n.key.drop pos ++ k) = lkGo n n.key.length k := by
  intro m
  induction m with
  | zero =>
    intro pos h1 h2 k
    have : n.key.drop pos = [] := List.drop_of_length_le (by omega)
    have : pos = n.key.length := by omega
    simp [this]
  | succ m ih =>
    intro pos h1 h2 k
    have hlt : pos < n.key.length := by omega
    rw [List.drop_eq_getElem_cons hlt, List.cons_append]
    conv => lhs; unfold lkGo
    simp only [if_pos hlt, List.getElem?_eq_getElem hlt, if_true]
    exact ih (pos + 1) (by omega) (by omega) k

/-- Every node below the root has a stored key under it. -/
theorem Good.exists_key {n : TNode α} (h : Good n) :
    ∀ pos, pos ≤ n.key.length → ∃ k, (lkGo n pos k).isSome := by
  induction h with
  | mk n hk hc ha hn hg ih =>
    intro pos hpos
    rcases hc with hv | ⟨c1, _, _, h1, _⟩
    · exact ⟨n.key.drop pos, by rw [lkGo_self n _ pos rfl hpos]; exact hv⟩
    · obtain ⟨ch, hch⟩ := Option.isSome_iff_exists.1 h1
      have hg := hg c1 ch hch
      have hl : 1 ≤ ch.key.length := by
        have := hg.key; cases hk : ch.key <;> simp_all
      obtain ⟨k, hk⟩ := ih c1 ch hch 1 hl
      refine ⟨n.key.drop pos ++ c1 :: k, ?_⟩
      rw [lkGo_ext n _ pos rfl hpos]
      simp only [lkGo, Nat.lt_irrefl, if_false, hch]
      exact hk

/-! ### Set -/

theorem forkNode_eq {n : TNode α} {pos : Nat} (h0 : 0 < pos) (h1 : pos < n.key.length)
    (ha : Ascii n.key) :
    ∃ x, n.key[pos]? = some x ∧ x < 128 ∧ forkNode n pos =
      .ok (mk (n.key.take pos) none fun y =>
        if y = x then some (mk (n.key.drop pos) n.val n.next) else none) := by
  have hx : n.key[pos]? = some n.key[pos] := List.getElem?_eq_getElem h1
  have hlt : n.key[pos] < 128 := ha _ (List.getElem_mem h1)
  refine ⟨_, hx, hlt, ?_⟩
  unfold forkNode
  rw [if_neg (by omega), hx]
  simp only
  rw [setSlot_ok hlt]

/-- The child a fork creates is good, and its key starts with the branching byte. -/
theorem fork_child_good {n : TNode α} (h : Good n) {pos : Nat} (h1 : pos < n.key.length) {x : Byte}
    (hx : n.key[pos]? = some x) :
    Good (mk (n.key.drop pos) n.val n.next) ∧
      (mk (n.key.drop pos) n.val n.next).key.head? = some x := by
  refine ⟨Good.mk' _ ?_ ?_ ?_ ?_, ?_⟩
  · simp; omega
  · exact h.canon
  · intro c hc; exact h.ascii c (List.mem_of_mem_drop hc)
  · exact h.kids
  · simp [List.head?_drop, hx]

/-- A leaf stores exactly one key. -/
theorem lkGo_leaf (v : α) (w : Str) : ∀ (n pos : Nat) (ds : Str), w.length - pos = n → pos ≤ w.length →
    lkGo (mk w (some v) fun _ => none) pos ds = if ds = w.drop pos then some v else none := by
  intro n
  induction n with
  | zero =>
    intro pos ds e1 e2
    have : pos = w.length := by omega
    subst this
    cases ds <;> simp [lkGo]
  | succ n ihn =>
    intro pos ds e1 e2
    have hl : pos < w.length := by omega
    rw [List.drop_eq_getElem_cons hl]
    cases ds with
    | nil =>
      have h1 : ¬ pos = w.length := by omega
      have h2 : ¬ w.length ≤ pos := by omega
      simp [lkGo, h1, h2]
    | cons y ys =>
      simp only [lkGo, if_pos hl, List.getElem?_eq_getElem hl, Option.some.injEq, List.cons.injEq]
      by_cases hy : w[pos] = y
      · simp only [hy, if_true, true_and]
        exact ihn (pos + 1) ys (by omega) (by omega)
      · simp [hy, Ne.symm hy]

theorem setGo_spec (v : α) : ∀ (k : Str) (now : TNode α) (pos : Nat), Good now → 0 < pos →
    pos ≤ now.key.length → Ascii k →
    ∃ now', setGo v now pos k = .ok now' ∧ Good now' ∧ pos ≤ now'.key.length ∧
      now'.key <+: now.key ∧
      ∀ k', lkGo now' pos k' = if k' = k then some v else lkGo now pos k' := by
  intro k
  induction k with
  | nil =>
    intro now pos hg h0 h1 _
    unfold setGo
    by_cases hp : pos = now.key.length
    · refine ⟨mk now.key (some v) now.next, by simp [hp, bind, Except.bind], ?_, h1, List.prefix_refl _, ?_⟩
      · exact Good.mk' _ hg.key (Or.inl rfl) hg.ascii hg.kids
      · intro k'
        cases k' with
        | nil => simp [lkGo, hp]
        | cons c cs => simp [lkGo, hp]
    · have hlt : pos < now.key.length := by omega
      obtain ⟨x, hx, hx128, hf⟩ := forkNode_eq h0 hlt hg.ascii
      obtain ⟨hcg, hch⟩ := fork_child_good hg hlt hx
      have htl : (now.key.take pos).length = pos := by simp; omega
      refine ⟨mk (now.key.take pos) (some v) fun y =>
        if y = x then some (mk (now.key.drop pos) now.val now.next) else none, ?_, ?_, ?_, ?_, ?_⟩
      · simp [hp, hf, bind, Except.bind]
      · refine Good.mk' _ ?_ (Or.inl rfl) ?_ ?_
        · intro h; simp only at h; rw [h] at htl; simp at htl; omega
        · intro c hc; exact hg.ascii c (List.mem_of_mem_take hc)
        · intro c ch h
          simp only  at h
          split at h
          · rename_i hcx; subst hcx; cases h
            exact ⟨hx128, hch, hcg⟩
          · cases h
      · simp; omega
      · exact List.take_prefix _ _
      · intro k'
        cases k' with
        | nil => simp only [lkGo, htl]; simp
        | cons c cs =>
          simp only [lkGo, htl, Nat.lt_irrefl, if_false, hlt, if_true, hx,
            Option.some.injEq, reduceCtorEq]
          by_cases hc : c = x
          · subst hc
            simp only [if_true]
            cases now; exact lkGo_shift _ _ _ pos h1 cs 1
          · simp [hc, Ne.symm hc]
  | cons c cs ih =>
    intro now pos hg h0 h1 ha
    have hc128 : c < 128 := ha c (by simp)
    have hacs : Ascii cs := fun x hx => ha x (by simp [hx])
    unfold setGo
    by_cases hm : pos < now.key.length ∧ now.key[pos]? = some c
    · -- the byte agrees with the key of the node
      obtain ⟨hlt, hx⟩ := hm
      obtain ⟨now', e1, e2, e3, e4, e5⟩ := ih now (pos + 1) hg (by omega) (by omega) hacs
      refine ⟨now', by rw [if_pos ⟨hlt, hx⟩, e1], e2, by omega, e4, ?_⟩
      intro k'
      have hk' : now'.key[pos]? = some c := by
        obtain ⟨w, hw⟩ := e4
        rw [← hw, List.getElem?_append_left (by omega)] at hx
        exact hx
      cases k' with
      | nil =>
        simp only [lkGo]
        rw [if_neg (by omega : ¬ pos = now'.key.length), if_neg (by omega : ¬ pos = now.key.length)]
        simp
      | cons d ds =>
        simp only [lkGo]
        rw [if_pos (by omega : pos < now'.key.length), if_pos hlt, hk', hx]
        by_cases hd : c = d
        · subst hd; simp [e5 ds]
        · simp [hd, Ne.symm hd]
    · rw [if_neg hm]
      by_cases hlt : pos < now.key.length
      · -- mismatch inside the key: fork, then a new leaf
        have hne : now.key[pos]? ≠ some c := fun h => hm ⟨hlt, h⟩
        obtain ⟨x, hx, hx128, hf⟩ := forkNode_eq h0 hlt hg.ascii
        have hxc : x ≠ c := fun h => hne (by rw [hx, h])
        obtain ⟨hcg, hch⟩ := fork_child_good hg hlt hx
        have htl : (now.key.take pos).length = pos := by simp; omega
        refine ⟨mk (now.key.take pos) none fun y =>
          if y = c then some (mk (c :: cs) (some v) fun _ => none)
          else if y = x then some (mk (now.key.drop pos) now.val now.next) else none, ?_, ?_, ?_, ?_, ?_⟩
        · simp only [hlt, if_true, hf, bind, Except.bind, htl, Nat.lt_irrefl, if_false,
            slot_ok hc128]
          rw [if_neg (Ne.symm hxc)]
          simp only [setSlot_ok hc128]
        · refine Good.mk' _ ?_ (Or.inr ⟨c, x, Ne.symm hxc, ?_, ?_⟩) ?_ ?_
          · intro h; simp only at h; rw [h] at htl; simp at htl; omega
          · simp
          · simp [hxc]
          · intro c hc; exact hg.ascii c (List.mem_of_mem_take hc)
          · intro d ch h
            simp only  at h
            split at h
            · rename_i hd; subst hd; cases h
              refine ⟨hc128, rfl, Good.mk' _ (by simp) (Or.inl rfl) ha ?_⟩
              intro _ _ h; cases h
            · split at h
              · rename_i hd; subst hd; cases h
                exact ⟨hx128, hch, hcg⟩
              · cases h
        · simp; omega
        · exact List.take_prefix _ _
        · intro k'
          cases k' with
          | nil =>
            simp only [lkGo, htl]
            rw [if_neg (by omega : ¬ pos = now.key.length)]
            simp
          | cons d ds =>
            simp only [lkGo, htl, Nat.lt_irrefl, if_false, hlt, if_true, hx,
              Option.some.injEq]
            by_cases hd : d = c
            · subst hd
              simp only [if_true, hxc, if_false]
              have := lkGo_leaf v (d :: cs) _ 1 ds rfl (by simp)
              simpa using this
            · simp only [hd, if_false]
              by_cases hdx : d = x
              · subst hdx
                simp only [if_true]
                rw [if_neg (by simp [hd])]
                cases now; exact lkGo_shift _ _ _ pos h1 ds 1
              · simp [hdx, Ne.symm hdx, hd]
      · -- at the end of the node's key
        have hp : pos = now.key.length := by omega
        simp only [hlt, if_false, bind, Except.bind, slot_ok hc128]
        cases hnx : now.next c with
        | none =>
          refine ⟨mk now.key now.val fun y =>
            if y = c then some (mk (c :: cs) (some v) fun _ => none) else now.next y, ?_, ?_, ?_, ?_, ?_⟩
          · simp only [setSlot_ok hc128]
          · refine Good.mk' _ hg.key ?_ hg.ascii ?_
            · rcases hg.canon with h | ⟨c1, c2, hne, h1, h2⟩
              · exact Or.inl h
              · refine Or.inr ⟨c1, c2, hne, ?_, ?_⟩
                · simp only ; split <;> simp_all
                · simp only ; split <;> simp_all
            · intro d ch h
              simp only  at h
              split at h
              · rename_i hd; subst hd; cases h
                refine ⟨hc128, rfl, Good.mk' _ (by simp) (Or.inl rfl) ha ?_⟩
                intro _ _ h; cases h
              · exact hg.kids d ch h
          · exact h1
          · exact List.prefix_refl _
          · intro k'
            cases k' with
            | nil => simp [lkGo]
            | cons d ds =>
              simp only [lkGo, hlt, if_false]
              by_cases hd : d = c
              · subst hd
                simp only [if_true, hnx]
                have := lkGo_leaf v (d :: cs) _ 1 ds rfl (by simp)
                simpa using this
              · simp [hd]
        | some ch =>
          obtain ⟨_, hhd, hchg⟩ := hg.kids c ch hnx
          have hl : 1 ≤ ch.key.length := by
            have := hchg.key; cases hk : ch.key <;> simp_all
          obtain ⟨ch', e1, e2, e3, e4, e5⟩ := ih ch 1 hchg (by omega) hl hacs
          refine ⟨mk now.key now.val fun y => if y = c then some ch' else now.next y, ?_, ?_, h1,
            List.prefix_refl _, ?_⟩
          · simp only [e1, setSlot_ok hc128]
          · refine Good.mk' _ hg.key ?_ hg.ascii ?_
            · rcases hg.canon with h | ⟨c1, c2, hne, h1, h2⟩
              · exact Or.inl h
              · refine Or.inr ⟨c1, c2, hne, ?_, ?_⟩
                · simp only ; split <;> simp_all
                · simp only ; split <;> simp_all
            · intro d x h
              simp only  at h
              split at h
              · rename_i hd; subst hd; cases h
                refine ⟨hc128, ?_, e2⟩
                obtain ⟨w, hw⟩ := e4
                cases hk : ch'.key with
                | nil => rw [hk] at e3; simp at e3
                | cons y ys => rw [← hw, hk] at hhd; simpa using hhd
              · exact hg.kids d x h
          · intro k'
            cases k' with
            | nil => simp [lkGo]
            | cons d ds =>
              simp only [lkGo, hlt, if_false]
              by_cases hd : d = c
              · subst hd
                simp only [if_true, hnx, e5]
                simp
              · simp [hd]

/-- The map a trie represents. -/
def lookup (root : TNode α) (k : Str) : Option α := lkGo root 0 k

theorem lookup_nil {root : TNode α} (h : GoodRoot root) : lookup root [] = root.val := by
  simp [lookup, lkGo, h.key]

theorem lookup_cons {root : TNode α} (h : GoodRoot root) (c : Byte) (cs : Str) :
    lookup root (c :: cs) = match root.next c with
      | none => none
      | some ch => lkGo ch 1 cs := by
  simp only [lookup, lkGo, h.key, List.length_nil, Nat.lt_irrefl, if_false]

theorem lookup_empty (k : Str) : lookup (TNode.empty : TNode α) k = none := by
  cases k <;> simp [lookup, lkGo, TNode.empty]

theorem Good.key_cons {n : TNode α} {c : Byte} (_h : Good n) (hh : n.key.head? = some c) :
    ∃ r, n.key = c :: r := by
  cases hk : n.key with
  | nil => simp [hk] at hh
  | cons x r => simp [hk] at hh; exact ⟨r, by rw [hh]⟩

theorem trieSet_spec (v : α) (root : TNode α) (h : GoodRoot root) (k : Str) (ha : Ascii k) :
    ∃ root', trieSet root k v = .ok root' ∧ GoodRoot root' ∧
      ∀ k', lookup root' k' = if k' = k then some v else lookup root k' := by
  cases k with
  | nil =>
    have hg : GoodRoot (mk root.key (some v) root.next) := ⟨h.key, h.kids⟩
    refine ⟨_, rfl, hg, ?_⟩
    intro k'
    cases k' with
    | nil => simp [lookup_nil hg]
    | cons d ds => rw [lookup_cons hg, lookup_cons h]; simp
  | cons c cs =>
    have hc128 : c < 128 := ha c (by simp)
    have hacs : Ascii cs := fun x hx => ha x (by simp [hx])
    simp only [trieSet, slot_ok hc128, bind, Except.bind]
    cases hnx : root.next c with
    | none =>
      simp only [TNode.empty, if_true, setSlot_ok hc128]
      have hg : GoodRoot (mk root.key root.val fun x =>
          if x = c then some (mk (c :: cs) (some v) fun _ => none) else root.next x) := by
        refine ⟨h.key, ?_⟩
        intro d ch hd
        simp only at hd
        split at hd
        · rename_i e; subst e; cases hd
          refine ⟨hc128, rfl, Good.mk' _ (by simp) (Or.inl rfl) ha ?_⟩
          intro _ _ h; cases h
        · exact h.kids d ch hd
      refine ⟨_, rfl, hg, ?_⟩
      intro k'
      cases k' with
      | nil => simp [lookup_nil hg, lookup_nil h]
      | cons d ds =>
        rw [lookup_cons hg, lookup_cons h]
        by_cases hd : d = c
        · subst hd
          simp only [if_true, hnx]
          have := lkGo_leaf v (d :: cs) _ 1 ds rfl (by simp)
          simpa using this
        · simp [hd]
    | some ch =>
      obtain ⟨_, hhd, hchg⟩ := h.kids c ch hnx
      obtain ⟨r, hr⟩ := hchg.key_cons hhd
      have hl : 1 ≤ ch.key.length := by simp [hr]
      obtain ⟨ch', e1, e2, e3, e4, e5⟩ := setGo_spec v cs ch 1 hchg (by omega) hl hacs
      have hstep : setGo v ch 0 (c :: cs) = setGo v ch 1 cs := by
        conv => lhs; unfold setGo
        simp [hr]
      simp only [hchg.key, if_false, hstep, e1, setSlot_ok hc128]
      have hg : GoodRoot (mk root.key root.val fun x => if x = c then some ch' else root.next x) := by
        refine ⟨h.key, ?_⟩
        intro d x hd
        simp only at hd
        split at hd
        · rename_i e; subst e; cases hd
          refine ⟨hc128, ?_, e2⟩
          obtain ⟨w, hw⟩ := e4
          cases hk : ch'.key with
          | nil => rw [hk] at e3; simp at e3
          | cons y ys => rw [← hw, hk] at hhd; simpa using hhd
        · exact h.kids d x hd
      refine ⟨_, rfl, hg, ?_⟩
      intro k'
      cases k' with
      | nil => simp [lookup_nil hg, lookup_nil h]
      | cons d ds =>
        rw [lookup_cons hg, lookup_cons h]
        by_cases hd : d = c
        · subst hd; simp only [if_true, hnx, e5]; simp
        · simp [hd]

/-! ### Histories -/

theorem foldlM_append_singleton {β γ : Type} (f : γ → β → Out γ) (l : List β) (b : β) (g : γ) :
    (l ++ [b]).foldlM f g = (l.foldlM f g).bind (f · b) := by
  induction l generalizing g with
  | nil =>
    simp only [List.nil_append, List.foldlM_cons, List.foldlM_nil, bind, pure, Except.pure, Except.bind]
    cases f g b <;> rfl
  | cons x l ih =>
    simp only [List.cons_append, List.foldlM_cons, bind, Except.bind]
    cases f g x with
    | error e => rfl
    | ok y => exact ih y

theorem trieRun_spec_aux (ops : List (TrieOp α)) (ha : AsciiOps ops) : ∀ (t : TNode α) (m : Str → Option α),
    GoodRoot t → (∀ k, lookup t k = m k) →
    ∃ t', ops.foldlM trieStep t = .ok t' ∧ GoodRoot t' ∧ ∀ k, lookup t' k = (ops.foldl mapStep m) k := by
  induction ops with
  | nil => intro t m h hm; exact ⟨t, rfl, h, hm⟩
  | cons op ops ih =>
    intro t m h hm
    have ha' : AsciiOps ops := fun k v hk => ha k v (by simp [hk])
    cases op with
    | set k v =>
      obtain ⟨t1, e1, e2, e3⟩ := trieSet_spec v t h k (ha k v (by simp))
      have := ih ha' t1 (mapStep m (.set k v)) e2 (by intro k'; rw [e3, mapStep, hm])
      simpa [List.foldlM_cons, trieStep, e1, bind, Except.bind] using this
    | reset =>
      have := ih ha' TNode.empty (mapStep m .reset) goodRoot_empty (by intro k; rw [lookup_empty]; rfl)
      simpa [List.foldlM_cons, trieStep, bind, Except.bind] using this

/-- Every ASCII history succeeds and the trie represents the map of the history. -/
theorem trieRun_spec (ops : List (TrieOp α)) (ha : AsciiOps ops) :
    ∃ t, trieRun ops = .ok t ∧ GoodRoot t ∧ ∀ k, lookup t k = mapOf ops k :=
  trieRun_spec_aux ops ha TNode.empty _ goodRoot_empty lookup_empty

/-! ### Get -/

theorem getGo_total : ∀ (k : Str) (n : TNode α) (pos : Nat), Ascii k →
    ∃ r, getGo n pos k = .ok r := by
  intro k
  induction k with
  | nil => intro n pos _; exact ⟨n.val, rfl⟩
  | cons c cs ih =>
    intro n pos ha
    have hc128 : c < 128 := ha c (by simp)
    have hacs : Ascii cs := fun x hx => ha x (by simp [hx])
    simp only [getGo, slot_ok hc128, bind, Except.bind]
    split
    · split
      · exact ih _ _ hacs
      · exact ⟨_, rfl⟩
    · split
      · exact ⟨_, rfl⟩
      · exact ih _ _ hacs

/-- `k` extended by the shortest stored continuation, which all others continue. -/
def LeastTail (f : Str → Option α) (v : α) (e : Str) : Prop :=
  f e = some v ∧ ∀ e', (f e').isSome → e <+: e'

theorem getGo_iff : ∀ (k : Str) (n : TNode α) (pos : Nat), Good n → 0 < pos → pos ≤ n.key.length →
    Ascii k → ∀ v, getGo n pos k = .ok (some v) ↔ ∃ e, LeastTail (fun e => lkGo n pos (k ++ e)) v e := by
  intro k
  induction k with
  | nil =>
    intro n pos hg h0 h1 _ v
    simp only [getGo, Except.ok.injEq, List.nil_append]
    constructor
    · intro hv
      refine ⟨n.key.drop pos, ?_, ?_⟩
      · simp only [lkGo_self n _ pos rfl h1, hv]
      · intro e' he'; exact lkGo_prefix n e' pos h1 he'
    · rintro ⟨e, he, hmin⟩
      have hpre := lkGo_prefix n e pos h1 (by simp only at he; rw [he]; rfl)
      cases hv : n.val with
      | some w =>
        have hself := lkGo_self n _ pos rfl h1
        have := hmin (n.key.drop pos) (by simp only; rw [hself, hv]; rfl)
        have heq : e = n.key.drop pos :=
          List.IsPrefix.eq_of_length this (Nat.le_antisymm this.length_le hpre.length_le)
        simp only at he
        rw [heq, hself, hv] at he
        exact he
      | none =>
        exfalso
        rcases hg.canon with h | ⟨c1, c2, hne, g1, g2⟩
        · rw [hv] at h; simp at h
        · obtain ⟨w, rfl⟩ := hpre
          have kid : ∀ c, (n.next c).isSome → w <+: [] ∨ ∃ t, w = c :: t := by
            intro c hc
            obtain ⟨ch, hch⟩ := Option.isSome_iff_exists.1 hc
            obtain ⟨_, hhd, hchg⟩ := hg.kids c ch hch
            have hl : 1 ≤ ch.key.length := by
              have := hchg.key; cases hk : ch.key <;> simp_all
            obtain ⟨k', hk'⟩ := hchg.exists_key 1 hl
            have := hmin (n.key.drop pos ++ c :: k') (by
              simp only
              rw [lkGo_ext n _ pos rfl h1]
              simp only [lkGo, Nat.lt_irrefl, if_false, hch]
              exact hk')
            rw [List.prefix_append_right_inj] at this
            cases w with
            | nil => left; exact List.nil_prefix
            | cons x t =>
              right
              rw [List.cons_prefix_cons] at this
              exact ⟨t, by rw [this.1]⟩
          have hw : w ≠ [] := by
            rintro rfl
            have hself := lkGo_self n _ pos rfl h1
            simp only [List.append_nil] at he
            rw [hself, hv] at he
            cases he
          rcases kid c1 g1 with h | ⟨t1, ht1⟩
          · exact hw (List.prefix_nil.1 h)
          · rcases kid c2 g2 with h | ⟨t2, ht2⟩
            · exact hw (List.prefix_nil.1 h)
            · rw [ht1] at ht2; cases ht2; exact hne rfl
  | cons c cs ih =>
    intro n pos hg h0 h1 ha v
    have hc128 : c < 128 := ha c (by simp)
    have hacs : Ascii cs := fun x hx => ha x (by simp [hx])
    simp only [getGo, slot_ok hc128, bind, Except.bind, List.cons_append, lkGo]
    have hnone : ¬ ∃ e, LeastTail (fun _ : Str => (none : Option α)) v e := by
      rintro ⟨e, he, -⟩; cases he
    by_cases hlt : pos < n.key.length
    · simp only [hlt, if_true]
      by_cases hx : n.key[pos]? = some c
      · simp only [hx, if_true]
        exact ih n (pos + 1) hg (by omega) (by omega) hacs v
      · simp only [hx, if_false]
        simpa using hnone
    · simp only [hlt, if_false]
      cases hnx : n.next c with
      | none => simpa using hnone
      | some ch =>
        obtain ⟨_, hhd, hchg⟩ := hg.kids c ch hnx
        have hl : 1 ≤ ch.key.length := by
          have := hchg.key; cases hk : ch.key <;> simp_all
        exact ih ch 1 hchg (by omega) hl hacs v

theorem trieGet_total {root : TNode α} (k : Str) (ha : Ascii k) : ∃ r, trieGet root k = .ok r := by
  cases k with
  | nil => exact ⟨_, rfl⟩
  | cons c cs =>
    have hc128 : c < 128 := ha c (by simp)
    simp only [trieGet, slot_ok hc128, bind, Except.bind]
    split
    · exact ⟨_, rfl⟩
    · exact getGo_total _ _ _ ha

theorem trieGet_iff {root : TNode α} (h : GoodRoot root) (k : Str) (hk : k ≠ []) (ha : Ascii k) (v : α) :
    trieGet root k = .ok (some v) ↔
      ∃ p, LeastExtension (lookup root) k p ∧ lookup root p = some v := by
  have tail_iff : (∃ e, LeastTail (fun e => lookup root (k ++ e)) v e) ↔
      ∃ p, LeastExtension (lookup root) k p ∧ lookup root p = some v := by
    constructor
    · rintro ⟨e, he, hmin⟩
      refine ⟨k ++ e, ⟨List.prefix_append _ _, by simp only at he; rw [he]; rfl, ?_⟩, he⟩
      rintro q ⟨t, rfl⟩ hq
      rw [List.prefix_append_right_inj]
      exact hmin t hq
    · rintro ⟨p, ⟨⟨e, rfl⟩, _, hmin⟩, hv⟩
      refine ⟨e, hv, ?_⟩
      intro e' he'
      have := hmin (k ++ e') (List.prefix_append _ _) he'
      rwa [List.prefix_append_right_inj] at this
  rw [← tail_iff]
  cases k with
  | nil => exact absurd rfl hk
  | cons c cs =>
    have hc128 : c < 128 := ha c (by simp)
    have hacs : Ascii cs := fun x hx => ha x (by simp [hx])
    simp only [trieGet, slot_ok hc128, bind, Except.bind, List.cons_append, lookup_cons h]
    cases hnx : root.next c with
    | none =>
      simp only [Except.ok.injEq, reduceCtorEq, false_iff]
      rintro ⟨e, he, -⟩; cases he
    | some ch =>
      obtain ⟨_, hhd, hchg⟩ := h.kids c ch hnx
      obtain ⟨r, hr⟩ := hchg.key_cons hhd
      have hstep : getGo ch 0 (c :: cs) = getGo ch 1 cs := by
        conv => lhs; unfold getGo
        simp [hr]
      simp only [hstep]
      exact getGo_iff cs ch 1 hchg (by omega) (by simp [hr]) hacs v

/-! ### Search -/

/-- `prefixHits` unfolded along the key. -/
def hitsRec : (Str → Option α) → Str → List (α × Bool)
  | f, [] => ((f []).map fun v => (v, true)).toList
  | f, c :: cs => ((f []).map fun v => (v, false)).toList ++ hitsRec (fun k => f (c :: k)) cs

theorem prefixHits_eq (f : Str → Option α) (key : Str) : prefixHits f key = hitsRec f key := by
  induction key generalizing f with
  | nil =>
    simp only [prefixHits, hitsRec, List.length_nil, Nat.zero_add]
    cases h : f [] <;> simp [h]
  | cons c cs ih =>
    simp only [hitsRec, ← ih]
    simp only [prefixHits, List.length_cons]
    rw [List.range_succ_eq_map, List.filterMap_cons, List.filterMap_map]
    have e : ((fun i => Option.map (fun v => (v, i == cs.length + 1)) (f (List.take i (c :: cs)))) ∘ Nat.succ)
        = fun i => Option.map (fun v => (v, i == cs.length)) (f (c :: List.take i cs)) := by
      funext i
      simp only [Function.comp_apply, List.take_succ_cons, Nat.succ_eq_add_one]
      congr 1
      funext v
      simp
    rw [e]
    cases h : f [] <;> simp [h]

theorem hitsRec_none (key : Str) : hitsRec (fun _ : Str => (none : Option α)) key = [] := by
  induction key with
  | nil => rfl
  | cons c cs ih => simp [hitsRec, ih]

theorem searchGo_eq {σ : Type} (cb : σ → α → Bool → Out (σ × Bool)) :
    ∀ (k : Str) (s : σ) (n : TNode α) (pos : Nat), pos ≤ n.key.length → Good n → Ascii k →
      searchGo cb s n pos k = callUntilStop cb s (hitsRec (lkGo n pos) k) := by
  intro k
  induction k with
  | nil =>
    intro s n pos h1 _ _
    simp only [searchGo, hitsRec, lkGo]
    cases hv : n.val with
    | none => simp [callUntilStop]
    | some v =>
      by_cases hp : pos = n.key.length
      · simp only [hp, if_true, Option.map_some, Option.toList_some, callUntilStop, bind, Except.bind]
        cases cb s v true with
        | error e => rfl
        | ok r => simp
      · simp [hp, callUntilStop]
  | cons c cs ih =>
    intro s n pos h1 hg ha
    have hc128 : c < 128 := ha c (by simp)
    have hacs : Ascii cs := fun x hx => ha x (by simp [hx])
    by_cases hlt : pos < n.key.length
    · have hnil : lkGo n pos [] = none := by
        simp only [lkGo]; rw [if_neg (by omega)]
      by_cases hx : n.key[pos]? = some c
      · have hf : (fun k => lkGo n pos (c :: k)) = lkGo n (pos + 1) := by
          funext k; simp only [lkGo, hlt, if_true, hx]
        simp only [searchGo, hlt, if_true, hx, hitsRec, hnil, hf, Option.map_none, Option.toList_none,
          List.nil_append]
        exact ih s n (pos + 1) (by omega) hg hacs
      · have hf : (fun k => lkGo n pos (c :: k)) = fun _ => none := by
          funext k; simp only [lkGo, hlt, if_true, hx, if_false]
        simp only [searchGo, hlt, if_true, hx, if_false, hitsRec, hnil, hf, hitsRec_none, Option.map_none,
          Option.toList_none, List.nil_append, callUntilStop]
    · have hp : pos = n.key.length := by omega
      have hnil : lkGo n pos [] = n.val := by simp [lkGo, hp]
      have hrest : ∀ s', (match n.next c with
            | none => (.ok s' : Out σ)
            | some ch => searchGo cb s' ch 1 cs) =
          callUntilStop cb s' (hitsRec (fun k => lkGo n pos (c :: k)) cs) := by
        intro s'
        cases hnx : n.next c with
        | none =>
          have hf : (fun k => lkGo n pos (c :: k)) = fun _ => none := by
            funext k; simp only [lkGo, hlt, if_false, hnx]
          simp only [hf, hitsRec_none, callUntilStop]
        | some ch =>
          obtain ⟨_, hhd, hchg⟩ := hg.kids c ch hnx
          have hl : 1 ≤ ch.key.length := by
            have := hchg.key; cases hk : ch.key <;> simp_all
          have hf : (fun k => lkGo n pos (c :: k)) = lkGo ch 1 := by
            funext k; simp only [lkGo, hlt, if_false, hnx]
          simp only [hf]
          exact ih s' ch 1 hl hchg hacs
      simp only [searchGo, hlt, if_false, hitsRec, hnil, bind, Except.bind, slot_ok hc128]
      cases hv : n.val with
      | none => simp; exact hrest s
      | some v =>
        simp only [Option.map_some, Option.toList_some, List.singleton_append, callUntilStop, bind,
          Except.bind]
        cases cb s v false with
        | error e => rfl
        | ok r =>
          obtain ⟨s', b⟩ := r
          cases b with
          | false => simp
          | true => simp; exact hrest s'

theorem trieSearch_eq {σ : Type} (cb : σ → α → Bool → Out (σ × Bool)) (s : σ) {root : TNode α}
    (h : GoodRoot root) (k : Str) (ha : Ascii k) :
    trieSearch cb s root k = callUntilStop cb s (prefixHits (lookup root) k) := by
  rw [prefixHits_eq]
  cases k with
  | nil =>
    simp only [trieSearch, hitsRec, lookup_nil h, List.isEmpty_nil, bind, Except.bind]
    cases hv : root.val with
    | none => simp [callUntilStop]
    | some v =>
      simp only [Option.map_some, Option.toList_some, callUntilStop, bind, Except.bind]
      cases cb s v true with
      | error e => rfl
      | ok r => obtain ⟨s', b⟩ := r; cases b <;> simp
  | cons c cs =>
    have hc128 : c < 128 := ha c (by simp)
    have hacs : Ascii cs := fun x hx => ha x (by simp [hx])
    have hrest : ∀ s', (match root.next c with
          | none => (.ok s' : Out σ)
          | some ch => searchGo cb s' ch 0 (c :: cs)) =
        callUntilStop cb s' (hitsRec (fun k => lookup root (c :: k)) cs) := by
      intro s'
      cases hnx : root.next c with
      | none =>
        have hf : (fun k => lookup root (c :: k)) = fun _ => none := by
          funext k; rw [lookup_cons h, hnx]
        simp only [hf, hitsRec_none, callUntilStop]
      | some ch =>
        obtain ⟨_, hhd, hchg⟩ := h.kids c ch hnx
        obtain ⟨r, hr⟩ := hchg.key_cons hhd
        have hf : (fun k => lookup root (c :: k)) = lkGo ch 1 := by
          funext k; rw [lookup_cons h, hnx]
        have hstep : searchGo cb s' ch 0 (c :: cs) = searchGo cb s' ch 1 cs := by
          conv => lhs; unfold searchGo
          simp [hr]
        simp only [hf, hstep]
        exact searchGo_eq cb cs s' ch 1 (by simp [hr]) hchg hacs
    simp only [trieSearch, hitsRec, lookup_nil h, List.isEmpty_cons, bind, Except.bind, slot_ok hc128]
    cases hv : root.val with
    | none => simp; exact hrest s
    | some v =>
      simp only [Option.map_some, Option.toList_some, List.singleton_append, callUntilStop, bind,
        Except.bind]
      cases cb s v false with
      | error e => rfl
      | ok r =>
        obtain ⟨s', b⟩ := r
        cases b with
        | false => simp
        | true => simp; exact hrest s'

end Cppnet
