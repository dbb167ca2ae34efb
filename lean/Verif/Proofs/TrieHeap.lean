import Verif.Model.TrieHeap

/-!
# The trie with pointers refines the trie as a value

`Rep f p t F`: on the heap `f` the node at `p` and what hangs below it is the tree `t`, it occupies exactly the addresses in `F`, and
no node is shared.
-/

namespace Cppnet
variable {α : Type}

theorem okb {β γ : Type} (b : β) (f : β → Out γ) : ((Except.ok b : Out β) >>= f) = f b := rfl

/-- The node at `p` represents `t` with footprint `F`. -/
inductive Rep (f : Nat → Option (HNode α)) : Nat → TNode α → (Nat → Prop) → Prop
  | mk {p : Nat} {n : HNode α} {t : TNode α} {F : Nat → Prop} (q : Byte → Nat) (S : Byte → Nat → Prop)
      (cell : f p = some n) (key : n.key = t.key) (val : n.val = t.val)
      (none_ : ∀ c, t.next c = none → n.next c = none ∧ ∀ x, ¬ S c x)
      (some_ : ∀ c t', t.next c = some t' → n.next c = some (q c))
      (child : ∀ c t', t.next c = some t' → Rep f (q c) t' (S c))
      (low : ∀ c, ¬ c < 128 → t.next c = none)
      (self : ∀ c, ¬ S c p) (apart : ∀ c d x, S c x → S d x → c = d)
      (foot : ∀ x, F x ↔ x = p ∨ ∃ c, S c x) : Rep f p t F

theorem Rep.frame {f g : Nat → Option (HNode α)} {p t F} (h : Rep f p t F) (hfg : ∀ x, F x → g x = f x) : Rep g p t F := by
  induction h with
  | mk q S cell key val none_ some_ child low self apart foot ih =>
    refine .mk q S ?_ key val none_ some_ (fun c t' ht => ih c t' ht (fun x hx => hfg x ((foot x).2 (.inr ⟨c, hx⟩)))) low self apart foot
    rw [hfg _ ((foot _).2 (.inl rfl)), cell]

theorem Rep.congr {f : Nat → Option (HNode α)} {p t F G} (h : Rep f p t F) (hFG : ∀ x, F x ↔ G x) : Rep f p t G := by
  cases h with
  | mk q S cell key val none_ some_ child low self apart foot =>
    exact .mk q S cell key val none_ some_ child low self apart (fun x => (hFG x).symm.trans (foot x))

/-- What a footprint names is alive. -/
theorem Rep.alive {f : Nat → Option (HNode α)} {p t F} (h : Rep f p t F) : ∀ x, F x → f x ≠ none := by
  induction h with
  | mk q S cell key val none_ some_ child low self apart foot ih =>
    rename_i p n t F
    intro x hx
    rcases (foot x).1 hx with rfl | ⟨c, hc⟩
    · rw [cell]; simp
    · cases hn : t.next c with
      | none => exact absurd hc ((none_ c hn).2 x)
      | some t' => exact ih c t' hn x hc

theorem Rep.root {f : Nat → Option (HNode α)} {p t F} (h : Rep f p t F) : F p := by
  cases h with
  | mk q S cell key val none_ some_ child low self apart foot => exact (foot p).2 (.inl rfl)

/-- How `Set` below a node with footprint `F` may change the heap: nothing outside `F` changes, all new nodes are in the new
footprint. -/
structure Grew (h h' : Heap α) (F F' : Nat → Prop) : Prop where
  made : h.made ≤ h'.made
  deleted : h'.deleted = h.deleted
  keep : ∀ x, ¬ F x → x < h.made → h'.cell x = h.cell x
  fresh : ∀ x, h.made ≤ x → x < h'.made → F' x
  above : ∀ x, h'.made ≤ x → h'.cell x = none
  sub : ∀ x, F x → F' x
  inv : ∀ x, F' x → F x ∨ (h.made ≤ x ∧ x < h'.made)

theorem Grew.refl (h : Heap α) (F : Nat → Prop) (hab : ∀ x, h.made ≤ x → h.cell x = none) : Grew h h F F :=
  ⟨Nat.le_refl _, rfl, fun _ _ _ => rfl, fun x h1 h2 => absurd h2 (by omega), hab, fun _ h => h, fun _ h => .inl h⟩

theorem Grew.trans {h₁ h₂ h₃ : Heap α} {F₁ F₂ F₃} (a : Grew h₁ h₂ F₁ F₂) (b : Grew h₂ h₃ F₂ F₃) : Grew h₁ h₃ F₁ F₃ := by
  refine ⟨Nat.le_trans a.made b.made, b.deleted.trans a.deleted, ?_, ?_, b.above, fun x h => b.sub x (a.sub x h), ?_⟩
  · intro x hx hlt
    rw [b.keep x, a.keep x hx hlt]
    · intro hF
      rcases a.inv x hF with h | h
      · exact hx h
      · omega
    · have := a.made; omega
  · intro x h1 h2
    by_cases hx : x < h₂.made
    · exact b.sub x (a.fresh x h1 hx)
    · exact b.fresh x (by omega) h2
  · intro x hx
    have h1 := a.made
    have h2 := b.made
    rcases b.inv x hx with h | h
    · rcases a.inv x h with h | h
      · exact .inl h
      · exact .inr ⟨h.1, by omega⟩
    · exact .inr ⟨by omega, h.2⟩

theorem lt_made {h : Heap α} (hab : ∀ x, h.made ≤ x → h.cell x = none) {x : Nat} (hx : h.cell x ≠ none) : x < h.made := by
  rcases Nat.lt_or_ge x h.made with h1 | h1
  · exact h1
  · exact absurd (hab x h1) hx

/-- Assigning to the key and the payload of a node. -/
theorem Rep.assign {h h' : Heap α} {p : Nat} {t : TNode α} {F} (hr : Rep h.cell p t F) (hab : ∀ x, h.made ≤ x → h.cell x = none)
    {n : HNode α} (hn : h.cell p = some n) (k : Str) (w : Option α)
    (hm : h'.made = h.made) (hd : h'.deleted = h.deleted)
    (hc : ∀ x, h'.cell x = if x = p then some { n with key := k, val := w } else h.cell x) :
    Rep h'.cell p (TNode.mk k w t.next) F ∧ Grew h h' F F := by
  have hroot := hr.root
  have hpl : p < h.made := lt_made hab (by rw [hn]; simp)
  refine ⟨?_, by omega, hd, ?_, fun x h1 h2 => by omega, ?_, fun _ h => h, fun _ h => .inl h⟩
  · cases hr with
    | mk q S cell key val none_ some_ child low self apart foot =>
      rw [hn] at cell
      cases cell
      refine .mk q S (n := HNode.mk k w n.next) (by rw [hc, if_pos rfl]) rfl rfl none_ some_ (fun c t' ht => (child c t' ht).frame ?_) low self apart foot
      intro x hx
      rw [hc, if_neg]
      rintro rfl
      exact self c hx
  · intro x hx _
    rw [hc, if_neg]
    rintro rfl
    exact hx hroot
  · intro x hx
    rw [hc, if_neg (by omega)]
    exact hab x (by omega)

/-- Replacing the tree below a slot. -/
theorem Rep.replace {h h' : Heap α} {p : Nat} {t t' t'' : TNode α} {F} (hr : Rep h.cell p t F)
    (hab : ∀ x, h.made ≤ x → h.cell x = none) {n : HNode α} (hn : h.cell p = some n) {c : Byte} (ht : t.next c = some t') :
    ∃ q S, n.next c = some q ∧ Rep h.cell q t' S ∧ ∀ S', Rep h'.cell q t'' S' → Grew h h' S S' →
      ∃ F', Rep h'.cell p (TNode.mk t.key t.val fun x => if x = c then some t'' else t.next x) F' ∧ Grew h h' F F' := by
  have halive := hr.alive
  cases hr with
  | mk q S cell key val none_ some_ child low self apart foot =>
    rw [hn] at cell
    cases cell
    refine ⟨q c, S c, some_ c t' ht, child c t' ht, fun S' hr' hg => ?_⟩
    have hpl : p < h.made := lt_made hab (by rw [hn]; simp)
    have hSl : ∀ d x, S d x → x < h.made := fun d x hx => lt_made hab (halive x ((foot x).2 (.inr ⟨d, hx⟩)))
    have hpS' : ¬ S' p := by
      intro hx
      rcases hg.inv p hx with h1 | h1
      · exact self c h1
      · omega
    have hdis : ∀ d x, d ≠ c → S d x → ¬ S' x := by
      intro d x hdc hd hx
      rcases hg.inv x hx with h1 | h1
      · exact hdc (apart d c x hd h1)
      · have := hSl d x hd; omega
    refine ⟨fun x => x = p ∨ ∃ d, (if d = c then S' x else S d x), ?_, ?_⟩
    · refine .mk q (fun d x => if d = c then S' x else S d x) (n := n) ?_ key val ?_ ?_ ?_ ?_ ?_ ?_ (fun x => Iff.rfl)
      · rw [hg.keep p (self c) hpl, hn]
      · intro d hd
        by_cases hdc : d = c
        · subst hdc; simp at hd
        · simp only [if_neg hdc] at hd ⊢
          exact none_ d hd
      · intro d u hd
        by_cases hdc : d = c
        · subst hdc; exact some_ d t' ht
        · simp only [if_neg hdc] at hd
          exact some_ d u hd
      · intro d u hd
        by_cases hdc : d = c
        · subst hdc
          simp only [if_pos] at hd
          cases hd
          simpa using hr'
        · simp only [if_neg hdc] at hd ⊢
          refine (child d u hd).frame (fun x hx => ?_)
          exact hg.keep x (fun hx' => hdc (apart d c x hx hx')) (hSl d x hx)
      · intro d hd
        have hdc : d ≠ c := by
          rintro rfl
          rw [low d hd] at ht
          cases ht
        simp only [if_neg hdc]
        exact low d hd
      · intro d
        by_cases hdc : d = c
        · simpa [hdc] using hpS'
        · simpa [hdc] using self d
      · intro d e x hd he
        by_cases hdc : d = c <;> by_cases hec : e = c
        · rw [hdc, hec]
        · simp only [if_pos hdc] at hd
          simp only [if_neg hec] at he
          exact absurd hd (hdis e x hec he)
        · simp only [if_neg hdc] at hd
          simp only [if_pos hec] at he
          exact absurd he (hdis d x hdc hd)
        · simp only [if_neg hdc] at hd
          simp only [if_neg hec] at he
          exact apart d e x hd he
    · refine ⟨hg.made, hg.deleted, ?_, ?_, hg.above, ?_, ?_⟩
      · intro x hx hl
        exact hg.keep x (fun h => hx ((foot x).2 (.inr ⟨c, h⟩))) hl
      · intro x h1 h2
        exact .inr ⟨c, by simpa using hg.fresh x h1 h2⟩
      · intro x hx
        rcases (foot x).1 hx with rfl | ⟨d, hd⟩
        · exact .inl rfl
        · by_cases hdc : d = c
          · subst hdc; exact .inr ⟨d, by simpa using hg.sub x hd⟩
          · exact .inr ⟨d, by simpa [hdc] using hd⟩
      · rintro x (rfl | ⟨d, hd⟩)
        · exact .inl ((foot _).2 (.inl rfl))
        · by_cases hdc : d = c
          · simp only [if_pos hdc] at hd
            rcases hg.inv x hd with h1 | h1
            · exact .inl ((foot x).2 (.inr ⟨c, h1⟩))
            · exact .inr h1
          · simp only [if_neg hdc] at hd
            exact .inl ((foot x).2 (.inr ⟨d, hd⟩))

/-- A leaf. -/
theorem Rep.leaf {f : Nat → Option (HNode α)} {p : Nat} (k : Str) (w : Option α) (h : f p = some { key := k, val := w }) :
    Rep f p (TNode.mk k w fun _ => none) (fun x => x = p) :=
  .mk (fun _ => 0) (fun _ _ => False) h rfl rfl (fun c _ => ⟨rfl, fun _ h => h⟩) (fun c t' h => by cases h) (fun c t' h => by cases h)
    (fun _ _ => rfl) (fun _ h => h) (fun _ _ _ h => h.elim) (fun x => ⟨.inl, fun h => h.elim id (fun ⟨_, h⟩ => h.elim)⟩)

/-- Hanging a new leaf into an empty slot. -/
theorem Rep.add {h h' : Heap α} {p : Nat} {t : TNode α} {F} (hr : Rep h.cell p t F)
    (hab : ∀ x, h.made ≤ x → h.cell x = none) {n : HNode α} (hn : h.cell p = some n) {c : Byte} (hlow : c < 128)
    (ht : t.next c = none) (k : Str) (w : Option α) (hm : h'.made = h.made + 1) (hd : h'.deleted = h.deleted)
    (hc : ∀ x, h'.cell x = if x = h.made then some { key := k, val := w } else
      if x = p then some { n with next := fun x => if x = c then some h.made else n.next x } else h.cell x) :
    ∃ F', Rep h'.cell p (TNode.mk t.key t.val fun x => if x = c then some (TNode.mk k w fun _ => none) else t.next x) F' ∧
      Grew h h' F F' := by
  have halive := hr.alive
  have hroot := hr.root
  cases hr with
  | mk q S cell key val none_ some_ child low self apart foot =>
    rw [hn] at cell
    cases cell
    have hpl : p < h.made := lt_made hab (by rw [hn]; simp)
    have hSl : ∀ d x, S d x → x < h.made := fun d x hx => lt_made hab (halive x ((foot x).2 (.inr ⟨d, hx⟩)))
    have hSc : ∀ x, ¬ S c x := (none_ c ht).2
    refine ⟨fun x => F x ∨ x = h.made, ?_, by omega, hd, ?_, fun x h1 h2 => .inr (by omega), ?_, fun x hx => .inl hx, ?_⟩
    · refine .mk (fun d => if d = c then h.made else q d) (fun d x => if d = c then x = h.made else S d x)
        (n := { n with next := fun x => if x = c then some h.made else n.next x }) ?_ key val ?_ ?_ ?_ ?_ ?_ ?_ ?_
      · rw [hc, if_neg (by omega), if_pos rfl]
      · intro d hd
        by_cases hdc : d = c
        · simp [hdc] at hd
        · simp only [if_neg hdc] at hd ⊢
          exact none_ d hd
      · intro d u hd
        by_cases hdc : d = c
        · simp [hdc]
        · simp only [if_neg hdc] at hd ⊢
          exact some_ d u hd
      · intro d u hd
        by_cases hdc : d = c
        · simp only [if_pos hdc] at hd ⊢
          cases hd
          exact .leaf k w (by rw [hc, if_pos rfl])
        · simp only [if_neg hdc] at hd ⊢
          refine (child d u hd).frame (fun x hx => ?_)
          have h1 := hSl d x hx
          rw [hc, if_neg (by omega), if_neg]
          rintro rfl
          exact self d hx
      · intro d hd
        have hdc : d ≠ c := by rintro rfl; exact hd hlow
        simp only [if_neg hdc]
        exact low d hd
      · intro d
        by_cases hdc : d = c
        · simp only [if_pos hdc]; omega
        · simpa [hdc] using self d
      · intro d e x hd he
        by_cases hdc : d = c <;> by_cases hec : e = c
        · rw [hdc, hec]
        · simp only [if_pos hdc] at hd
          simp only [if_neg hec] at he
          have := hSl e x he; omega
        · simp only [if_neg hdc] at hd
          simp only [if_pos hec] at he
          have := hSl d x hd; omega
        · simp only [if_neg hdc] at hd
          simp only [if_neg hec] at he
          exact apart d e x hd he
      · intro x
        constructor
        · rintro (hx | rfl)
          · rcases (foot x).1 hx with rfl | ⟨d, hd⟩
            · exact .inl rfl
            · refine .inr ⟨d, ?_⟩
              by_cases hdc : d = c
              · subst hdc; exact absurd hd (hSc x)
              · simpa [hdc] using hd
          · exact .inr ⟨c, by simp⟩
        · rintro (rfl | ⟨d, hd⟩)
          · exact .inl hroot
          · by_cases hdc : d = c
            · simp only [if_pos hdc] at hd; exact .inr hd
            · simp only [if_neg hdc] at hd; exact .inl ((foot x).2 (.inr ⟨d, hd⟩))
    · intro x hx hl
      rw [hc, if_neg (by omega), if_neg]
      rintro rfl
      exact hx hroot
    · intro x hx
      rw [hc, if_neg (by omega), if_neg (by omega)]
      exact hab x (by omega)
    · rintro x (hx | rfl)
      · exact .inl hx
      · exact .inr ⟨Nat.le_refl _, by omega⟩

theorem read_ok {h : Heap α} {p : Nat} {n : HNode α} (hn : h.cell p = some n) : h.read p = .ok n := by
  simp [Heap.read, hn]

theorem write_ok {h : Heap α} {p : Nat} {n : HNode α} (hn : h.cell p = some n) (m : HNode α) :
    h.write p m = .ok { h with cell := fun x => if x = p then some m else h.cell x } := by
  simp [Heap.write, hn]

theorem Rep.node {f : Nat → Option (HNode α)} {p t F} (h : Rep f p t F) :
    ∃ n, f p = some n ∧ n.key = t.key ∧ n.val = t.val ∧ ∀ c, t.next c = none → n.next c = none := by
  cases h with
  | mk q S cell key val none_ some_ child low self apart foot => exact ⟨_, cell, key, val, fun c h => (none_ c h).1⟩

/-- `ForkNode`. -/
theorem rep_fork {h : Heap α} {p pos : Nat} {t t' : TNode α} {F} (hr : Rep h.cell p t F)
    (hab : ∀ x, h.made ≤ x → h.cell x = none) (hf : forkNode t pos = .ok t') :
    ∃ h' F', hForkNode h p pos = .ok h' ∧ Rep h'.cell p t' F' ∧ Grew h h' F F' := by
  have halive := hr.alive
  have hroot := hr.root
  obtain ⟨n, hn, hk, hv, _⟩ := hr.node
  unfold forkNode at hf
  by_cases hpos : pos ≤ 0 ∨ pos ≥ t.key.length
  · rw [if_pos hpos] at hf
    cases hf
    refine ⟨h, F, ?_, hr, .refl h F hab⟩
    unfold hForkNode
    rw [read_ok hn, okb, hk, if_pos hpos]
  · rw [if_neg hpos] at hf
    cases hc : t.key[pos]? with
    | none => rw [hc] at hf; cases hf
    | some c =>
      rw [hc] at hf
      simp only [TNode.setSlot] at hf
      by_cases hlow : c < 128
      · rw [if_pos hlow] at hf
        cases hf
        have hpl : p < h.made := lt_made hab (by rw [hn]; simp)
        have hne : p ≠ h.made := by omega
        refine ⟨{ cell := fun x => if x = p then some { key := t.key.take pos, val := none, next := fun x => if x = c then some h.made else none }
            else if x = h.made then some { n with key := t.key.drop pos } else h.cell x, made := h.made + 1, deleted := h.deleted },
          fun x => F x ∨ x = h.made, ?_, ?_, ?_⟩
        · unfold hForkNode
          rw [read_ok hn, okb, hk, if_neg hpos, hc]
          simp only [Heap.new, HNode.setSlot, if_pos hlow, okb, Heap.write]
          rw [if_neg hne, hn]
        · cases hr with
          | mk q S cell key val none_ some_ child low self apart foot =>
            rw [hn] at cell
            cases cell
            have hSl : ∀ d x, S d x → x < h.made := fun d x hx => lt_made hab (halive x ((foot x).2 (.inr ⟨d, hx⟩)))
            have hnew : Rep (fun x => if x = p then some { key := t.key.take pos, val := none, next := fun x => if x = c then some h.made else none }
                else if x = h.made then some { n with key := t.key.drop pos } else h.cell x) h.made
                (TNode.mk (t.key.drop pos) t.val t.next) (fun x => x = h.made ∨ ∃ d, S d x) := by
              refine .mk q S (n := { n with key := t.key.drop pos }) ?_ rfl hv none_ some_ (fun d u hd => (child d u hd).frame ?_) low
                ?_ apart (fun x => Iff.rfl)
              · simp [hne.symm]
              · intro x hx
                have h1 := hSl d x hx
                have h2 : x ≠ p := by rintro rfl; exact self d hx
                have h3 : x ≠ h.made := by omega
                simp [h2, h3]
              · intro d hd; have := hSl d _ hd; omega
            refine .mk (fun _ => h.made) (fun d x => d = c ∧ (x = h.made ∨ ∃ e, S e x))
              (n := { key := t.key.take pos, val := none, next := fun x => if x = c then some h.made else none })
              (by simp) rfl rfl ?_ ?_ ?_ ?_ ?_ ?_ ?_
            · intro d hd
              by_cases hdc : d = c
              · simp [hdc] at hd
              · simp [hdc]
            · intro d u hd
              by_cases hdc : d = c
              · simp [hdc]
              · simp [hdc] at hd
            · intro d u hd
              by_cases hdc : d = c
              · simp only [if_pos hdc] at hd
                cases hd
                exact hnew.congr (fun x => by simp [hdc])
              · simp [hdc] at hd
            · intro d hd
              have hdc : d ≠ c := by rintro rfl; exact hd hlow
              simp [hdc]
            · rintro d ⟨-, h1 | ⟨e, h1⟩⟩
              · exact hne h1
              · exact self e h1
            · rintro d e x ⟨rfl, -⟩ ⟨rfl, -⟩; rfl
            · intro x
              rw [foot x]
              constructor
              · rintro ((h1 | h1) | h1)
                · exact .inl h1
                · exact .inr ⟨c, rfl, .inr h1⟩
                · exact .inr ⟨c, rfl, .inl h1⟩
              · rintro (h1 | ⟨d, -, h1 | h1⟩)
                · exact .inl (.inl h1)
                · exact .inr h1
                · exact .inl (.inr h1)
        · refine ⟨by simp, rfl, ?_, ?_, ?_, fun x hx => .inl hx, ?_⟩
          · intro x hx hl
            have h2 : x ≠ p := by rintro rfl; exact hx hroot
            have h3 : x ≠ h.made := by omega
            simp [h2, h3]
          · intro x h1 h2; exact .inr (by simp at h2; omega)
          · intro x hx
            simp only at hx
            have h2 : x ≠ p := by omega
            have h3 : x ≠ h.made := by omega
            simp only [if_neg h2, if_neg h3]
            exact hab x (by omega)
          · rintro x (hx | rfl)
            · exact .inl hx
            · exact .inr ⟨Nat.le_refl _, by simp⟩
      · rw [if_neg hlow] at hf; cases hf

theorem setGo_nil (v : α) (now : TNode α) (pos : Nat) : setGo v now pos [] =
    ((if pos ≠ now.key.length then forkNode now pos else .ok now) >>= fun now => .ok (TNode.mk now.key (some v) now.next)) := by
  unfold setGo
  split <;> rfl

theorem setGo_cons (v : α) (now : TNode α) (pos : Nat) (c : Byte) (cs : Str) : setGo v now pos (c :: cs) =
    if pos < now.key.length ∧ now.key[pos]? = some c then setGo v now (pos + 1) cs
    else ((if pos < now.key.length then forkNode now pos else .ok now) >>= fun now =>
      if pos < now.key.length then .error .diverge
      else
        now.slot c >>= fun r =>
        match r with
        | none => now.setSlot c (TNode.mk (c :: cs) (some v) fun _ => none)
        | some ch => setGo v ch 1 cs >>= fun ch => now.setSlot c ch) := by
  rw [setGo]
  split
  · rfl
  · split <;> rfl

theorem hSetGo_nil (v : α) (h : Heap α) (now pos : Nat) (n : HNode α) (hn : h.read now = .ok n) : hSetGo v h now pos [] =
    ((if pos ≠ n.key.length then hForkNode h now pos else .ok h) >>= fun h =>
      h.read now >>= fun n => h.write now { n with val := some v }) := by
  unfold hSetGo
  rw [hn, okb]
  split <;> rfl

theorem hSetGo_cons (v : α) (h : Heap α) (now pos : Nat) (n : HNode α) (hn : h.read now = .ok n) (c : Byte) (cs : Str) :
    hSetGo v h now pos (c :: cs) =
    if pos < n.key.length ∧ n.key[pos]? = some c then hSetGo v h now (pos + 1) cs
    else ((if pos < n.key.length then hForkNode h now pos else .ok h) >>= fun h =>
      h.read now >>= fun n =>
      if pos < n.key.length then .error .diverge
      else
        n.slot c >>= fun r =>
        match r with
        | none => do
          let (h, tmp) := h.new {}
          let n ← n.setSlot c tmp
          let h ← h.write now n
          let m ← h.read tmp
          let h ← h.write tmp { m with key := c :: cs }
          let m ← h.read tmp
          h.write tmp { m with val := some v }
        | some q => hSetGo v h q 1 cs) := by
  rw [hSetGo, hn, okb]
  split
  · rfl
  · split <;> rfl

/-- The loop of `SetNode`. -/
theorem rep_setGo (v : α) : ∀ (key : Str) {h : Heap α} {p pos : Nat} {t t' : TNode α} {F}, Rep h.cell p t F →
    (∀ x, h.made ≤ x → h.cell x = none) → setGo v t pos key = .ok t' →
    ∃ h' F', hSetGo v h p pos key = .ok h' ∧ Rep h'.cell p t' F' ∧ Grew h h' F F' := by
  intro key
  induction key with
  | nil =>
    intro h p pos t t' F hr hab hs
    obtain ⟨n, hn, hk, hv, _⟩ := hr.node
    rw [setGo_nil] at hs
    obtain ⟨t₁, h₁, F₁, e1, e2, hr₁, hg₁⟩ : ∃ t₁ h₁ F₁, (if pos ≠ t.key.length then forkNode t pos else .ok t) = .ok t₁ ∧
        (if pos ≠ n.key.length then hForkNode h p pos else .ok h) = .ok h₁ ∧ Rep h₁.cell p t₁ F₁ ∧ Grew h h₁ F F₁ := by
      rw [hk]
      by_cases hp : pos ≠ t.key.length
      · rw [if_pos hp] at hs ⊢
        rw [if_pos hp]
        cases hf : forkNode t pos with
        | error e => rw [hf] at hs; cases hs
        | ok t₁ =>
          obtain ⟨h₁, F₁, a, b, c⟩ := rep_fork hr hab hf
          exact ⟨t₁, h₁, F₁, rfl, a, b, c⟩
      · rw [if_neg hp, if_neg hp]
        exact ⟨t, h, F, rfl, rfl, hr, .refl h F hab⟩
    rw [e1, okb] at hs
    cases hs
    obtain ⟨n₁, hn₁, hk₁, hv₁, _⟩ := hr₁.node
    obtain ⟨a, b⟩ := hr₁.assign (h' := { h₁ with cell := fun x => if x = p then some { n₁ with val := some v } else h₁.cell x })
      hg₁.above hn₁ n₁.key (some v) rfl rfl (fun x => rfl)
    refine ⟨_, F₁, ?_, by rw [← hk₁]; exact a, hg₁.trans b⟩
    rw [hSetGo_nil v h p pos n (read_ok hn), e2, okb, read_ok hn₁, okb, write_ok hn₁]
  | cons c cs ih =>
    intro h p pos t t' F hr hab hs
    obtain ⟨n, hn, hk, hv, _⟩ := hr.node
    rw [setGo_cons] at hs
    by_cases hm : pos < t.key.length ∧ t.key[pos]? = some c
    · rw [if_pos hm] at hs
      obtain ⟨h', F', a, b, d⟩ := ih hr hab hs
      refine ⟨h', F', ?_, b, d⟩
      rw [hSetGo_cons v h p pos n (read_ok hn), hk, if_pos hm, a]
    · rw [if_neg hm] at hs
      obtain ⟨t₁, h₁, F₁, e1, e2, hr₁, hg₁⟩ : ∃ t₁ h₁ F₁, (if pos < t.key.length then forkNode t pos else .ok t) = .ok t₁ ∧
          (if pos < n.key.length then hForkNode h p pos else .ok h) = .ok h₁ ∧ Rep h₁.cell p t₁ F₁ ∧ Grew h h₁ F F₁ := by
        rw [hk]
        by_cases hp : pos < t.key.length
        · rw [if_pos hp] at hs ⊢
          rw [if_pos hp]
          cases hf : forkNode t pos with
          | error e => rw [hf] at hs; cases hs
          | ok t₁ =>
            obtain ⟨h₁, F₁, a, b, c⟩ := rep_fork hr hab hf
            exact ⟨t₁, h₁, F₁, rfl, a, b, c⟩
        · rw [if_neg hp, if_neg hp]
          exact ⟨t, h, F, rfl, rfl, hr, .refl h F hab⟩
      rw [e1, okb] at hs
      obtain ⟨n₁, hn₁, hk₁, hv₁, hnone₁⟩ := hr₁.node
      have hstart : hSetGo v h p pos (c :: cs) = (h₁.read p >>= fun n =>
          if pos < n.key.length then .error .diverge
          else
            n.slot c >>= fun r =>
            match r with
            | none => do
              let (h, tmp) := h₁.new {}
              let n ← n.setSlot c tmp
              let h ← h.write p n
              let m ← h.read tmp
              let h ← h.write tmp { m with key := c :: cs }
              let m ← h.read tmp
              h.write tmp { m with val := some v }
            | some q => hSetGo v h₁ q 1 cs) := by
        rw [hSetGo_cons v h p pos n (read_ok hn), if_neg (by rw [hk]; exact hm), e2, okb]
      rw [read_ok hn₁, okb, hk₁] at hstart
      by_cases hp : pos < t₁.key.length
      · rw [if_pos hp] at hs; cases hs
      · rw [if_neg hp] at hs hstart
        simp only [TNode.slot, HNode.slot] at hs hstart
        by_cases hlow : c < 128
        · rw [if_pos hlow, okb] at hs hstart
          cases hc : t₁.next c with
          | none =>
            rw [hc] at hs
            rw [hnone₁ c hc] at hstart
            simp only [TNode.setSlot, if_pos hlow] at hs
            cases hs
            have hpl : p < h₁.made := lt_made hg₁.above (by rw [hn₁]; simp)
            have hne : p ≠ h₁.made := by omega
            obtain ⟨F', a, b⟩ := hr₁.add (h' := Heap.mk (fun x => if x = h₁.made then some { key := c :: cs, val := some v } else
              if x = p then some (HNode.mk n₁.key n₁.val (fun x => if x = c then some h₁.made else n₁.next x)) else h₁.cell x)
              (h₁.made + 1) h₁.deleted) hg₁.above hn₁ hlow hc (c :: cs) (some v) rfl rfl (fun x => rfl)
            refine ⟨_, F', ?_, a, hg₁.trans b⟩
            rw [hstart]
            simp only [Heap.new, HNode.setSlot, if_pos hlow, okb, Heap.write, Heap.read, if_neg hne, if_neg hne.symm, hn₁, if_pos]
            congr 2
            funext x
            by_cases hx : x = h₁.made
            · simp [hx]
            · simp [hx]
          | some ch =>
            rw [hc] at hs
            simp only at hs
            cases hgo : setGo v ch 1 cs with
            | error e => rw [hgo] at hs; cases hs
            | ok ch' =>
              rw [hgo, okb] at hs
              simp only [TNode.setSlot, if_pos hlow] at hs
              cases hs
              obtain ⟨q, S, hq, hrq, -⟩ := hr₁.replace (h' := h₁) (t'' := ch) hg₁.above hn₁ hc
              obtain ⟨h', S', a, b, d⟩ := ih hrq hg₁.above hgo
              obtain ⟨q', S₂, hq', hrq', hrep⟩ := hr₁.replace (h' := h') (t'' := ch') hg₁.above hn₁ hc
              rw [hq] at hq'
              cases hq'
              obtain ⟨h'', S'', a', b', d'⟩ := ih hrq' hg₁.above hgo
              rw [a] at a'
              cases a'
              obtain ⟨F', x, y⟩ := hrep S'' b' d'
              refine ⟨h', F', ?_, x, hg₁.trans y⟩
              rw [hstart, hq]
              exact a
        · rw [if_neg hlow] at hs; cases hs

/-- `SetNode`. -/
theorem rep_set (v : α) (key : Str) {h : Heap α} {p : Nat} {t t' : TNode α} {F} (hr : Rep h.cell p t F)
    (hab : ∀ x, h.made ≤ x → h.cell x = none) (hs : trieSet t key v = .ok t') :
    ∃ h' F', hTrieSet h p key v = .ok h' ∧ Rep h'.cell p t' F' ∧ Grew h h' F F' := by
  obtain ⟨n, hn, hk, hv, hnone⟩ := hr.node
  cases key with
  | nil =>
    cases hs
    obtain ⟨a, b⟩ := hr.assign (h' := { h with cell := fun x => if x = p then some { n with val := some v } else h.cell x })
      hab hn n.key (some v) rfl rfl (fun x => rfl)
    refine ⟨_, F, ?_, by rw [← hk]; exact a, b⟩
    simp only [hTrieSet]
    rw [read_ok hn, okb, write_ok hn]
  | cons c cs =>
    simp only [trieSet, TNode.slot] at hs
    have hstart : ∀ x : Out (Option Nat), n.slot c = x → hTrieSet h p (c :: cs) v = (do
        let (h, now) ← match ← x with
          | none => do
            let (h, q) := h.new {}
            let r ← n.setSlot c q
            let h ← h.write p r
            .ok (h, q)
          | some q => .ok (h, q)
        let n ← h.read now
        if n.key = [] then h.write now { n with key := c :: cs, val := some v }
        else hSetGo v h now 0 (c :: cs)) := by
      rintro x rfl
      simp only [hTrieSet]
      rw [read_ok hn, okb]
      rfl
    by_cases hlow : c < 128
    · rw [if_pos hlow, okb] at hs
      have hst := hstart (.ok (n.next c)) (by simp [HNode.slot, hlow])
      rw [okb] at hst
      cases hc : t.next c with
      | none =>
        rw [hc] at hs
        simp only [TNode.empty, if_pos, TNode.setSlot, if_pos hlow] at hs
        cases hs
        rw [hnone c hc] at hst
        have hpl : p < h.made := lt_made hab (by rw [hn]; simp)
        have hne : p ≠ h.made := by omega
        obtain ⟨F', a, b⟩ := hr.add (h' := Heap.mk (fun x => if x = h.made then some { key := c :: cs, val := some v } else
          if x = p then some (HNode.mk n.key n.val (fun x => if x = c then some h.made else n.next x)) else h.cell x)
          (h.made + 1) h.deleted) hab hn hlow hc (c :: cs) (some v) rfl rfl (fun x => rfl)
        refine ⟨_, F', ?_, a, b⟩
        rw [hst]
        simp only [Heap.new, HNode.setSlot, if_pos hlow, okb, Heap.write, Heap.read, if_neg hne, if_neg hne.symm, hn, if_pos]
        congr 2
        funext x
        by_cases hx : x = h.made
        · simp [hx]
        · simp [hx]
      | some ch =>
        rw [hc] at hs
        simp only at hs
        obtain ⟨q, S, hq, hrq, -⟩ := hr.replace (h' := h) (t'' := ch) hab hn hc
        obtain ⟨m, hm, hmk, hmv, -⟩ := hrq.node
        rw [hq] at hst
        simp only [okb] at hst
        rw [read_ok hm, okb, hmk] at hst
        by_cases he : ch.key = []
        · rw [if_pos he] at hs hst
          simp only [TNode.setSlot, if_pos hlow] at hs
          cases hs
          rw [write_ok hm] at hst
          obtain ⟨q', S₂, hq', hrq', hrep⟩ := hr.replace
            (h' := { h with cell := fun x => if x = q then some { m with key := c :: cs, val := some v } else h.cell x })
            (t'' := TNode.mk (c :: cs) (some v) ch.next) hab hn hc
          rw [hq] at hq'
          cases hq'
          obtain ⟨a, b⟩ := hrq'.assign
            (h' := { h with cell := fun x => if x = q then some { m with key := c :: cs, val := some v } else h.cell x })
            hab hm (c :: cs) (some v) rfl rfl (fun x => rfl)
          obtain ⟨F', x, y⟩ := hrep S₂ a b
          exact ⟨_, F', hst, x, y⟩
        · rw [if_neg he] at hs hst
          cases hgo : setGo v ch 0 (c :: cs) with
          | error e => rw [hgo] at hs; cases hs
          | ok ch' =>
            rw [hgo, okb] at hs
            simp only [TNode.setSlot, if_pos hlow] at hs
            cases hs
            obtain ⟨h', S', a, b, d⟩ := rep_setGo v (c :: cs) hrq hab hgo
            obtain ⟨q', S₂, hq', hrq', hrep⟩ := hr.replace (h' := h') (t'' := ch') hab hn hc
            rw [hq] at hq'
            cases hq'
            obtain ⟨h'', S'', a', b', d'⟩ := rep_setGo v (c :: cs) hrq' hab hgo
            rw [a] at a'
            cases a'
            obtain ⟨F', x, y⟩ := hrep S'' b' d'
            exact ⟨h', F', hst.trans a, x, y⟩
    · rw [if_neg hlow] at hs; cases hs

/-- A child and where it is. -/
theorem Rep.kid {f : Nat → Option (HNode α)} {p t F} (h : Rep f p t F) :
    ∃ n, f p = some n ∧ n.key = t.key ∧ n.val = t.val ∧ (∀ c, t.next c = none → n.next c = none) ∧
      ∀ c t', t.next c = some t' → ∃ q S, n.next c = some q ∧ Rep f q t' S := by
  cases h with
  | mk q S cell key val none_ some_ child low self apart foot =>
    exact ⟨_, cell, key, val, fun c h => (none_ c h).1, fun c t' ht => ⟨q c, S c, some_ c t' ht, child c t' ht⟩⟩

/-- The payload `Get` reads at what `GetNode` returns. -/
def deref (h : Heap α) (r : Out (Option Nat)) : Out (Option α) := do
  match ← r with
  | none => .ok none
  | some p => do
    let n ← h.read p
    .ok n.val

theorem deref_node {h : Heap α} {p : Nat} {n : HNode α} (hn : h.cell p = some n) :
    deref h (.ok (if n.val.isSome then some p else none)) = .ok n.val := by
  cases hv : n.val with
  | none => rfl
  | some v => simp [deref, okb, read_ok hn, hv]

theorem rep_getGo : ∀ (key : Str) {h : Heap α} {p pos : Nat} {t : TNode α} {F}, Rep h.cell p t F →
    deref h (hGetGo h p pos key) = getGo t pos key := by
  intro key
  induction key with
  | nil =>
    intro h p pos t F hr
    obtain ⟨n, hn, hk, hv, _⟩ := hr.node
    rw [hGetGo, read_ok hn, okb, deref_node hn, getGo, hv]
  | cons c cs ih =>
    intro h p pos t F hr
    obtain ⟨n, hn, hk, hv, hnone, hsome⟩ := hr.kid
    rw [hGetGo, read_ok hn, okb, getGo, hk]
    by_cases hp : pos < t.key.length
    · rw [if_pos hp, if_pos hp]
      by_cases hc : t.key[pos]? = some c
      · rw [if_pos hc, if_pos hc]; exact ih hr
      · rw [if_neg hc, if_neg hc]; rfl
    · rw [if_neg hp, if_neg hp]
      simp only [TNode.slot, HNode.slot]
      by_cases hlow : c < 128
      · rw [if_pos hlow, if_pos hlow, okb, okb]
        cases hc : t.next c with
        | none => rw [hnone c hc]; rfl
        | some ch =>
          obtain ⟨q, S, hq, hrq⟩ := hsome c ch hc
          rw [hq]
          exact ih hrq
      · rw [if_neg hlow, if_neg hlow]; rfl

/-- `Get` through the pointers is `Get` on the value. -/
theorem rep_get (key : Str) {h : Heap α} {p : Nat} {t : TNode α} {F} (hr : Rep h.cell p t F) :
    hTrieGet h p key = trieGet t key := by
  obtain ⟨n, hn, hk, hv, hnone, hsome⟩ := hr.kid
  have e : hTrieGet h p key = deref h (hGetNode h p key) := rfl
  rw [e]
  cases key with
  | nil => simp only [hGetNode]; rw [read_ok hn, okb, deref_node hn, trieGet, hv]
  | cons c cs =>
    simp only [hGetNode, trieGet, TNode.slot, HNode.slot]
    rw [read_ok hn, okb]
    by_cases hlow : c < 128
    · rw [if_pos hlow, if_pos hlow, okb, okb]
      cases hc : t.next c with
      | none => rw [hnone c hc]; rfl
      | some ch =>
        obtain ⟨q, S, hq, hrq⟩ := hsome c ch hc
        rw [hq]
        exact rep_getGo (c :: cs) hrq
    · rw [if_neg hlow, if_neg hlow]; rfl

theorem rep_searchGo {σ : Type} (cb : σ → α → Bool → Out (σ × Bool)) : ∀ (key : Str) {h : Heap α} {p pos : Nat} {t : TNode α} {F} (s : σ),
    Rep h.cell p t F → hSearchGo cb h s p pos key = searchGo cb s t pos key := by
  intro key
  induction key with
  | nil =>
    intro h p pos t F s hr
    obtain ⟨n, hn, hk, hv, _⟩ := hr.node
    rw [hSearchGo, read_ok hn, okb, searchGo, hv, hk]
    cases t.val <;> rfl
  | cons c cs ih =>
    intro h p pos t F s hr
    obtain ⟨n, hn, hk, hv, hnone, hsome⟩ := hr.kid
    rw [hSearchGo, read_ok hn, okb, searchGo, hk, hv]
    by_cases hp : pos < t.key.length
    · rw [if_pos hp, if_pos hp]
      by_cases hc : t.key[pos]? = some c
      · rw [if_pos hc, if_pos hc]; exact ih s hr
      · rw [if_neg hc, if_neg hc]
    · rw [if_neg hp, if_neg hp]
      have tail : ∀ r : σ × Bool, (if (!r.2) = true then (.ok r.1 : Out σ) else n.slot c >>= fun x =>
            match x with
            | none => .ok r.1
            | some q => hSearchGo cb h r.1 q 1 cs) =
          (if (!r.2) = true then (.ok r.1 : Out σ) else t.slot c >>= fun x =>
            match x with
            | none => .ok r.1
            | some ch => searchGo cb r.1 ch 1 cs) := by
        intro r
        cases r.2
        · rfl
        · simp only [Bool.not_true, Bool.false_eq_true, if_false, TNode.slot, HNode.slot]
          by_cases hlow : c < 128
          · rw [if_pos hlow, if_pos hlow, okb, okb]
            cases hc : t.next c with
            | none => rw [hnone c hc]
            | some ch =>
              obtain ⟨q, S, hq, hrq⟩ := hsome c ch hc
              rw [hq]
              exact ih r.1 hrq
          · rw [if_neg hlow, if_neg hlow]; rfl
      cases t.val with
      | none => exact tail (s, true)
      | some w =>
        cases hcb : cb s w false with
        | error e => simp only [hcb]; rfl
        | ok r => simp only [hcb]; exact tail r

/-- `Search` through the pointers is `Search` on the value. -/
theorem rep_search {σ : Type} (cb : σ → α → Bool → Out (σ × Bool)) (s : σ) (key : Str) {h : Heap α} {p : Nat} {t : TNode α} {F}
    (hr : Rep h.cell p t F) : hTrieSearch cb s h p key = trieSearch cb s t key := by
  obtain ⟨n, hn, hk, hv, hnone, hsome⟩ := hr.kid
  unfold hTrieSearch trieSearch
  rw [read_ok hn, okb, hv]
  have tail : ∀ (c : Byte) (cs : Str) (r : σ × Bool), (if (!r.2) = true then (.ok r.1 : Out σ) else n.slot c >>= fun x =>
        match x with
        | none => .ok r.1
        | some q => hSearchGo cb h r.1 q 0 (c :: cs)) =
      (if (!r.2) = true then (.ok r.1 : Out σ) else t.slot c >>= fun x =>
        match x with
        | none => .ok r.1
        | some ch => searchGo cb r.1 ch 0 (c :: cs)) := by
    intro c cs r
    cases r.2
    · rfl
    · simp only [Bool.not_true, Bool.false_eq_true, if_false, TNode.slot, HNode.slot]
      by_cases hlow : c < 128
      · rw [if_pos hlow, if_pos hlow, okb, okb]
        cases hc : t.next c with
        | none => rw [hnone c hc]
        | some ch =>
          obtain ⟨q, S, hq, hrq⟩ := hsome c ch hc
          rw [hq]
          exact rep_searchGo cb (c :: cs) r.1 hrq
      · rw [if_neg hlow, if_neg hlow]; rfl
  cases key with
  | nil => rfl
  | cons c cs =>
    cases t.val with
    | none => exact tail c cs (s, true)
    | some w =>
      cases hcb : cb s w (c :: cs).isEmpty with
      | error e => simp only [hcb]; rfl
      | ok r => simp only [hcb]; exact tail c cs r

/-- Exactly the nodes in `F` have been deleted, each once. -/
structure Cleaned (h h' : Heap α) (F : Nat → Prop) : Prop where
  gone : ∀ x, F x → h'.cell x = none
  keep : ∀ x, ¬ F x → h'.cell x = h.cell x
  made : h'.made = h.made
  deleted : ∃ l : List Nat, h'.deleted = l ++ h.deleted ∧ l.Nodup ∧ ∀ x, x ∈ l ↔ F x

theorem mem_slots (c : Byte) : c ∈ slots ↔ c < 128 := by
  have key : ∀ i : Fin 256, UInt8.ofNat i.val ∈ slots ↔ UInt8.ofNat i.val < 128 := by decide +kernel
  have := key ⟨c.toNat, c.toNat_lt⟩
  rwa [UInt8.ofNat_toNat] at this

theorem slots_nodup : slots.Nodup := by decide +kernel

/-- `CleanMemory` deletes exactly the nodes of the tree. -/
theorem rep_clean {f : Nat → Option (HNode α)} {p t F} (hr : Rep f p t F) :
    ∃ k, ∀ h : Heap α, (∀ x, F x → h.cell x = f x) → ∃ h', (∀ m, k ≤ m → cleanMemory m h p = .ok h') ∧ Cleaned h h' F := by
  induction hr with
  | mk q S cell key val none_ some_ child low self apart foot ih =>
    rename_i p n t F
    have loop : ∀ cs : List Byte, cs.Nodup → ∃ k, ∀ h : Heap α, h.cell p = some n → (∀ c ∈ cs, ∀ x, S c x → h.cell x = f x) →
        ∃ h', (∀ m, k ≤ m → cleanSlots (cleanMemory m) p h cs = .ok h') ∧ Cleaned h h' (fun x => ∃ c ∈ cs, S c x) := by
      intro cs
      induction cs with
      | nil =>
        intro _
        refine ⟨0, fun h _ _ => ⟨h, fun m _ => by rw [cleanSlots], ?_⟩⟩
        exact ⟨fun x hx => by simp at hx, fun _ _ => rfl, rfl, [], rfl, List.nodup_nil, fun x => by simp⟩
      | cons c cs ihs =>
        intro hnd
        obtain ⟨hc, hnd⟩ := List.nodup_cons.1 hnd
        obtain ⟨k₁, hk₁⟩ := ihs hnd
        cases hn : t.next c with
        | none =>
          obtain ⟨e1, e2⟩ := none_ c hn
          refine ⟨k₁, fun h hp hS => ?_⟩
          obtain ⟨h', a, b⟩ := hk₁ h hp (fun d hd => hS d (List.mem_cons_of_mem _ hd))
          refine ⟨h', fun m hm => ?_, ?_⟩
          · rw [cleanSlots, read_ok hp, okb, e1]; exact a m hm
          · have e : ∀ x, (∃ d ∈ c :: cs, S d x) ↔ ∃ d ∈ cs, S d x := by
              intro x
              simp only [List.mem_cons, exists_eq_or_imp]
              exact ⟨fun h => h.resolve_left (e2 x), .inr⟩
            exact ⟨fun x hx => b.gone x ((e x).1 hx), fun x hx => b.keep x (fun h => hx ((e x).2 h)), b.made,
              b.deleted.imp fun l hl => ⟨hl.1, hl.2.1, fun x => (hl.2.2 x).trans (e x).symm⟩⟩
        | some t' =>
          obtain ⟨k₂, hk₂⟩ := ih c t' hn
          refine ⟨max k₁ k₂, fun h hp hS => ?_⟩
          obtain ⟨h₁, a₁, b₁⟩ := hk₂ h (hS c (by simp))
          have hp₁ : h₁.cell p = some n := by rw [b₁.keep p (self c), hp]
          obtain ⟨h₂, a₂, b₂⟩ := hk₁ h₁ hp₁ (fun d hd x hx => by
            have hdc : d ≠ c := by rintro rfl; exact hc hd
            rw [b₁.keep x (fun h => hdc (apart d c x hx h))]
            exact hS d (List.mem_cons_of_mem _ hd) x hx)
          refine ⟨h₂, fun m hm => ?_, ?_⟩
          · rw [cleanSlots, read_ok hp, okb, some_ c t' hn]
            simp only
            rw [a₁ m (by omega), okb]
            exact a₂ m (by omega)
          · refine ⟨?_, ?_, b₂.made.trans b₁.made, ?_⟩
            · rintro x ⟨d, hd, hx⟩
              by_cases h2 : ∃ e ∈ cs, S e x
              · exact b₂.gone x h2
              · rw [b₂.keep x h2]
                rcases List.mem_cons.1 hd with rfl | hd
                · exact b₁.gone x hx
                · exact absurd ⟨d, hd, hx⟩ h2
            · intro x hx
              rw [b₂.keep x (fun ⟨d, hd, h⟩ => hx ⟨d, List.mem_cons_of_mem _ hd, h⟩), b₁.keep x (fun h => hx ⟨c, by simp, h⟩)]
            · obtain ⟨l₁, x1, x2, x3⟩ := b₁.deleted
              obtain ⟨l₂, y1, y2, y3⟩ := b₂.deleted
              refine ⟨l₂ ++ l₁, by rw [y1, x1, List.append_assoc], ?_, ?_⟩
              · refine List.nodup_append.2 ⟨y2, x2, ?_⟩
                rintro a ha b hb rfl
                obtain ⟨d, hd, hx⟩ := (y3 a).1 ha
                have := apart d c a hx ((x3 a).1 hb)
                exact hc (this ▸ hd)
              · intro x
                simp only [List.mem_append, List.mem_cons, exists_eq_or_imp, x3, y3]
                exact Or.comm
    obtain ⟨k, hk⟩ := loop slots slots_nodup
    refine ⟨k + 1, fun h hf => ?_⟩
    have hp : h.cell p = some n := by rw [hf p ((foot p).2 (.inl rfl)), cell]
    obtain ⟨h₁, a, b⟩ := hk h hp (fun c _ x hx => hf x ((foot x).2 (.inr ⟨c, hx⟩)))
    have e : ∀ x, (∃ c ∈ slots, S c x) ↔ ∃ c, S c x := by
      intro x
      constructor
      · rintro ⟨c, -, hx⟩; exact ⟨c, hx⟩
      · rintro ⟨c, hx⟩
        refine ⟨c, (mem_slots c).2 ?_, hx⟩
        by_cases hlow : c < 128
        · exact hlow
        · exact absurd hx ((none_ c (low c hlow)).2 x)
    have hp₁ : h₁.cell p = some n := by
      rw [b.keep p (fun ⟨c, _, hx⟩ => self c hx), hp]
    refine ⟨{ h₁ with cell := fun x => if x = p then none else h₁.cell x, deleted := p :: h₁.deleted }, ?_, ?_⟩
    · intro m hm
      obtain ⟨m, rfl⟩ : ∃ j, m = j + 1 := ⟨m - 1, by omega⟩
      rw [cleanMemory, a m (by omega), okb, Heap.delete, hp₁]
    · refine ⟨?_, ?_, b.made, ?_⟩
      · intro x hx
        by_cases hxp : x = p
        · simp [hxp]
        · simp only [if_neg hxp]
          exact b.gone x ((e x).2 (((foot x).1 hx).resolve_left hxp))
      · intro x hx
        have hxp : x ≠ p := fun h => hx ((foot x).2 (.inl h))
        simp only [if_neg hxp]
        exact b.keep x (fun h => hx ((foot x).2 (.inr ((e x).1 h))))
      · obtain ⟨l, x1, x2, x3⟩ := b.deleted
        refine ⟨p :: l, by simp [x1], ?_, ?_⟩
        · refine List.nodup_cons.2 ⟨fun hx => ?_, x2⟩
          obtain ⟨c, hc⟩ := (e p).1 ((x3 p).1 hx)
          exact self c hc
        · intro x
          rw [List.mem_cons, x3, e, foot]

end Cppnet
