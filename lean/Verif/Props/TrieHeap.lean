import Verif.Proofs.TrieHeap
import Verif.Props.Trie

/-!
# C135, C136: the nodes of the trie
-/

namespace Cppnet
open Spec
variable {α : Type}

/-- Everything that was made is in the tree or has been deleted, once. -/
structure Accounted (h : Heap α) (F : Nat → Prop) : Prop where
  above : ∀ x, h.made ≤ x → h.cell x = none
  nodup : h.deleted.Nodup
  deleted : ∀ x, x ∈ h.deleted ↔ x < h.made ∧ ¬ F x
  dead : ∀ x, ¬ F x → h.cell x = none

theorem accounted_grew {h h' : Heap α} {F F'} (ha : Accounted h F) (halive : ∀ x, F x → h.cell x ≠ none) (hg : Grew h h' F F') :
    Accounted h' F' := by
  have hm := hg.made
  refine ⟨hg.above, by rw [hg.deleted]; exact ha.nodup, fun x => ?_, fun x hx => ?_⟩
  rotate_left
  · rcases Nat.lt_or_ge x h.made with h3 | h3
    · have hF : ¬ F x := fun h => hx (hg.sub x h)
      rw [hg.keep x hF h3, ha.dead x hF]
    · rcases Nat.lt_or_ge x h'.made with h4 | h4
      · exact absurd (hg.fresh x h3 h4) hx
      · exact hg.above x h4
  rw [hg.deleted, ha.deleted]
  constructor
  · rintro ⟨h1, h2⟩
    refine ⟨by omega, fun hF => ?_⟩
    rcases hg.inv x hF with h3 | h3
    · exact h2 h3
    · omega
  · rintro ⟨h1, h2⟩
    refine ⟨?_, fun hF => h2 (hg.sub x hF)⟩
    rcases Nat.lt_or_ge x h.made with h3 | h3
    · exact h3
    · exact absurd (hg.fresh x h3 h1) h2

theorem accounted_cleaned {h h' : Heap α} {F} (ha : Accounted h F) (halive : ∀ x, F x → h.cell x ≠ none) (hc : Cleaned h h' F) :
    Accounted h' (fun _ => False) := by
  obtain ⟨l, h1, h2, h3⟩ := hc.deleted
  refine ⟨fun x hx => ?_, ?_, fun x => ?_, fun x _ => ?_⟩
  rotate_right
  · by_cases hF : F x
    · exact hc.gone x hF
    · rw [hc.keep x hF, ha.dead x hF]
  · by_cases hF : F x
    · exact hc.gone x hF
    · rw [hc.keep x hF]; exact ha.above x (by rw [hc.made] at hx; exact hx)
  · rw [h1]
    refine List.nodup_append.2 ⟨h2, ha.nodup, ?_⟩
    rintro a hal b hb rfl
    exact ((ha.deleted a).1 hb).2 ((h3 a).1 hal)
  · rw [h1, List.mem_append, h3, ha.deleted, hc.made]
    constructor
    · rintro (h | h)
      · exact ⟨lt_made ha.above (halive x h), id⟩
      · exact ⟨h.1, id⟩
    · rintro ⟨h, -⟩
      by_cases hF : F x
      · exact .inl hF
      · exact .inr ⟨h, hF⟩

theorem accounted_new {h : Heap α} (ha : Accounted h (fun _ => False)) :
    Rep (hTrieNew h).heap.cell (hTrieNew h).root TNode.empty (fun x => x = h.made) ∧
      Accounted (hTrieNew h).heap (fun x => x = h.made) := by
  refine ⟨.leaf [] none (by simp [hTrieNew, Heap.new]), fun x hx => ?_, ha.nodup, fun x => ?_, fun x hx => ?_⟩
  · simp only [hTrieNew, Heap.new] at hx ⊢
    rw [if_neg (by omega)]
    exact ha.above x (by omega)
  · simp only [hTrieNew, Heap.new]
    rw [ha.deleted]
    constructor
    · rintro ⟨h1, -⟩; exact ⟨by omega, by omega⟩
    · rintro ⟨h1, h2⟩; exact ⟨by omega, id⟩
  · simp only [hTrieNew, Heap.new]
    rw [if_neg hx]
    exact ha.dead x id

/-- The calls on the heap do what the calls on the value do. -/
theorem hRun_aux : ∀ (ops : List (TrieOp α)) (t t' : TNode α) (ht : HTrie α) (F : Nat → Prop), Rep ht.heap.cell ht.root t F →
    Accounted ht.heap F → ops.foldlM trieStep t = .ok t' →
    ∃ k₀ ht' F', (∀ k, k₀ ≤ k → ops.foldlM (hTrieStep k) ht = .ok ht') ∧ Rep ht'.heap.cell ht'.root t' F' ∧ Accounted ht'.heap F' := by
  intro ops
  induction ops with
  | nil =>
    intro t t' ht F hr ha h
    cases h
    exact ⟨0, ht, F, fun _ _ => rfl, hr, ha⟩
  | cons op ops ih =>
    intro t t' ht F hr ha h
    cases op with
    | set key v =>
      rw [List.foldlM_cons] at h
      simp only [trieStep] at h
      cases hs : trieSet t key v with
      | error e => rw [hs] at h; cases h
      | ok t₁ =>
        rw [hs, okb] at h
        obtain ⟨h₁, F₁, a, b, c⟩ := rep_set v key hr ha.above hs
        obtain ⟨k₀, ht', F', x, y, z⟩ := ih t₁ t' { ht with heap := h₁ } F₁ b (accounted_grew ha hr.alive c) h
        refine ⟨k₀, ht', F', fun k hk => ?_, y, z⟩
        rw [List.foldlM_cons]
        simp only [hTrieStep]
        rw [a, okb, okb]
        exact x k hk
    | reset =>
      rw [List.foldlM_cons] at h
      simp only [trieStep] at h
      rw [okb] at h
      obtain ⟨k₁, hk₁⟩ := rep_clean hr
      obtain ⟨h₁, a, b⟩ := hk₁ ht.heap (fun _ _ => rfl)
      obtain ⟨c, d⟩ := accounted_new (accounted_cleaned ha hr.alive b)
      obtain ⟨k₀, ht', F', x, y, z⟩ := ih _ t' (hTrieNew h₁) _ c d h
      refine ⟨max k₀ k₁, ht', F', fun k hk => ?_, y, z⟩
      rw [List.foldlM_cons]
      simp only [hTrieStep]
      rw [a k (by omega), okb, okb]
      exact x k (by omega)

theorem hRun (ops : List (TrieOp α)) (t : TNode α) (h : trieRun ops = .ok t) :
    ∃ k₀ ht F, (∀ k, k₀ ≤ k → hTrieRun k ops = .ok ht) ∧ Rep ht.heap.cell ht.root t F ∧ Accounted ht.heap F := by
  have h0 : Accounted ({} : Heap α) (fun _ => False) := ⟨fun _ _ => rfl, List.nodup_nil, fun x => by simp, fun _ _ => rfl⟩
  obtain ⟨a, b⟩ := accounted_new h0
  exact hRun_aux ops _ t _ _ a b h

/-- C135: any history of `Set` and `Reset` with keys of 7-bit characters on a new trie, then its destruction: nothing is used
that is not alive, the recursion ends, and the nodes that were deleted are exactly the nodes that were made, each once. -/
theorem C135_freed_once (ops : List (TrieOp α)) (hops : AsciiOps ops) :
    ∃ k₀ t h, (∀ k, k₀ ≤ k → hTrieRun k ops = .ok t ∧ hTrieDestroy k t = .ok h) ∧
      h.deleted.Perm (List.range h.made) ∧ ∀ p, h.cell p = none := by
  obtain ⟨t, h1, -, -⟩ := trieRun_spec ops hops
  obtain ⟨k₁, ht, F, a, b, c⟩ := hRun ops t h1
  obtain ⟨k₂, hk₂⟩ := rep_clean b
  obtain ⟨h, d, e⟩ := hk₂ ht.heap (fun _ _ => rfl)
  have hac := accounted_cleaned c b.alive e
  refine ⟨max k₁ k₂, ht, h, fun k hk => ⟨a k (by omega), d k (by omega)⟩, ?_, fun p => ?_⟩
  · refine (List.perm_ext_iff_of_nodup hac.nodup List.nodup_range).2 fun x => ?_
    rw [hac.deleted, List.mem_range]
    simp
  · exact hac.dead p id

/-- C135, between the calls: whatever the history, `Reset` as its last call leaves one node alive, the new root. -/
theorem C135_reset (ops : List (TrieOp α)) (hops : AsciiOps ops) :
    ∃ k₀ t, (∀ k, k₀ ≤ k → hTrieRun k (ops ++ [.reset]) = .ok t) ∧ t.heap.deleted.Nodup ∧
      ∀ p, (t.heap.cell p ≠ none ↔ p = t.root) ∧ (p ∈ t.heap.deleted ↔ p < t.root) := by
  obtain ⟨t, h1, -, -⟩ := trieRun_spec ops hops
  obtain ⟨k₁, ht, F, a, b, c⟩ := hRun ops t h1
  obtain ⟨k₂, hk₂⟩ := rep_clean b
  obtain ⟨h, d, e⟩ := hk₂ ht.heap (fun _ _ => rfl)
  have hac := accounted_cleaned c b.alive e
  refine ⟨max k₁ k₂, hTrieNew h, fun k hk => ?_, hac.nodup, fun p => ⟨?_, ?_⟩⟩
  · have := a k (by omega)
    unfold hTrieRun at this ⊢
    rw [foldlM_append_singleton, this]
    show hTrieStep k ht .reset = _
    simp only [hTrieStep]
    rw [d k (by omega), okb]
  · have h2 : (hTrieNew h).heap.cell p = if p = h.made then some {} else h.cell p := rfl
    have h3 : (hTrieNew h).root = h.made := rfl
    rw [h2, h3]
    by_cases hp : p = h.made
    · simp [hp]
    · simp [hp, hac.dead p id]
  · show p ∈ h.deleted ↔ p < h.made
    rw [hac.deleted]
    simp

/-- C135, while the trie lives: after any history, `Get` and `Search` with any key of 7-bit characters and any callback touch only
nodes that are alive, and see the map of the history. -/
theorem C135_reads_alive {σ : Type} (ops : List (TrieOp α)) (hops : AsciiOps ops) :
    ∃ k₀ t, (∀ k, k₀ ≤ k → hTrieRun k ops = .ok t) ∧ ∀ key, Ascii key →
      (∃ r, hTrieGet t.heap t.root key = .ok r ∧ ∀ v, mapOf ops key = some v → r = some v) ∧
      ∀ (cb : σ → α → Bool → Out (σ × Bool)) (s : σ),
        hTrieSearch cb s t.heap t.root key = callUntilStop cb s (prefixHits (mapOf ops) key) := by
  obtain ⟨t, h1, h2, h3⟩ := trieRun_spec ops hops
  obtain ⟨k₁, ht, F, a, b, c⟩ := hRun ops t h1
  refine ⟨k₁, ht, a, fun key hk => ⟨?_, fun cb s => ?_⟩⟩
  · rw [rep_get key b]
    cases hm : mapOf ops key with
    | none =>
      obtain ⟨t', e1, ⟨r, e2⟩, -⟩ := C11_ascii_safe_partial ops hops key hk
      rw [h1] at e1
      cases e1
      exact ⟨r, e2, fun v hv => by cases hv⟩
    | some v =>
      obtain ⟨t', e1, e2, -⟩ := C09_get_stored ops hops key v hk hm
      rw [h1] at e1
      cases e1
      exact ⟨some v, e2, fun w hw => hw⟩
  · rw [rep_search cb s key b]
    obtain ⟨t', e1, e2⟩ := C08_search ops hops key hk cb s
    rw [h1] at e1
    cases e1
    exact e2

/-- A history that splits nodes, overwrites and resets in the middle: 12 nodes are made and deleted. -/
example : (hTrieRun 9 (demoOps ++ [.reset] ++ demoOps)).bind (fun t => (hTrieDestroy 9 t).bind fun h => .ok (h.made, h.deleted)) =
    .ok (12, [6, 7, 10, 9, 8, 11, 0, 1, 4, 3, 2, 5]) := by
  decide +kernel

/-- C136 is false for every trie: when a trie and its copy are both destroyed, the second destructor uses a deleted node. -/
theorem C136_copy_refuted (ops : List (TrieOp α)) (hops : AsciiOps ops) :
    ∃ k₀ t h, (∀ k, k₀ ≤ k → hTrieRun k ops = .ok t ∧ hTrieDestroy k t = .ok h) ∧
      ∀ k, hTrieDestroy (k + 1) ⟨h, hTrieCopy t⟩ = .error .ub := by
  obtain ⟨k₀, t, h, h1, h2, h3⟩ := C135_freed_once ops hops
  refine ⟨k₀, t, h, h1, fun k => ?_⟩
  show cleanMemory (k + 1) h t.root = _
  have : slots = (0 : Byte) :: slots.tail := by decide +kernel
  rw [cleanMemory, this, cleanSlots, Heap.read, h3]
  rfl

/-- C136 is false for every trie: after `Reset` on a copy, every `Get`, `Search`, `Set` or `Reset` on the original uses a deleted
node. -/
theorem C136_reset_refuted {σ : Type} (ops : List (TrieOp α)) (hops : AsciiOps ops) :
    ∃ k₀ t t', (∀ k, k₀ ≤ k → hTrieRun k ops = .ok t ∧ hTrieStep k ⟨t.heap, hTrieCopy t⟩ .reset = .ok t') ∧
      (∀ key, hTrieGet t'.heap t.root key = .error .ub) ∧ (∀ key v, hTrieSet t'.heap t.root key v = .error .ub) ∧
      ∀ (cb : σ → α → Bool → Out (σ × Bool)) s key, hTrieSearch cb s t'.heap t.root key = .error .ub := by
  obtain ⟨t, h1, -, -⟩ := trieRun_spec ops hops
  obtain ⟨k₁, ht, F, a, b, c⟩ := hRun ops t h1
  obtain ⟨k₂, hk₂⟩ := rep_clean b
  obtain ⟨h, d, e⟩ := hk₂ ht.heap (fun _ _ => rfl)
  have hac := accounted_cleaned c b.alive e
  have hroot : ht.root < ht.heap.made := lt_made c.above (b.alive _ b.root)
  have hdead : (hTrieNew h).heap.cell ht.root = none := by
    have h2 : (hTrieNew h).heap.cell ht.root = if ht.root = h.made then some {} else h.cell ht.root := rfl
    rw [h2, if_neg (by rw [e.made]; omega)]
    exact hac.dead _ id
  have hread : (hTrieNew h).heap.read ht.root = .error .ub := by rw [Heap.read, hdead]
  refine ⟨max k₁ k₂, ht, hTrieNew h, fun k hk => ⟨a k (by omega), ?_⟩, fun key => ?_, fun key v => ?_, fun cb s key => ?_⟩
  · show (cleanMemory k ht.heap ht.root >>= fun h => .ok (hTrieNew h)) = _
    rw [d k (by omega), okb]
  · unfold hTrieGet hGetNode; rw [hread]; rfl
  · unfold hTrieSet; rw [hread]; rfl
  · unfold hTrieSearch; rw [hread]; rfl

end Cppnet
