import Verif.Proofs.Trie

/-!
# C08–C12: the trie
-/

namespace Cppnet
open Spec
variable {α : Type}

/-- C08: after any history of `Set`/`Reset` with ASCII keys, `Search` runs the callback over
exactly the stored prefixes of the key, shortest first, with their current values, flagging only
the key itself, until the callback asks to stop.  The callback is arbitrary (any state, it may
throw). -/
theorem C08_search {σ : Type} (ops : List (TrieOp α)) (hops : AsciiOps ops) (key : Str)
    (hk : Ascii key) (cb : σ → α → Bool → Out (σ × Bool)) (s : σ) :
    ∃ t, trieRun ops = .ok t ∧
      trieSearch cb s t key = callUntilStop cb s (prefixHits (mapOf ops) key) := by
  obtain ⟨t, h1, h2, h3⟩ := trieRun_spec ops hops
  refine ⟨t, h1, ?_⟩
  rw [trieSearch_eq cb s h2 key hk]
  have : lookup t = mapOf ops := funext h3
  rw [this]

/-- The history used in the examples: keys that split nodes, an overwritten value, the empty key. -/
def demoOps : List (TrieOp Nat) :=
  [.set b!"/hello" 1, .set b!"/help" 2, .set b!"/he" 3, .set b!"" 4, .set b!"/hello/world" 5,
   .set b!"/help" 6]

theorem demoOps_ascii : AsciiOps demoOps := by
  intro k v h
  simp only [demoOps, List.mem_cons, TrieOp.set.injEq, List.not_mem_nil, or_false] at h
  rcases h with ⟨rfl, -⟩ | ⟨rfl, -⟩ | ⟨rfl, -⟩ | ⟨rfl, -⟩ | ⟨rfl, -⟩ | ⟨rfl, -⟩ <;>
    (intro c hc; revert c hc; decide)

/-- A callback that records what it is given. -/
def recordCb (s : List (Nat × Bool)) (v : Nat) (last : Bool) : Out (List (Nat × Bool) × Bool) :=
  .ok (s ++ [(v, last)], true)

example : (trieRun demoOps).bind (fun t => trieSearch recordCb [] t b!"/hello/world") =
    .ok [(4, false), (3, false), (1, false), (5, true)] := by decide +kernel

/-- C09: the value stored last for a key is the one `Get` returns, and `Check` sees the key. -/
theorem C09_get_stored (ops : List (TrieOp α)) (hops : AsciiOps ops) (k : Str) (v : α)
    (hk : Ascii k) (h : mapOf ops k = some v) :
    ∃ t, trieRun ops = .ok t ∧ trieGet t k = .ok (some v) ∧ trieCheck t k = .ok true := by
  obtain ⟨t, h1, h2, h3⟩ := trieRun_spec ops hops
  have hget : trieGet t k = .ok (some v) := by
    by_cases hk0 : k = []
    · subst hk0
      rw [← h3, lookup_nil h2] at h
      simp [trieGet, h]
    · rw [trieGet_iff h2 k hk0 hk]
      refine ⟨k, ⟨List.prefix_refl _, by rw [h3, h]; rfl, fun q hq _ => hq⟩, by rw [h3, h]⟩
  exact ⟨t, h1, hget, by simp [trieCheck, hget, bind, Except.bind]⟩

example : mapOf demoOps b!"/help" = some 6 := by decide +kernel
example : (trieRun demoOps).bind (fun t => trieGet t b!"/help") = .ok (some 6) := by decide +kernel

/-- C10 as stated is false: after `Set("hello", …)` alone, `Get("hel")` returns that value and
`Check("hel")` is true, although "hel" was never stored. -/
theorem C10_get_absent_refuted :
    mapOf [TrieOp.set b!"hello" (7 : Nat)] b!"hel" = none ∧
    (trieRun [TrieOp.set b!"hello" (7 : Nat)]).bind (fun t => trieGet t b!"hel") = .ok (some 7) ∧
    (trieRun [TrieOp.set b!"hello" (7 : Nat)]).bind (fun t => trieCheck t b!"hel") = .ok true := by
  decide +kernel

/-- C10, exactly what `Get` returns for a non-empty key: the value of the least stored extension of
the key, if there is a stored key that starts with it and that all such keys continue. -/
theorem C10_get_exact_partial (ops : List (TrieOp α)) (hops : AsciiOps ops) (k : Str)
    (hk : Ascii k) (hne : k ≠ []) :
    ∃ t, trieRun ops = .ok t ∧ (∃ r, trieGet t k = .ok r) ∧
      ∀ v, trieGet t k = .ok (some v) ↔
        ∃ p, LeastExtension (mapOf ops) k p ∧ mapOf ops p = some v := by
  obtain ⟨t, h1, h2, h3⟩ := trieRun_spec ops hops
  have : lookup t = mapOf ops := funext h3
  exact ⟨t, h1, trieGet_total k hk, fun v => by rw [trieGet_iff h2 k hne hk, this]⟩

/-- C10, the case in which the property holds: if no stored key extends `k` (other than `k`
itself), `Get` and `Check` answer exactly for `k`. -/
theorem C10_get_absent_partial (ops : List (TrieOp α)) (hops : AsciiOps ops) (k : Str)
    (hk : Ascii k) (h : k = [] ∨ ∀ q, k <+: q → q ≠ k → mapOf ops q = none) :
    ∃ t, trieRun ops = .ok t ∧ trieGet t k = .ok (mapOf ops k) ∧
      trieCheck t k = .ok (mapOf ops k).isSome := by
  obtain ⟨t, h1, h2, h3⟩ := trieRun_spec ops hops
  have hget : trieGet t k = .ok (mapOf ops k) := by
    by_cases hk0 : k = []
    · subst hk0; rw [← h3, lookup_nil h2]; rfl
    · obtain ⟨r, hr⟩ := trieGet_total (root := t) k hk
      rw [hr]
      congr 1
      cases r with
      | some v =>
        rw [trieGet_iff h2 k hk0 hk] at hr
        obtain ⟨p, ⟨hp, hs, _⟩, hv⟩ := hr
        rw [h3] at hv hs
        by_cases hpk : p = k
        · rw [← hpk, hv]
        · rcases h with h | h
          · exact absurd h hk0
          · rw [h p hp hpk] at hv; cases hv
      | none =>
        cases hm : mapOf ops k with
        | none => rfl
        | some v =>
          have := (trieGet_iff h2 k hk0 hk v).2
            ⟨k, ⟨List.prefix_refl _, by rw [h3, hm]; rfl, fun q hq _ => hq⟩, by rw [h3, hm]⟩
          rw [hr] at this; cases this
  exact ⟨t, h1, hget, by simp [trieCheck, hget, bind, Except.bind]⟩

example : (trieRun demoOps).bind (fun t => trieGet t b!"/x") = .ok none ∧
    (trieRun demoOps).bind (fun t => trieGet t b!"/hel") = .ok none ∧
    (trieRun demoOps).bind (fun t => trieGet t b!"/hello/wo") = .ok (some 5) := by decide +kernel

/-- C11, the part that holds: with ASCII keys no operation faults or diverges (the callback's own
faults aside). -/
theorem C11_ascii_safe_partial (ops : List (TrieOp α)) (hops : AsciiOps ops) (k : Str) (hk : Ascii k) :
    ∃ t, trieRun ops = .ok t ∧ (∃ r, trieGet t k = .ok r) ∧ (∃ b, trieCheck t k = .ok b) ∧
      (∀ v, ∃ t', trieSet t k v = .ok t') ∧
      ∀ (σ : Type) (f : σ → α → Bool → σ × Bool) (s : σ),
        ∃ s', trieSearch (fun s v l => .ok (f s v l)) s t k = .ok s' := by
  obtain ⟨t, h1, h2, h3⟩ := trieRun_spec ops hops
  obtain ⟨r, hr⟩ := trieGet_total (root := t) k hk
  refine ⟨t, h1, ⟨r, hr⟩, ⟨r.isSome, by simp only [trieCheck, hr, bind, Except.bind]⟩, ?_, ?_⟩
  · intro v
    obtain ⟨t', h, _⟩ := trieSet_spec v t h2 k hk
    exact ⟨t', h⟩
  · intro σ f s
    rw [trieSearch_eq _ s h2 k hk]
    generalize prefixHits (lookup t) k = l
    induction l generalizing s with
    | nil => exact ⟨s, rfl⟩
    | cons x l ih =>
      obtain ⟨v, b⟩ := x
      simp only [callUntilStop, bind, Except.bind]
      cases (f s v b).2 with
      | true => exact ih _
      | false => exact ⟨_, rfl⟩

/-- C11 as stated is false: a key whose first byte is ≥ 0x80 makes `Set` and `Get` (on any trie) and
`Search` (on any trie without a value at the root) index out of bounds. -/
theorem C11_non_ascii_refuted (t : TNode α) (c : Byte) (cs : Str) (hc : 128 ≤ c) :
    (∀ v, trieSet t (c :: cs) v = .error .ub) ∧ trieGet t (c :: cs) = .error .ub ∧
    (t.val = none → ∀ (σ : Type) (cb : σ → α → Bool → Out (σ × Bool)) (s : σ),
      trieSearch cb s t (c :: cs) = .error .ub) := by
  have hslot : t.slot c = .error .ub := by
    have : ¬ c < 128 := by
      intro h; exact absurd (UInt8.lt_of_lt_of_le h hc) (UInt8.lt_irrefl _)
    simp [TNode.slot, this]
  refine ⟨?_, ?_, ?_⟩
  · intro v; simp [trieSet, hslot, bind, Except.bind]
  · simp [trieGet, hslot, bind, Except.bind]
  · intro hv σ cb s; simp [trieSearch, hv, hslot, bind, Except.bind]

/-- C11: a non-ASCII byte further inside the key also reaches the out-of-bounds access. -/
theorem C11_non_ascii_inner_refuted :
    (trieRun [TrieOp.set b!"/a" (1 : Nat)]).bind (fun t => trieSearch recordCb [] t [47, 97, 200]) =
      .error .ub := by decide +kernel

example : (trieRun demoOps).bind (fun t => trieGet t [200]) = .error .ub := by decide +kernel

open TNode in
theorem setGo_fork_high (w : α) (v : Option α) (nx : Byte → Option (TNode α)) (c : Byte) (cs : Str) (hc : 128 ≤ c) (key : Str) :
    ∀ (rest : Str) (pos : Nat), key.drop pos = rest ++ c :: cs → 0 < pos + rest.length → setGo w (mk key v nx) pos rest = .error .ub := by
  have hn : ¬ c < 128 := fun h => UInt8.lt_irrefl _ (UInt8.lt_of_lt_of_le h hc)
  intro rest
  induction rest with
  | nil =>
    intro pos h hp
    have hl : pos < key.length := by
      have := congrArg List.length h
      simp at this; omega
    have hg : key[pos]? = some c := by
      have := congrArg List.head? h
      simpa [List.head?_drop] using this
    have h1 : pos ≠ key.length := by omega
    have h2 : ¬ (pos ≤ 0 ∨ pos ≥ key.length) := by simp at hp; omega
    have hf : forkNode (mk key v nx) pos = .error .ub := by
      unfold forkNode
      rw [if_neg h2]
      simp only [hg, setSlot, if_neg hn]
    rw [setGo, if_pos h1, hf]
    rfl
  | cons d rest ih =>
    intro pos h hp
    have hl : pos < key.length := by
      have := congrArg List.length h
      simp at this; omega
    have hg : key[pos]? = some d := by
      have := congrArg List.head? h
      simpa [List.head?_drop] using this
    rw [setGo, if_pos ⟨hl, hg⟩]
    refine ih (pos + 1) ?_ (by omega)
    have := congrArg List.tail h
    simpa [List.tail_drop] using this

open TNode in
/-- C11 as stated is false also of keys that start with an ASCII byte, as every route does: a key with a byte ≥ 0x80 inside is stored,
and then the insertion of the part before that byte writes out of bounds. -/
theorem C11_fork_refuted (a : Byte) (p : Str) (c : Byte) (cs : Str) (v w : α) (ha : a < 128) (hc : 128 ≤ c) :
    ∃ t, trieSet TNode.empty (a :: p ++ c :: cs) v = .ok t ∧ trieGet t (a :: p ++ c :: cs) = .ok (some v) ∧
      trieSet t (a :: p) w = .error .ub := by
  have get : ∀ (key : Str) (nx : Byte → Option (TNode α)) (rest : Str) (pos : Nat), key.drop pos = rest →
      getGo (mk key (some v) nx) pos rest = .ok (some v) := by
    intro key nx rest
    induction rest with
    | nil => intro pos _; rfl
    | cons d rest ih =>
      intro pos h
      have hl : pos < key.length := by
        have := congrArg List.length h
        simp at this; omega
      have hg : key[pos]? = some d := by
        have := congrArg List.head? h
        simpa [List.head?_drop] using this
      have : key.drop (pos + 1) = rest := by
        have := congrArg List.tail h
        simpa [List.tail_drop] using this
      rw [getGo, if_pos hl, if_pos hg, ih _ this]
  refine ⟨mk [] none fun x => if x = a then some (mk (a :: p ++ c :: cs) (some v) fun _ => none) else none, ?_, ?_, ?_⟩
  · simp [trieSet, TNode.empty, slot, setSlot, ha, bind, Except.bind]
  · have := get (a :: p ++ c :: cs) (fun _ => none) (a :: p ++ c :: cs) 0 rfl
    simp [trieGet, slot, ha, bind, Except.bind] at this ⊢
    exact this
  · have := setGo_fork_high w (some v) (fun _ => none) c cs hc (a :: p ++ c :: cs) (a :: p) 0 rfl (by simp)
    simp only [trieSet, slot, ha, if_true, bind, Except.bind]
    simp only [List.cons_append] at this ⊢
    rw [if_neg (by simp), this]

/- "/é" and then "/". -/
example : (trieRun [TrieOp.set [47, 195, 169] (1 : Nat)]).bind (fun t => (trieSet t b!"/" 2).map fun _ => ()) = .error .ub ∧
    (47 : Byte) < 128 ∧ (128 : Byte) ≤ 195 := by decide +kernel

/-- C12: histories with the same effect cannot be told apart, whatever the order of insertion. -/
theorem C12_order_independent {σ : Type} (ops ops' : List (TrieOp α)) (h1 : AsciiOps ops)
    (h2 : AsciiOps ops') (heq : mapOf ops = mapOf ops') :
    ∃ t t', trieRun ops = .ok t ∧ trieRun ops' = .ok t' ∧ ∀ k, Ascii k →
      trieGet t k = trieGet t' k ∧ trieCheck t k = trieCheck t' k ∧
      ∀ (cb : σ → α → Bool → Out (σ × Bool)) (s : σ),
        trieSearch cb s t k = trieSearch cb s t' k := by
  obtain ⟨t, a1, a2, a3⟩ := trieRun_spec ops h1
  obtain ⟨t', b1, b2, b3⟩ := trieRun_spec ops' h2
  have e : lookup t = lookup t' := by rw [funext a3, funext b3, heq]
  refine ⟨t, t', a1, b1, fun k hk => ?_⟩
  have hget : trieGet t k = trieGet t' k := by
    by_cases hk0 : k = []
    · subst hk0
      have := congrFun e []
      rw [lookup_nil a2, lookup_nil b2] at this
      simp [trieGet, this]
    · obtain ⟨r, hr⟩ := trieGet_total (root := t) k hk
      obtain ⟨r', hr'⟩ := trieGet_total (root := t') k hk
      have key : ∀ v, r = some v ↔ r' = some v := by
        intro v
        have x := trieGet_iff a2 k hk0 hk v
        have y := trieGet_iff b2 k hk0 hk v
        rw [hr] at x; rw [hr'] at y; rw [e] at x
        simp only [Except.ok.injEq] at x y
        rw [x, y]
      rw [hr, hr']
      congr 1
      cases r with
      | some v => exact ((key v).1 rfl).symm
      | none =>
        cases r' with
        | none => rfl
        | some v => exact absurd ((key v).2 rfl) (by simp)
  refine ⟨hget, by simp [trieCheck, hget], fun cb s => ?_⟩
  rw [trieSearch_eq cb s a2 k hk, trieSearch_eq cb s b2 k hk, e]

/-- C12: `Reset` makes the trie equal to a new one. -/
theorem C12_reset (ops : List (TrieOp α)) (h : AsciiOps ops) :
    trieRun (ops ++ [.reset]) = trieRun [] := by
  obtain ⟨t, a1, _⟩ := trieRun_spec ops h
  simp only [trieRun] at a1 ⊢
  rw [foldlM_append_singleton, a1]
  rfl

example : mapOf [TrieOp.set b!"ab" (1 : Nat), .set b!"a" 2] = mapOf [TrieOp.set b!"a" 2, .set b!"ab" 1] := by
  funext k
  simp only [mapOf, List.foldl, mapStep]
  by_cases h1 : k = [97, 98]
  · subst h1; decide
  · by_cases h2 : k = [97]
    · subst h2; decide
    · simp [h1, h2]

end Cppnet
