import Verif.Proofs.TrieMemory
import Verif.Props.Trie
import Verif.Props.TrieHeap

/-!
# C194: a trie when memory runs out
-/

namespace Cppnet
open Spec TNode
variable {α : Type}

theorem trieRunMem_spec : ∀ (hist : List (TrieOp α × Mem)) (t : TNode α) (m : Str → Option α), AsciiOps (hist.map (·.1)) →
    (∀ x ∈ hist, x.2.texts = none) → FairRoot t → (∀ k, lookup t k = m k) →
    ∃ t' done, trieRunMem t hist = .ok (t', done) ∧ FairRoot t' ∧ (∀ k, lookup t' k = (done.foldl mapStep m) k) ∧
      done.Sublist (hist.map (·.1)) ∧ ((∀ x ∈ hist, x.2.objects = none) → done = hist.map (·.1))
  | [], t, m, _, _, hf, hm => ⟨t, [], rfl, hf, hm, List.Sublist.refl _, fun _ => rfl⟩
  | (.set k v, mem) :: hist, t, m, ha, ht, hf, hm => by
    obtain ⟨t1, r, e1, e2, e3, e4⟩ := trieSetMem_spec v t hf k (ha k v (by simp)) mem (ht (.set k v, mem) (by simp))
    have ha' : AsciiOps (hist.map (·.1)) := fun k v h => ha k v (by simp only [List.map_cons, List.mem_cons]; exact .inr h)
    have ht' : ∀ x ∈ hist, x.2.texts = none := fun x hx => ht x (List.mem_cons_of_mem _ hx)
    simp only [trieRunMem, e1, bind, Except.bind]
    cases r with
    | none =>
      obtain ⟨t', done, d1, d2, d3, d4, d5⟩ := trieRunMem_spec hist t1 m ha' ht' e2 (fun k' => by rw [e4]; simp [hm])
      refine ⟨t', done, by simp [d1], d2, d3, d4.cons _, fun h => ?_⟩
      have := e3.2 (h (.set k v, mem) (by simp))
      cases this
    | some mem' =>
      obtain ⟨t', done, d1, d2, d3, d4, d5⟩ := trieRunMem_spec hist t1 (mapStep m (.set k v)) ha' ht' e2
        (fun k' => by rw [e4]; simp [hm, mapStep])
      exact ⟨t', .set k v :: done, by simp [d1], d2, d3, d4.cons_cons _,
        fun h => by rw [d5 fun x hx => h x (List.mem_cons_of_mem _ hx)]; rfl⟩
  | (.reset, mem) :: hist, t, m, ha, ht, hf, hm => by
    obtain ⟨t', done, d1, d2, d3, d4, d5⟩ := trieRunMem_spec hist TNode.empty (fun _ => none)
      (fun k v h => ha k v (by simp only [List.map_cons, List.mem_cons]; exact .inr h))
      (fun x hx => ht x (List.mem_cons_of_mem _ hx)) fairRoot_empty lookup_empty
    simp only [trieRunMem, d1, bind, Except.bind]
    exact ⟨t', .reset :: done, rfl, d2, d3, d4.cons_cons _,
      fun h => by rw [d5 fun x hx => h x (List.mem_cons_of_mem _ hx)]; rfl⟩

/-! ### C194 -/

/-- **C194**, if it is never a text that cannot be made (no key is longer than what fits into a `std::string` itself): whatever calls
of a history run out of memory, at whatever node or value, the trie holds exactly what the calls that have returned have stored.  `Search`
finds that and nothing else, and `Get` and `Check` find every stored key; and a call with enough memory returns.  (Missing: texts, see
`C194_lost_refuted` and `C194_missed_refuted`; a `Reset` that runs out of memory, see `C194_reset_refuted`.) -/
theorem C194_kept_partial {σ : Type} (hist : List (TrieOp α × Mem)) (hops : AsciiOps (hist.map (·.1)))
    (ht : ∀ x ∈ hist, x.2.texts = none) :
    ∃ t done, trieRunMem TNode.empty hist = .ok (t, done) ∧ done.Sublist (hist.map (·.1)) ∧
      (∀ (cb : σ → α → Bool → Out (σ × Bool)) (s : σ) (key : Str), Ascii key →
        trieSearch cb s t key = callUntilStop cb s (prefixHits (mapOf done) key)) ∧
      (∀ k v, Ascii k → mapOf done k = some v → trieGet t k = .ok (some v) ∧ trieCheck t k = .ok true) ∧
      ((∀ x ∈ hist, x.2.objects = none) → done = hist.map (·.1)) := by
  obtain ⟨t, done, h1, h2, h3, h4, h5⟩ := trieRunMem_spec hist TNode.empty (fun _ => none) hops ht fairRoot_empty lookup_empty
  have hl : lookup t = mapOf done := funext h3
  refine ⟨t, done, h1, h4, ?_, ?_, h5⟩
  · intro cb s key hk
    rw [trieSearch_fair cb s h2 key hk, hl]
  · intro k v hk hv
    have := trieGet_stored h2 k hk v (by rw [hl]; exact hv)
    exact ⟨this, by simp [trieCheck, this, bind, Except.bind]⟩

/-- **C194** (the call itself), under the same condition: a `Set` that throws has changed nothing that `Search` could find, and every
stored key is still there. -/
theorem C194_throws_partial {σ : Type} (hist : List (TrieOp α × Mem)) (hops : AsciiOps (hist.map (·.1)))
    (ht : ∀ x ∈ hist, x.2.texts = none) (t t' : TNode α) (done : List (TrieOp α)) (hr : trieRunMem TNode.empty hist = .ok (t, done))
    (k : Str) (hk : Ascii k) (v : α) (m : Mem) (hm : m.texts = none) (hs : trieSetMem t k v m = .ok (t', none)) :
    (∀ (cb : σ → α → Bool → Out (σ × Bool)) (s : σ) (key : Str), Ascii key → trieSearch cb s t' key = trieSearch cb s t key) ∧
    (∀ key x, Ascii key → mapOf done key = some x → trieGet t' key = .ok (some x)) := by
  obtain ⟨t0, done0, h1, h2, h3, -, -⟩ := trieRunMem_spec hist TNode.empty (fun _ => none) hops ht fairRoot_empty lookup_empty
  cases hr.symm.trans h1
  obtain ⟨t1, r, e1, e2, e3, e4⟩ := trieSetMem_spec v t h2 k hk m hm
  cases hs.symm.trans e1
  have hl : lookup t' = lookup t := funext fun k' => by rw [e4]; simp
  refine ⟨?_, ?_⟩
  · intro cb s key hkey
    rw [trieSearch_fair cb s e2 key hkey, trieSearch_fair cb s h2 key hkey, hl]
  · intro key x hkey hx
    exact trieGet_stored e2 key hkey x (by rw [hl]; exact (h3 key).trans hx)

/-- Hypotheses of both met: of four calls the second and the third throw, one after it has split a node, one after it has hung a new
node to the tree; the fourth stores the key of the second. -/
example : let hist : List (TrieOp Nat × Mem) := [(.set b!"/abc" 1, {}), (.set b!"/ab" 2, { objects := some 2 }),
      (.set b!"/abd" 3, { objects := some 2 }), (.set b!"/ab" 4, {})]
    AsciiOps (hist.map (·.1)) ∧ (∀ x ∈ hist, x.2.texts = none) := by
  refine ⟨?_, by decide⟩
  intro k v h
  simp only [List.map_cons, List.map_nil, List.mem_cons, TrieOp.set.injEq, List.not_mem_nil, or_false] at h
  rcases h with ⟨rfl, -⟩ | ⟨rfl, -⟩ | ⟨rfl, -⟩ | ⟨rfl, -⟩ <;> (intro c hc; revert c hc; decide)

example : ((trieRunMem TNode.empty [(.set b!"/abc" 1, {}), (.set b!"/ab" 2, { objects := some 2 }),
      (.set b!"/abd" 3, { objects := some 2 }), (.set b!"/ab" (4 : Nat), {})]).bind fun r => do
    .ok (r.2.length, ← trieSearch recordCb [] r.1 b!"/abc", ← trieSearch recordCb [] r.1 b!"/abd")) =
    .ok (2, [(4, false), (1, true)], [(4, false)]) := by decide +kernel

theorem setGoMem_walk (v : α) (now : TNode α) (m : Mem) (s : Str) : ∀ (p : Str) (pos : Nat) (r : Str), now.key.drop pos = p ++ r →
    setGoMem v now pos (p ++ s) m = setGoMem v now (pos + p.length) s m
  | [], pos, r, _ => by simp
  | c :: p, pos, r, h => by
    have hl : pos < now.key.length := by
      have := congrArg List.length h
      simp at this
      omega
    have hc : now.key[pos]? = some c := by
      have : (now.key.drop pos)[0]? = some c := by rw [h]; rfl
      simpa using this
    have hd : now.key.drop (pos + 1) = p ++ r := by
      have : (now.key.drop pos).drop 1 = p ++ r := by rw [h]; rfl
      simpa [List.drop_drop, Nat.add_comm] using this
    have := setGoMem_walk v now m s p (pos + 1) r hd
    show setGoMem v now pos (c :: (p ++ s)) m = _
    conv => lhs; unfold setGoMem
    rw [if_pos ⟨hl, hc⟩, this]
    congr 1
    simp; omega

theorem getGo_self (n : TNode α) : ∀ (r : Str) (pos : Nat), n.key.drop pos = r → getGo n pos r = .ok n.val
  | [], _, _ => rfl
  | c :: r, pos, h => by
    have hl : pos < n.key.length := by
      have := congrArg List.length h
      simp at this
      omega
    have hc : n.key[pos]? = some c := by
      have : (n.key.drop pos)[0]? = some c := by rw [h]; rfl
      simpa using this
    have hd : n.key.drop (pos + 1) = r := by
      have : (n.key.drop pos).drop 1 = r := by rw [h]; rfl
      simpa [List.drop_drop, Nat.add_comm] using this
    simp only [getGo, hl, if_true, hc]
    exact getGo_self n r (pos + 1) hd

/-- **C194**, refuted for texts: two keys part after their first bytes `p` (more than a `std::string` holds itself, 15 bytes in the
GNU library).  If the `Set` of the second cannot make the text `p` (the second text of its fork), it throws, and the first key is lost. -/
theorem C194_lost_refuted (c : Byte) (p xs ys : Str) (x y : Byte) (v w : α) (hxy : x ≠ y) (_hp : 15 < (c :: p).length)
    (hx : Ascii (c :: p ++ x :: xs)) (_hy : Ascii (c :: p ++ y :: ys)) :
    ∃ t t', trieRun [.set (c :: p ++ x :: xs) v] = .ok t ∧ trieGet t (c :: p ++ x :: xs) = .ok (some v) ∧
      trieSetMem t (c :: p ++ y :: ys) w { texts := some 1 } = .ok (t', none) ∧
      trieGet t' (c :: p ++ x :: xs) = .ok none ∧ trieCheck t' (c :: p ++ x :: xs) = .ok false := by
  have hc : c < 128 := hx c (by simp)
  have hx' : x < 128 := hx x (by simp)
  generalize hL : (TNode.mk (c :: p ++ x :: xs) (some v) fun _ => none : TNode α) = L
  have hk : L.key = c :: p ++ x :: xs := by rw [← hL]
  have hn : L.next = fun _ => none := by rw [← hL]
  have hv : L.val = some v := by rw [← hL]
  have hne : L.key ≠ [] := by rw [hk]; simp
  have hpos : L.key[(c :: p).length]? = some x := by rw [hk, List.getElem?_append_right (Nat.le_refl _)]; simp
  have hlen : (c :: p).length < L.key.length := by rw [hk]; simp
  have hdrop : L.key.drop (c :: p).length = x :: xs := by rw [hk, List.drop_left]
  refine ⟨TNode.mk [] none fun z => if z = c then some L else none, TNode.mk [] none fun z => if z = c then
    some (TNode.mk L.key none fun z => if z = x then some (TNode.mk (x :: xs) (some v) fun _ => none) else none) else
      (if z = c then some L else none), ?_, ?_, ?_, ?_⟩
  · simp [trieRun, List.foldlM, trieStep, trieSet, slot_ok hc, setSlot_ok hc, bind, Except.bind, TNode.empty, ← hL, pure, Except.pure]
  · have := getGo_self L (c :: p ++ x :: xs) 0 (by rw [hk]; rfl)
    simp only [trieGet, List.cons_append, slot_ok hc, bind, Except.bind, if_true]
    rw [hv] at this
    exact this
  · have hw := setGoMem_walk w L { texts := some 1 } (y :: ys) (c :: p) 0 (x :: xs) (by rw [hk]; rfl)
    have hf : setGoMem w L (c :: p).length (y :: ys) { texts := some 1 } =
        .ok (TNode.mk L.key none (fun z => if z = x then some (TNode.mk (x :: xs) (some v) fun _ => none) else none), none) := by
      unfold setGoMem
      rw [if_neg (fun h => hxy (by rw [hpos] at h; exact Option.some.inj h.2))]
      simp only [forkIf, hlen, decide_true, if_true, forkMem]
      rw [if_neg (by simp at hlen ⊢; omega), hpos]
      rw [hdrop]
      simp [Mem.object, Mem.text, setSlot_ok hx', bind, Except.bind, hn, hv]
    rw [Nat.zero_add, hf] at hw
    simp only [trieSetMem, Mem.object, List.cons_append, slot_ok hc, bind, Except.bind, if_true, hne, if_false, setSlot_ok hc] at hw ⊢
    rw [hw]
  · have hg := getGo_self (TNode.mk L.key none fun z => if z = x then some (TNode.mk (x :: xs) (some v) fun _ => none) else none)
      (c :: p ++ x :: xs) 0 (by rw [hk]; rfl)
    have h1 : ∀ t : TNode α, t.next c = some (TNode.mk L.key none fun z => if z = x then some (TNode.mk (x :: xs) (some v) fun _ => none) else none) →
        trieGet t (c :: p ++ x :: xs) = .ok none := by
      intro t ht
      simp only [trieGet, List.cons_append, slot_ok hc, bind, Except.bind, ht]
      exact hg
    have h2 := h1 (TNode.mk [] none fun z => if z = c then
      some (TNode.mk L.key none fun z => if z = x then some (TNode.mk (x :: xs) (some v) fun _ => none) else none) else
      (if z = c then some L else none)) (by simp)
    exact ⟨h2, by simp only [trieCheck, h2, bind, Except.bind]; rfl⟩

/-- Hypotheses met. -/
example : 15 < (b!"/static/assets/img/").length ∧ Ascii b!"/static/assets/img/a.png" ∧ Ascii b!"/static/assets/img/b.png" := by decide

/-- **C194**, refuted for texts: there is a key `a`.  If the `Set` of a key `a b r` cannot make the text of the new node, it throws;
the `Set` of `a b` afterwards returns, `Get` finds its value, but `Search` does not: it only finds that of `a`. -/
theorem C194_missed_refuted (a b : Byte) (r : Str) (v u w : α) (_hr : 15 < (b :: r).length) (ha : Ascii (a :: b :: r)) :
    ∃ t t' t'' m, trieRun [.set [a] v] = .ok t ∧ trieSetMem t (a :: b :: r) u { texts := some 0 } = .ok (t', none) ∧
      trieSetMem t' [a, b] w {} = .ok (t'', some m) ∧ trieGet t'' [a, b] = .ok (some w) ∧
      trieSearch (σ := List (α × Bool)) (fun s x last => .ok (s ++ [(x, last)], true)) [] t'' [a, b] = .ok [(v, false)] := by
  have ha' : a < 128 := ha a (by simp)
  have hb : b < 128 := ha b (by simp)
  let A : Option (TNode α) → TNode α := fun o => TNode.mk [a] (some v) fun z => if z = b then o else none
  let T : TNode α → TNode α := fun x => TNode.mk [] none fun z => if z = a then some x else none
  have hA : ∀ o y, (A o).setSlot b y = .ok (A (some y)) := by
    intro o y
    rw [setSlot_ok hb]
    congr 2
    funext z
    by_cases h : z = b <;> simp [A, h]
  have hT : ∀ x y, (T x).setSlot a y = .ok (T y) := by
    intro x y
    rw [setSlot_ok ha']
    congr 2
    funext z
    by_cases h : z = a <;> simp [T, h]
  have hs : ∀ x, (T x).slot a = .ok (some x) := by intro x; rw [slot_ok ha']; simp [T]
  have hs' : ∀ o, (A o).slot b = .ok o := by intro o; rw [slot_ok hb]; simp [A]
  have hk : ∀ o, (A o).key = [a] := fun _ => rfl
  refine ⟨T (A none), T (A (some TNode.empty)), T (A (some (TNode.mk [] (some w) fun _ => none))), {}, ?_, ?_, ?_, ?_, ?_⟩
  · simp [trieRun, List.foldlM, trieStep, trieSet, slot_ok ha', setSlot_ok ha', bind, Except.bind, TNode.empty, pure, Except.pure, A, T]
  · simp [trieSetMem, Mem.object, Mem.text, setGoMem, forkIf, hs, hs', hA, hT, hk, bind, Except.bind]
  · simp [trieSetMem, Mem.object, setGoMem, forkIf, forkMem, setVal, hs, hs', hA, hT, hk, bind, Except.bind, TNode.empty]
  · simp [trieGet, getGo, hs, hs', hk, bind, Except.bind]
  · simp [trieSearch, searchGo, hs, hs', bind, Except.bind, T, A]

/-- **C194**, refuted for `Reset`: whatever the history, if there is no memory for the new root, `Reset` throws after it has deleted
everything, and the trie still refers to the root it had: its destructor, and every `Get` before, uses memory that is freed. -/
theorem C194_reset_refuted (ops : List (TrieOp α)) (hops : AsciiOps ops) :
    ∃ k₀ t t', (∀ k, k₀ ≤ k → hTrieRun k ops = .ok t ∧ hResetMem k t = .ok t' ∧ hTrieDestroy k t' = .error .ub) ∧
      ∀ key, hTrieGet t'.heap t'.root key = .error .ub := by
  obtain ⟨t, h1, -, -⟩ := trieRun_spec ops hops
  obtain ⟨k₁, ht, F, a, b, c⟩ := hRun ops t h1
  obtain ⟨k₂, hk₂⟩ := rep_clean b
  obtain ⟨h, d, e⟩ := hk₂ ht.heap (fun _ _ => rfl)
  have hac := accounted_cleaned c b.alive e
  have hdead : h.read ht.root = .error .ub := by
    unfold Heap.read
    rw [hac.dead ht.root id]
  refine ⟨max (max k₁ k₂) 1, ht, { ht with heap := h }, fun k hk => ⟨a k (by omega), ?_, ?_⟩, ?_⟩
  · simp only [hResetMem, d k (by omega), bind, Except.bind]
  · obtain ⟨j, rfl⟩ : ∃ j, k = j + 1 := ⟨k - 1, by omega⟩
    have hs : slots = 0 :: slots.tail := by decide +kernel
    show cleanMemory (j + 1) h ht.root = _
    unfold cleanMemory
    rw [hs]
    simp only [cleanSlots, hdead, bind, Except.bind]
  · intro key
    simp only [hTrieGet, hGetNode, hdead, bind, Except.bind]

/-- Hypotheses met. -/
example : AsciiOps ([.set b!"/a" 1, .reset, .set b!"/b" 2] : List (TrieOp Nat)) := by
  intro k v h
  simp only [List.mem_cons, TrieOp.set.injEq, List.not_mem_nil, or_false, reduceCtorEq, false_or] at h
  rcases h with ⟨rfl, -⟩ | ⟨rfl, -⟩ <;> (intro c hc; revert c hc; decide)

end Cppnet
