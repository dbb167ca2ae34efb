import Verif.Proofs.Trie
import Verif.Spec.Server

/-!
# Lemmas about registration and dispatch
-/

namespace Cppnet
open Spec
variable {σ : Type}

/-- Perform a list of registrations on a new server. -/
def registerAll (regs : List (Reg σ)) : Out (Server σ) :=
  regs.foldlM (fun s r => registerHandler r.route r.path r.entry s) {}

structure SrvInv (s : Server σ) (m : Str → Option (List (Entry σ))) : Prop where
  good : GoodRoot s.trie
  lt : ∀ k r, lookup s.trie k = some r → r < s.store.length
  inj : ∀ k k' r, lookup s.trie k = some r → lookup s.trie k' = some r → k = k'
  abs : ∀ k, (lookup s.trie k).map (fun r => s.store.getD r []) = m k

theorem srvInv_empty : SrvInv ({} : Server σ) fun _ => none :=
  ⟨goodRoot_empty, by simp [lookup_empty], by simp [lookup_empty], by simp [lookup_empty]⟩

theorem SrvInv.isSome {s : Server σ} {m} (h : SrvInv s m) (k : Str) :
    (m k).isSome = (lookup s.trie k).isSome := by
  rw [← h.abs]; simp

theorem SrvInv.least {s : Server σ} {m} (h : SrvInv s m) (k p : Str) :
    LeastExtension (lookup s.trie) k p ↔ LeastExtension m k p := by
  unfold LeastExtension
  simp only [h.isSome]

/-- What `trieGet` finds. -/
theorem SrvInv.get {s : Server σ} {m} (h : SrvInv s m) (path : Str) (ha : Ascii path) :
    (∃ r p, trieGet s.trie path = .ok (some r) ∧ Finds m path p ∧ lookup s.trie p = some r) ∨
    (trieGet s.trie path = .ok none ∧ ¬ ∃ p, Finds m path p) := by
  obtain ⟨g, hg⟩ := trieGet_total (root := s.trie) path ha
  by_cases hp : path = []
  · subst hp
    have hv : trieGet s.trie [] = .ok s.trie.val := rfl
    rw [hv, ← lookup_nil h.good]
    cases hl : lookup s.trie [] with
    | none =>
      right
      refine ⟨rfl, ?_⟩
      rintro ⟨p, ⟨_, _, h1⟩ | ⟨h1, _⟩⟩
      · rw [h.isSome, hl] at h1; simp at h1
      · exact h1 rfl
    | some r =>
      left
      exact ⟨r, [], rfl, Or.inl ⟨rfl, rfl, by rw [h.isSome, hl]; rfl⟩, hl⟩
  · cases g with
    | none =>
      right
      refine ⟨hg, ?_⟩
      rintro ⟨p, ⟨h1, _⟩ | ⟨_, h1⟩⟩
      · exact hp h1
      · rw [← h.least] at h1
        obtain ⟨r, hr⟩ := Option.isSome_iff_exists.1 h1.2.1
        have := (trieGet_iff h.good path hp ha r).2 ⟨p, h1, hr⟩
        rw [hg] at this
        cases this
    | some r =>
      left
      obtain ⟨p, h1, h2⟩ := (trieGet_iff h.good path hp ha r).1 hg
      exact ⟨r, p, hg, Or.inr ⟨hp, (h.least _ _).1 h1⟩, h2⟩

theorem getD_modify (l : List (List (Entry σ))) (i j : Nat) (e : Entry σ) (hj : j < l.length) :
    (l.modify i (· ++ [e])).getD j [] = if j = i then l.getD j [] ++ [e] else l.getD j [] := by
  simp only [List.getD_eq_getElem?_getD, List.getElem?_modify]
  by_cases h : i = j
  · subst h; simp [hj]
  · have : ¬ j = i := fun e => h e.symm
    simp [h, this, hj]

theorem register_spec {s : Server σ} {m} (h : SrvInv s m) (r : Reg σ) (h1 : Ascii r.route) (h2 : Ascii r.path) :
    ∃ s' m', registerHandler r.route r.path r.entry s = .ok s' ∧ TableStep m r m' ∧ SrvInv s' m' := by
  rcases h.get r.path h2 with ⟨ref, p, hg, hf, hl⟩ | ⟨hg, hn⟩
  · refine ⟨{ s with store := s.store.modify ref (· ++ [r.entry]) }, _, by simp only [registerHandler, hg, bind, Except.bind], Or.inl ⟨p, hf, rfl⟩, h.good, ?_, h.inj, ?_⟩
    · intro k r' hk
      simpa using h.lt k r' hk
    · intro k
      rw [← h.abs]
      cases hk : lookup s.trie k with
      | none => simp
      | some r' =>
        have hlt := h.lt k r' hk
        simp only [Option.map_some, getD_modify _ _ _ _ hlt]
        by_cases hkp : k = p
        · subst hkp
          rw [hk] at hl
          injection hl with hl
          simp [hl]
        · have : r' ≠ ref := by
            rintro rfl
            exact hkp (h.inj _ _ _ hk hl)
          simp [hkp, this]
  · have ha : Ascii (r.route ++ r.path) := by
      intro c hc
      rcases List.mem_append.1 hc with hc | hc
      · exact h1 c hc
      · exact h2 c hc
    obtain ⟨t, e1, e2, e3⟩ := trieSet_spec s.store.length s.trie h.good _ ha
    refine ⟨{ trie := t, store := s.store ++ [[r.entry]] }, _, by simp only [registerHandler, hg, e1, bind, Except.bind], Or.inr ⟨hn, rfl⟩, e2, ?_, ?_, ?_⟩
    · intro k r' hk
      rw [e3] at hk
      split at hk
      · injection hk with hk; simp [← hk]
      · have := h.lt k r' hk; simp; omega
    · intro k k' r' hk hk'
      rw [e3] at hk hk'
      split at hk <;> split at hk'
      · rename_i a b; rw [a, b]
      · injection hk with hk; have := h.lt _ _ hk'; omega
      · injection hk' with hk'; have := h.lt _ _ hk; omega
      · exact h.inj _ _ _ hk hk'
    · intro k
      rw [e3]
      simp only [Reg.full]
      by_cases hkf : k = r.route ++ r.path
      · simp [hkf]
      · rw [← h.abs]
        cases hk : lookup s.trie k with
        | none => simp [hkf]
        | some r' =>
          have := h.lt k r' hk
          simp [List.getElem?_append_left this, hkf]

theorem registerAll_spec (regs : List (Reg σ)) (h : AsciiRegs regs) :
    ∃ s m, registerAll regs = .ok s ∧ TableRun regs m ∧ SrvInv s m := by
  obtain ⟨n, hn⟩ : ∃ n, regs.length = n := ⟨_, rfl⟩
  induction n generalizing regs with
  | zero =>
    have : regs = [] := List.eq_nil_of_length_eq_zero hn
    subst this
    exact ⟨{}, _, rfl, .nil, srvInv_empty⟩
  | succ n ih =>
    have hne : regs ≠ [] := by intro e; simp [e] at hn
    obtain ⟨front, last, rfl⟩ : ∃ front last, regs = front ++ [last] :=
      ⟨regs.dropLast, regs.getLast hne, (List.dropLast_concat_getLast hne).symm⟩
    obtain ⟨s, m, h1, h2, h3⟩ := ih front (fun r hr => h r (by simp [hr])) (by simpa using hn)
    obtain ⟨s', m', e1, e2, e3⟩ := register_spec h3 last (h last (by simp)).1 (h last (by simp)).2
    refine ⟨s', m', ?_, .snoc h2 e2, e3⟩
    unfold registerAll at h1 ⊢
    rw [foldlM_append_singleton, h1]
    exact e1

/-! ### Dispatch -/

theorem filtersMatch_eq (req : HttpReq) (fs : List Filter) : filtersMatch req fs = accepts req fs := by
  induction fs with
  | nil => rfl
  | cons f fs ih =>
    simp only [filtersMatch, accepts, ih]

/-- `runNode` continued with more handlers is `runInOrder`. -/
theorem runNode_eq (isEnd : Bool) (l : List (Entry σ)) (rest : List (Entry σ)) (ctx : Ctx σ) :
    (do
      let r ← runNode isEnd l ctx
      if r.2 then runInOrder rest r.1 else .ok r.1) =
    runInOrder (l.filter (fun e => e.exact = true → isEnd = true) ++ rest) ctx := by
  induction l generalizing ctx with
  | nil => simp [runNode, bind, Except.bind]
  | cons e es ih =>
    by_cases hskip : (!isEnd && e.exact) = true
    · have hf : ¬ (e.exact = true → isEnd = true) := by
        cases isEnd <;> cases he : e.exact <;> simp [he] at hskip ⊢
      rw [List.filter_cons_of_neg (by simpa using hf)]
      simp only [runNode, hskip, if_true]
      exact ih ctx
    · have hf : (e.exact = true → isEnd = true) := by
        cases isEnd <;> cases he : e.exact <;> simp [he] at hskip ⊢
      rw [List.filter_cons_of_pos (by simp only [decide_eq_true_eq]; exact hf)]
      simp only [runNode, hskip, List.cons_append, runInOrder, filtersMatch_eq]
      simp only [bind, Except.bind] at ih ⊢
      cases accepts ctx.req e.filters with
      | error x => rfl
      | ok b =>
        cases b with
        | false => simpa using ih ctx
        | true =>
          cases hcb : e.callback with
          | none => simpa using ih ctx
          | some f =>
            simp only [if_true]
            cases f ctx with
            | error x => rfl
            | ok c =>
              simp only
              cases hr : c.running with
              | false => simp [hr]
              | true => simpa using ih c

theorem dispatch_loop (store : List (List (Entry σ))) (hits : List (Nat × Bool)) (ctx : Ctx σ) :
    callUntilStop (fun ctx ref isEnd => runNode isEnd (store.getD ref []) ctx) ctx hits =
    runInOrder (hits.flatMap fun h => (store.getD h.1 []).filter fun e => e.exact = true → h.2 = true) ctx := by
  induction hits generalizing ctx with
  | nil => rfl
  | cons h hs ih =>
    obtain ⟨ref, isEnd⟩ := h
    rw [List.flatMap_cons, ← runNode_eq]
    simp only [callUntilStop, ih]

theorem flatMap_filterMap {α β γ : Type} (f : α → Option β) (g : β → List γ) (l : List α) :
    (l.filterMap f).flatMap g = l.flatMap fun a => ((f a).map g).getD [] := by
  induction l with
  | nil => rfl
  | cons a l ih =>
    rw [List.filterMap_cons, List.flatMap_cons]
    cases f a with
    | none => simpa using ih
    | some b => simp [ih]

theorem dispatch_table {s : Server σ} {m} (h : SrvInv s m) (path : Str) (ha : Ascii path) (ctx : Ctx σ) :
    dispatch s path ctx = runInOrder (tableCandidates m path) ctx := by
  unfold dispatch
  rw [trieSearch_eq _ _ h.good _ ha, dispatch_loop]
  congr 1
  unfold prefixHits tableCandidates
  rw [flatMap_filterMap]
  congr 1
  funext i
  rw [← h.abs]
  cases lookup s.trie (path.take i) with
  | none => rfl
  | some r => simp [Bool.beq_eq_decide_eq]

end Cppnet
