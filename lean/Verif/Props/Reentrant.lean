import Verif.Spec.Reentrant
import Verif.Props.TrieHeap

/-! # C166: a handler may register further handlers -/

namespace Cppnet
open Spec
variable {σ : Type}

theorem except_bind_ok {β γ : Type} {x : Out β} {f : β → Out γ} {c : γ} (h : (x >>= f) = .ok c) : ∃ b, x = .ok b ∧ f b = .ok c := by
  cases x with
  | error e => cases h
  | ok b => exact ⟨b, rfl, h⟩

/-- Vectors never shrink. -/
theorem rRegister_mono {s s' : RSrv} {r : Reg} (h : rRegister s r = .ok s') (ref : Nat) :
    (s.store.getD ref []).length ≤ (s'.store.getD ref []).length := by
  unfold rRegister at h
  obtain ⟨o, h1, h2⟩ := except_bind_ok h
  cases o with
  | none =>
    obtain ⟨hp, h3, h4⟩ := except_bind_ok h2
    cases h4
    simp only [List.getD_eq_getElem?_getD]
    by_cases hlt : ref < s.store.length
    · rw [List.getElem?_append_left hlt]; exact Nat.le_refl _
    · rw [List.getElem?_eq_none (by omega)]; simp
  | some v =>
    cases h2
    simp only [List.getD_eq_getElem?_getD, List.getElem?_modify]
    cases s.store[ref]? with
    | none => simp
    | some es => by_cases hv : v = ref <;> simp [hv]

theorem rRegisters_mono : ∀ {regs : List Reg} {s s' : RSrv}, regs.foldlM rRegister s = .ok s' → ∀ ref : Nat,
    (s.store.getD ref []).length ≤ (s'.store.getD ref []).length
  | [], s, s', h, ref => by cases h; exact Nat.le_refl _
  | r :: regs, s, s', h, ref => by
    rw [List.foldlM_cons] at h
    obtain ⟨s1, h1, h2⟩ := except_bind_ok h
    exact Nat.le_trans (rRegister_mono h1 ref) (rRegisters_mono h2 ref)

theorem foldlM_append_ok {β γ : Type} (f : γ → β → Out γ) (l1 l2 : List β) (s s' : γ) (h : (l1 ++ l2).foldlM f s = .ok s') :
    ∃ s1, l1.foldlM f s = .ok s1 ∧ l2.foldlM f s1 = .ok s' := by
  rw [List.foldlM_append] at h
  exact except_bind_ok h

/-- What has been noted stays noted. -/
theorem noteNode_grows (prog : Prog σ) (isEnd : Bool) : ∀ (es : List REntry) {ctx : Ctx σ} {noted : List Reg} {ctx' noted' b},
    noteNode prog isEnd es (ctx, noted) = .ok ((ctx', noted'), b) → ∃ new, noted' = noted ++ new
  | [], ctx, noted, ctx', noted', b, h => by cases h; exact ⟨[], by simp⟩
  | e :: es, ctx, noted, ctx', noted', b, h => by
    simp only [noteNode] at h
    split at h
    · exact noteNode_grows prog isEnd es h
    · obtain ⟨m, _, h⟩ := except_bind_ok h
      cases m with
      | false => exact noteNode_grows prog isEnd es h
      | true =>
        obtain ⟨⟨ctx1, regs⟩, _, h⟩ := except_bind_ok h
        simp only at h
        split at h
        · cases h; exact ⟨regs, rfl⟩
        · obtain ⟨new, rfl⟩ := noteNode_grows prog isEnd es h
          exact ⟨regs ++ new, by simp⟩

/-- The loop of one node, if its vector does not grow. -/
theorem runNodeR_of_note (prog : Prog σ) (isEnd : Bool) (ref n : Nat) : ∀ (es : List REntry) {s s' : RSrv} {ctx ctx' : Ctx σ}
    {noted new : List Reg} {b}, noteNode prog isEnd es (ctx, noted) = .ok ((ctx', noted ++ new), b) → new.foldlM rRegister s = .ok s' →
    (s.store.getD ref []).length = n → (s'.store.getD ref []).length = n → runNodeR prog isEnd ref n es (s, ctx) = .ok ((s', ctx'), b)
  | [], s, s', ctx, ctx', noted, new, b, h, hf, h1, h2 => by
    simp only [noteNode, Except.ok.injEq, Prod.mk.injEq] at h
    obtain ⟨⟨rfl, e⟩, rfl⟩ := h
    have : new = [] := by simpa using e
    subst this
    cases hf
    rfl
  | e :: es, s, s', ctx, ctx', noted, new, b, h, hf, h1, h2 => by
    simp only [noteNode] at h
    simp only [runNodeR]
    split at h
    · rename_i hc
      rw [if_pos hc]
      exact runNodeR_of_note prog isEnd ref n es h hf h1 h2
    · rename_i hc
      rw [if_neg hc]
      obtain ⟨m, hm, h⟩ := except_bind_ok h
      rw [hm, okb]
      cases m with
      | false => exact runNodeR_of_note prog isEnd ref n es h hf h1 h2
      | true =>
        obtain ⟨⟨ctx1, regs⟩, hp, h⟩ := except_bind_ok h
        simp only [if_true]
        rw [hp, okb]
        simp only at h ⊢
        split at h
        · rename_i hr
          simp only [Except.ok.injEq, Prod.mk.injEq, List.append_cancel_left_eq] at h
          obtain ⟨⟨rfl, rfl⟩, rfl⟩ := h
          rw [hf, okb, if_pos hr]
        · rename_i hr
          obtain ⟨new', e⟩ := noteNode_grows prog isEnd es h
          have e' : new = regs ++ new' := by
            rw [List.append_assoc, List.append_cancel_left_eq] at e
            exact e
          subst e'
          obtain ⟨s1, g1, g2⟩ := foldlM_append_ok _ _ _ _ _ hf
          rw [g1, okb, if_neg hr]
          have m1 := rRegisters_mono g1 ref
          have m2 := rRegisters_mono g2 ref
          have hl : (s1.store.getD ref []).length = n := by omega
          rw [if_neg (fun hne => hne hl)]
          refine runNodeR_of_note (noted := noted ++ regs) (new := new') prog isEnd ref n es ?_ g2 hl h2
          rw [List.append_assoc]
          exact h

/-- Handlers that are not for exact paths, and so those before the end of the path, note nothing. -/
theorem noteNode_quiet (prog : Prog σ) : ∀ (es : List REntry) {ctx : Ctx σ} {noted : List Reg} {ctx' noted' b},
    (∀ e ∈ es, e.exact = false → ∀ ctx ctx' regs, prog e.cb ctx = .ok (ctx', regs) → regs = []) →
    noteNode prog false es (ctx, noted) = .ok ((ctx', noted'), b) → noted' = noted
  | [], ctx, noted, ctx', noted', b, _, h => by cases h; rfl
  | e :: es, ctx, noted, ctx', noted', b, hx, h => by
    have hx' : ∀ e ∈ es, e.exact = false → ∀ ctx ctx' regs, prog e.cb ctx = .ok (ctx', regs) → regs = [] :=
      fun e he => hx e (List.mem_cons_of_mem _ he)
    simp only [noteNode] at h
    split at h
    · exact noteNode_quiet prog es hx' h
    · rename_i hc
      obtain ⟨m, _, h⟩ := except_bind_ok h
      cases m with
      | false => exact noteNode_quiet prog es hx' h
      | true =>
        obtain ⟨⟨ctx1, regs⟩, hp, h⟩ := except_bind_ok h
        have hq : regs = [] := hx e (by simp) (by simpa using hc) _ _ _ hp
        subst hq
        simp only [List.append_nil] at h
        split at h
        · cases h; rfl
        · exact noteNode_quiet prog es hx' h

/-- What a vector of the store satisfies. -/
theorem exactOnly_get {prog : Prog σ} {store : List (List REntry)} (hx : ExactOnly prog store) (ref : Nat) :
    ∀ e ∈ store.getD ref [], e.exact = false → ∀ ctx ctx' regs, prog e.cb ctx = .ok (ctx', regs) → regs = [] := by
  intro e he
  rw [List.getD_eq_getElem?_getD] at he
  cases hv : store[ref]? with
  | none => rw [hv] at he; simp at he
  | some v => rw [hv] at he; exact hx v (List.mem_of_getElem? hv) e he

theorem rSearchGo_of_note (prog : Prog σ) (s s' : RSrv) (hx : ExactOnly prog s.store)
    (hkeep : ∀ ref, (s'.store.getD ref []).length = (s.store.getD ref []).length ∨ s.store.getD ref [] = []) :
    ∀ (key : Str) (now pos : Nat) (ctx ctx' : Ctx σ) (regs : List Reg),
    hSearchGo (fun st ref isEnd => noteNode prog isEnd (s.store.getD ref []) st) s.heap (ctx, []) now pos key = .ok (ctx', regs) →
    regs.foldlM rRegister s = .ok s' → rSearchGo prog (s, ctx) now pos key = .ok (s', ctx')
  | [], now, pos, ctx, ctx', regs, h, hf => by
    simp only [hSearchGo] at h
    simp only [rSearchGo]
    obtain ⟨n, hn, h⟩ := except_bind_ok h
    rw [hn, okb]
    cases hv : n.val with
    | none =>
      simp only [hv] at h ⊢
      cases h; cases hf; rfl
    | some v =>
      simp only [hv] at h ⊢
      split at h
      · rename_i hp
        rw [if_pos hp]
        obtain ⟨⟨⟨c1, r1⟩, b⟩, h1, h2⟩ := except_bind_ok h
        cases h2
        have : visitR prog true v (s, ctx) = .ok ((s', ctx'), b) := by
          rcases hkeep v with hk | hk
          · exact runNodeR_of_note (noted := []) prog true v _ _ h1 hf rfl hk
          · simp only [visitR, hk] at h1 ⊢
            simp only [noteNode, Except.ok.injEq, Prod.mk.injEq] at h1
            obtain ⟨⟨rfl, rfl⟩, rfl⟩ := h1
            cases hf
            rfl
        rw [this]
        rfl
      · rename_i hp
        rw [if_neg hp]
        cases h; cases hf; rfl
  | c :: cs, now, pos, ctx, ctx', regs, h, hf => by
    simp only [hSearchGo] at h
    simp only [rSearchGo]
    obtain ⟨n, hn, h⟩ := except_bind_ok h
    rw [hn, okb]
    split at h
    · rename_i hp
      rw [if_pos hp]
      split at h
      · rename_i hc
        rw [if_pos hc]
        exact rSearchGo_of_note prog s s' hx hkeep cs now (pos + 1) ctx ctx' regs h hf
      · rename_i hc
        rw [if_neg hc]
        cases h; cases hf; rfl
    · rename_i hp
      rw [if_neg hp]
      have tail : ∀ (c1 : Ctx σ) (b : Bool), (if (!b) = true then Except.ok (c1, []) else n.slot c >>= fun o => match o with
            | none => Except.ok (c1, [])
            | some q => hSearchGo (fun st ref isEnd => noteNode prog isEnd (s.store.getD ref []) st) s.heap (c1, []) q 1 cs) =
            (Except.ok (ctx', regs) : Out (Ctx σ × List Reg)) →
          (if (!b) = true then Except.ok (s, c1) else s.heap.read now >>= fun n => n.slot c >>= fun o => match o with
            | none => Except.ok (s, c1)
            | some q => rSearchGo prog (s, c1) q 1 cs) = (Except.ok (s', ctx') : Out (RSrv × Ctx σ)) := by
        intro c1 b h
        split at h
        · rename_i hb
          rw [if_pos hb]
          cases h; cases hf; rfl
        · rename_i hb
          rw [if_neg hb, hn, okb]
          obtain ⟨o, ho, h⟩ := except_bind_ok h
          rw [ho, okb]
          cases o with
          | none => cases h; cases hf; rfl
          | some q => exact rSearchGo_of_note prog s s' hx hkeep cs q 1 c1 ctx' regs h hf
      cases hv : n.val with
      | none =>
        simp only [hv] at h ⊢
        exact tail ctx true h
      | some v =>
        simp only [hv] at h ⊢
        obtain ⟨⟨⟨c1, r1⟩, b⟩, h1, h⟩ := except_bind_ok h
        have hq := noteNode_quiet prog _ (exactOnly_get hx v) h1
        subst hq
        have hvis : visitR prog false v (s, ctx) = .ok ((s, c1), b) :=
          runNodeR_of_note (noted := []) (new := []) prog false v _ _ (by simpa using h1) rfl rfl rfl
        rw [hvis, okb]
        exact tail c1 b h

/-- A registration on pointers is the registration on values. -/
theorem rRegister_holds {s : RSrv} {t t' : Table} {r : Reg} (hs : Holds s t) (h : addTo t r = .ok t') :
    ∃ s', rRegister s r = .ok s' ∧ Holds s' t' := by
  obtain ⟨⟨F, hrep⟩, hab, hst⟩ := hs
  unfold addTo at h
  unfold rRegister
  rw [rep_get r.path hrep]
  obtain ⟨o, ho, h⟩ := except_bind_ok h
  rw [ho, okb]
  cases o with
  | none =>
    obtain ⟨t1, ht, h⟩ := except_bind_ok h
    cases h
    obtain ⟨h', F', e, hr', hg⟩ := rep_set s.store.length _ hrep hab (by rw [hst]; exact ht)
    refine ⟨_, by simp only [e]; rfl, ⟨F', hr'⟩, hg.above, by simp [hst]⟩
  | some ref =>
    cases h
    exact ⟨_, rfl, ⟨F, hrep⟩, hab, by simp [hst]⟩

theorem rRegisters_holds : ∀ {regs : List Reg} {s : RSrv} {t t' : Table}, Holds s t → regs.foldlM addTo t = .ok t' →
    ∃ s', regs.foldlM rRegister s = .ok s' ∧ Holds s' t'
  | [], s, t, t', hs, h => by cases h; exact ⟨s, rfl, hs⟩
  | r :: regs, s, t, t', hs, h => by
    rw [List.foldlM_cons] at h ⊢
    obtain ⟨t1, h1, h2⟩ := except_bind_ok h
    obtain ⟨s1, e1, hs1⟩ := rRegister_holds hs h1
    rw [e1, okb]
    exact rRegisters_holds hs1 h2

/-- The server that was just constructed. -/
theorem holds_new : Holds rNew (TNode.empty, []) := by
  have ha : Accounted ({} : Heap Nat) (fun _ => False) := ⟨fun _ _ => rfl, .nil, fun x => by simp, fun _ _ => rfl⟩
  obtain ⟨h1, h2⟩ := accounted_new ha
  exact ⟨⟨_, h1⟩, h2.above, rfl⟩

theorem rDispatch_of_note (prog : Prog σ) (s s' : RSrv) (t : Table) (path : Str) (ctx ctx' : Ctx σ) (regs : List Reg)
    (ht : Holds s t) (hx : ExactOnly prog s.store) (h1 : serveThenRegister prog t path ctx = .ok (ctx', regs))
    (h2 : regs.foldlM rRegister s = .ok s') (h3 : NoneGrew s.store s'.store) :
    rDispatch prog s path ctx = .ok (s', ctx') := by
  obtain ⟨⟨F, hrep⟩, -, hst⟩ := ht
  unfold serveThenRegister at h1
  rw [← hst] at h1
  rw [← rep_search _ _ path hrep] at h1
  have hkeep : ∀ ref, (s'.store.getD ref []).length = (s.store.getD ref []).length ∨ s.store.getD ref [] = [] := by
    intro ref
    by_cases hlt : ref < s.store.length
    · left
      simp only [List.getD_eq_getElem?_getD, h3 ref hlt]
    · right
      rw [List.getD_eq_getElem?_getD, List.getElem?_eq_none (by omega)]
      rfl
  unfold hTrieSearch at h1
  unfold rDispatch
  obtain ⟨n, hn, h⟩ := except_bind_ok h1
  rw [hn, okb]
  cases path with
  | nil =>
    cases hv : n.val with
    | none =>
      simp only [hv] at h ⊢
      cases h; cases h2; rfl
    | some v =>
      simp only [hv, List.isEmpty_nil] at h ⊢
      obtain ⟨⟨⟨c1, r1⟩, b⟩, g1, h⟩ := except_bind_ok h
      have hh : c1 = ctx' ∧ r1 = regs := by
        simp only at h
        split at h <;> cases h <;> exact ⟨rfl, rfl⟩
      obtain ⟨rfl, rfl⟩ := hh
      have hvis : visitR prog true v (s, ctx) = .ok ((s', c1), b) := by
        rcases hkeep v with hk | hk
        · exact runNodeR_of_note (noted := []) prog true v _ _ g1 h2 rfl hk
        · simp only [visitR, hk] at g1 ⊢
          simp only [noteNode, Except.ok.injEq, Prod.mk.injEq] at g1
          obtain ⟨⟨rfl, rfl⟩, rfl⟩ := g1
          cases h2
          rfl
      rw [hvis, okb]
      cases b <;> rfl
  | cons c cs =>
    have tail : ∀ (c1 : Ctx σ) (b : Bool), (if (!b) = true then Except.ok (c1, []) else n.slot c >>= fun o => match o with
          | none => Except.ok (c1, [])
          | some q => hSearchGo (fun st ref isEnd => noteNode prog isEnd (s.store.getD ref []) st) s.heap (c1, []) q 0 (c :: cs)) =
          (Except.ok (ctx', regs) : Out (Ctx σ × List Reg)) →
        (if (!b) = true then Except.ok (s, c1) else s.heap.read s.root >>= fun n => n.slot c >>= fun o => match o with
          | none => Except.ok (s, c1)
          | some q => rSearchGo prog (s, c1) q 0 (c :: cs)) = (Except.ok (s', ctx') : Out (RSrv × Ctx σ)) := by
      intro c1 b h
      split at h
      · rename_i hb
        rw [if_pos hb]
        cases h; cases h2; rfl
      · rename_i hb
        rw [if_neg hb, hn, okb]
        obtain ⟨o, ho, h⟩ := except_bind_ok h
        rw [ho, okb]
        cases o with
        | none => cases h; cases h2; rfl
        | some q => exact rSearchGo_of_note prog s s' hx hkeep (c :: cs) q 0 c1 ctx' regs h h2
    cases hv : n.val with
    | none =>
      simp only [hv] at h ⊢
      exact tail ctx true h
    | some v =>
      simp only [hv, List.isEmpty_cons] at h ⊢
      obtain ⟨⟨⟨c1, r1⟩, b⟩, h1, h⟩ := except_bind_ok h
      have hq := noteNode_quiet prog _ (exactOnly_get hx v) h1
      subst hq
      have hvis : visitR prog false v (s, ctx) = .ok ((s, c1), b) :=
        runNodeR_of_note (noted := []) (new := []) prog false v _ _ (by simpa using h1) rfl rfl rfl
      rw [hvis, okb]
      exact tail c1 b h

/-- C166, what holds: if only handlers for exact paths register others, and only for paths without handlers, a request is served as if
everything that was registered had been registered after it: the routing table does not change under the handlers, nothing undefined
happens, and the table afterwards is the one that the registrations give in their order.
Missing: registrations by handlers for prefixes, and for paths that have handlers, see the refutations. -/
theorem C166_exact_partial (prog : Prog σ) (s : RSrv) (t t' : Table) (path : Str) (ctx ctx' : Ctx σ) (regs : List Reg)
    (ht : Holds s t) (hx : ExactOnly prog t.2) (hserve : serveThenRegister prog t path ctx = .ok (ctx', regs))
    (hreg : regs.foldlM addTo t = .ok t') (hnew : NoneGrew t.2 t'.2) :
    ∃ s', rDispatch prog s path ctx = .ok (s', ctx') ∧ Holds s' t' := by
  obtain ⟨s', h2, hs'⟩ := rRegisters_holds ht hreg
  refine ⟨s', rDispatch_of_note prog s s' t path ctx ctx' regs ht (by rw [ht.2.2]; exact hx) hserve h2 ?_, hs'⟩
  rw [ht.2.2, hs'.2.2]
  exact hnew

theorem searchGo_natural {σ τ α : Type} (f : σ → τ) (cb : σ → α → Bool → Out (σ × Bool)) (cb' : τ → α → Bool → Out (τ × Bool))
    (hcb : ∀ s v e, cb' (f s) v e = (cb s v e).map fun r => (f r.1, r.2)) : ∀ (key : Str) (s : σ) (t : TNode α) (pos : Nat),
    searchGo cb' (f s) t pos key = (searchGo cb s t pos key).map f
  | [], s, t, pos => by
    simp only [searchGo]
    cases t.val with
    | none => rfl
    | some v =>
      simp only
      split
      · rw [hcb]
        cases cb s v true <;> rfl
      · rfl
  | c :: cs, s, t, pos => by
    simp only [searchGo]
    split
    · split
      · exact searchGo_natural f cb cb' hcb cs s t (pos + 1)
      · rfl
    · have tail : ∀ (r : σ × Bool), (if (!r.2) = true then Except.ok (f r.1) else t.slot c >>= fun o => match o with
            | none => Except.ok (f r.1)
            | some ch => searchGo cb' (f r.1) ch 1 cs : Out τ) =
          (if (!r.2) = true then Except.ok r.1 else t.slot c >>= fun o => match o with
            | none => Except.ok r.1
            | some ch => searchGo cb r.1 ch 1 cs : Out σ).map f := by
        intro r
        split
        · rfl
        · cases t.slot c with
          | error e => rfl
          | ok o =>
            cases o with
            | none => rfl
            | some ch => exact searchGo_natural f cb cb' hcb cs r.1 ch 1
      cases t.val with
      | none => exact tail (s, true)
      | some v =>
        simp only
        rw [hcb]
        cases h : cb s v false with
        | error e => rfl
        | ok r => exact tail r

theorem trieSearch_natural {σ τ α : Type} (f : σ → τ) (cb : σ → α → Bool → Out (σ × Bool)) (cb' : τ → α → Bool → Out (τ × Bool))
    (hcb : ∀ s v e, cb' (f s) v e = (cb s v e).map fun r => (f r.1, r.2)) (s : σ) (t : TNode α) (key : Str) :
    trieSearch cb' (f s) t key = (trieSearch cb s t key).map f := by
  cases key with
  | nil =>
    simp only [trieSearch]
    cases t.val with
    | none => rfl
    | some v =>
      simp only
      rw [hcb]
      cases h : cb s v [].isEmpty with
      | error e => rfl
      | ok r => cases r with | mk a b => cases b <;> rfl
  | cons c cs =>
    simp only [trieSearch]
    have tail : ∀ (r : σ × Bool), (if (!r.2) = true then Except.ok (f r.1) else t.slot c >>= fun o => match o with
          | none => Except.ok (f r.1)
          | some ch => searchGo cb' (f r.1) ch 0 (c :: cs) : Out τ) =
        (if (!r.2) = true then Except.ok r.1 else t.slot c >>= fun o => match o with
          | none => Except.ok r.1
          | some ch => searchGo cb r.1 ch 0 (c :: cs) : Out σ).map f := by
      intro r
      split
      · rfl
      · cases t.slot c with
        | error e => rfl
        | ok o =>
          cases o with
          | none => rfl
          | some ch => exact searchGo_natural f cb cb' hcb (c :: cs) r.1 ch 0
    cases t.val with
    | none => exact tail (s, true)
    | some v =>
      simp only
      rw [hcb]
      cases h : cb s v (c :: cs).isEmpty with
      | error e => rfl
      | ok r => exact tail r

theorem noteNode_none (prog : Prog σ) (hq : ∀ cb ctx ctx' regs, prog cb ctx = .ok (ctx', regs) → regs = []) (isEnd : Bool) :
    ∀ (es : List REntry) (ctx : Ctx σ), noteNode prog isEnd es (ctx, []) =
      (runNode isEnd (es.map fun e => { callback := some fun ctx => (prog e.cb ctx).map Prod.fst, exact := e.exact, filters := e.filters })
        ctx).map fun r => ((r.1, []), r.2)
  | [], ctx => rfl
  | e :: es, ctx => by
    have ih := noteNode_none prog hq isEnd es
    simp only [noteNode, List.map_cons, runNode]
    split
    · exact ih ctx
    · cases filtersMatch ctx.req e.filters with
      | error x => rfl
      | ok m =>
        cases m with
        | false => exact ih ctx
        | true =>
          rw [okb, okb]
          simp only [if_true]
          cases hp : prog e.cb ctx with
          | error x => rfl
          | ok r =>
            obtain ⟨ctx1, regs⟩ := r
            have hz := hq _ _ _ _ hp
            subst hz
            rw [okb]
            simp only [Except.map, List.append_nil]
            rw [okb]
            split
            · rfl
            · exact ih ctx1

/-- C166, handlers that register nothing: the server with pointers serves every request as the model of the other properties says, and
its routing table stays as it is. -/
theorem C166_none_partial (prog : Prog σ) (hq : ∀ cb ctx ctx' regs, prog cb ctx = .ok (ctx', regs) → regs = []) (s : RSrv) (t : Table)
    (ht : Holds s t) (path : Str) (ctx ctx' : Ctx σ) (h : dispatch (asServer prog t) path ctx = .ok ctx') :
    rDispatch prog s path ctx = .ok (s, ctx') := by
  refine rDispatch_of_note prog s s t path ctx ctx' [] ht (fun _ _ e _ _ => hq e.cb) ?_ rfl fun _ _ => rfl
  unfold serveThenRegister
  rw [trieSearch_natural (fun ctx : Ctx σ => (ctx, ([] : List Reg)))
    (fun ctx ref isEnd => runNode isEnd ((asServer prog t).store.getD ref []) ctx)]
  · rw [show trieSearch _ ctx t.1 path = Except.ok ctx' from h]
    rfl
  · intro c v e
    rw [noteNode_none prog hq]
    simp only [asServer, List.getD_eq_getElem?_getD, List.getElem?_map]
    cases t.2[v]? <;> rfl

/-! ### Programs -/

/-- Registrations one after another, before the server runs. -/
def afterRegs (regs : List Reg) : Out RSrv := regs.foldlM rRegister rNew

/-- Handler 0 registers handler 1 for `r`; every handler adds its number and one to a sum. -/
def growing (r : Reg) : Prog Nat := fun cb ctx =>
  .ok ({ ctx with user := ctx.user + cb + 1 }, if cb = 0 then [r] else [])

/-- C166 fails: a handler that registers another handler for the path it serves, and does not stop the server, goes on in a loop
over a vector that has grown: undefined behaviour. -/
theorem C166_same_path_refuted (ctx : Ctx Nat) (hr : ctx.running = true) :
    (afterRegs [{ path := b!"/a", cb := 0 }] >>= fun s =>
      rDispatch (growing { path := b!"/a", cb := 1 }) s b!"/a" ctx) = .error .ub := by
  cases ctx
  cases hr
  rfl

/-- C166 fails: a handler for the prefix `/abc` that registers a handler for `/other` splits the node the search stands at, and the
search does not find the way on: the handler of `/abc/x` does not see the request (the sum is 1), although it was registered before,
and sees it (1 + 3) if the handler for the prefix registers nothing, or registers for a path that does not split the node.  If it
registers for `/ab`, the lookup finds the vector of `/abc`, which then grows under the loop: undefined behaviour. -/
theorem C166_middleware_refuted (ctx : Ctx Nat) (hr : ctx.running = true) (hu : ctx.user = 0) :
    (let regs := [{ path := b!"/abc", cb := 0, exact := false }, { path := b!"/abc/x", cb := 2 }]
     let sum (prog : Prog Nat) := (afterRegs regs >>= fun s => rDispatch prog s b!"/abc/x" ctx).map (·.2.user)
     sum (growing { path := b!"/other", cb := 1 }) = .ok 1 ∧
     sum (growing { path := b!"/abc/y", cb := 1 }) = .ok 4 ∧
     sum (fun cb ctx => .ok ({ ctx with user := ctx.user + cb + 1 }, [])) = .ok 4 ∧
     sum (growing { path := b!"/ab", cb := 1 }) = .error .ub) := by
  cases ctx
  cases hr
  cases hu
  refine ⟨rfl, rfl, rfl, rfl⟩

/-! ### A handler that does what C166 allows -/

/-- A handler for the prefix `/`, and one for `/admin` that registers `/new`. -/
def adminTable : Table :=
  match [{ path := b!"/", cb := 5, exact := false }, { path := b!"/admin", cb := 0 }].foldlM addTo (TNode.empty, []) with
  | .ok t => t
  | .error _ => (TNode.empty, [])

/-- The table afterwards. -/
def adminTable' : Table :=
  match addTo adminTable { path := b!"/new", cb := 1 } with
  | .ok t => t
  | .error _ => (TNode.empty, [])

example (ctx : Ctx Nat) (hr : ctx.running = true) : ∃ s s' ctx',
    afterRegs [{ path := b!"/", cb := 5, exact := false }, { path := b!"/admin", cb := 0 }] = .ok s ∧ Holds s adminTable ∧
    rDispatch (growing { path := b!"/new", cb := 1 }) s b!"/admin" ctx = .ok (s', ctx') ∧ Holds s' adminTable' ∧
    ctx'.user = ctx.user + 7 ∧ trieGet adminTable.1 b!"/new" = .ok none ∧ trieGet adminTable'.1 b!"/new" = .ok (some 2) := by
  obtain ⟨s, h1, h2⟩ := rRegisters_holds (regs := [{ path := b!"/", cb := 5, exact := false }, { path := b!"/admin", cb := 0 }])
    (t' := adminTable) holds_new rfl
  have hx : ExactOnly (growing { path := b!"/new", cb := 1 }) adminTable.2 := by
    intro v hv e he hex c c' r hp
    have h0 : ∀ v ∈ adminTable.2, ∀ e ∈ v, e.exact = false → e.cb ≠ 0 := by decide +kernel
    simp only [growing, Except.ok.injEq, Prod.mk.injEq, if_neg (h0 v hv e he hex)] at hp
    exact hp.2.symm
  have hs : serveThenRegister (growing { path := b!"/new", cb := 1 }) adminTable b!"/admin" ctx =
      .ok ({ ctx with user := ctx.user + 7 }, [{ path := b!"/new", cb := 1 }]) := by
    cases ctx
    cases hr
    rfl
  have hn : NoneGrew adminTable.2 adminTable'.2 := by
    intro ref h
    have : ref = 0 ∨ ref = 1 := by
      have : adminTable.2.length = 2 := rfl
      omega
    rcases this with rfl | rfl <;> rfl
  obtain ⟨s', h3, h4⟩ := C166_exact_partial _ s adminTable adminTable' _ ctx _ _ h2 hx hs rfl hn
  exact ⟨s, s', _, h1, h2, h3, h4, rfl, rfl, rfl⟩

/-- A program without registrations, for `C166_none_partial`. -/
example (ctx : Ctx Nat) (hr : ctx.running = true) : ∃ s, Holds s adminTable ∧
    rDispatch (fun cb ctx => .ok ({ ctx with user := ctx.user + cb + 1 }, [])) s b!"/admin" ctx =
      .ok (s, { ctx with user := ctx.user + 7 }) := by
  obtain ⟨s, h1, h2⟩ := rRegisters_holds (regs := [{ path := b!"/", cb := 5, exact := false }, { path := b!"/admin", cb := 0 }])
    (t' := adminTable) holds_new rfl
  refine ⟨s, h2, C166_none_partial _ (fun _ _ _ _ h => by cases h; rfl) s adminTable h2 _ ctx _ ?_⟩
  cases ctx
  cases hr
  rfl

end Cppnet
