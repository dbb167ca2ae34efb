import Verif.Spec.PoolHeld
import Verif.Proofs.PoolExec

/-! # Invariants of what tasks have captured -/

namespace Cppnet
open Spec Pool
variable {α : Type}

theorem hrun_pool {calls : α → Prop} {s tr s'} (h : HRun calls s tr s') : Run s.pool tr s'.pool := by
  induction h with
  | nil => exact .nil _
  | snoc _ hl ha ih =>
    cases ha with
    | act h _ => exact .snoc ih hl h

theorem hrun_inv {calls : α → Prop} {P : HPool α → Prop}
    (hstep : ∀ s l s', s.pool.phase = .live → P s → HPool.Act calls s l s' → P s') {s tr s'} (h : HRun calls s tr s') (h0 : P s) : P s' := by
  induction h with
  | nil => exact h0
  | snoc _ hl ha ih => exact hstep _ _ _ hl ih ha

theorem hrun_cons {calls : α → Prop} {s s1 s' : HPool α} {l tr} (hl : s.pool.phase = .live) (h : HPool.Act calls s l s1)
    (h' : HRun calls s1 tr s') : HRun calls s (l :: tr) s' := by
  induction h' with
  | nil => exact HRun.snoc (.nil s) hl h
  | snoc _ hl' ha ih => exact HRun.snoc ih hl' ha

theorem drops_self (w : Option (WPc α)) : drops w w = false := by
  cases w with
  | none => rfl
  | some w => cases w <;> rfl

theorem filterMap_congr_mem {β γ : Type} {f g : β → Option γ} : ∀ {l : List β}, (∀ x ∈ l, f x = g x) → l.filterMap f = l.filterMap g
  | [], _ => rfl
  | x :: l, h => by
    rw [List.filterMap_cons, List.filterMap_cons, h x (by simp), filterMap_congr_mem (fun y hy => h y (by simp [hy]))]

theorem filterMap_none {β γ : Type} (l : List β) (f : β → Option γ) (h : ∀ x ∈ l, f x = none) : l.filterMap f = [] := by
  rw [List.filterMap_eq_nil_iff]
  exact h

/-- One worker's variable among all of them. -/
theorem filterMap_range_split (f : Nat → Option α) {i n : Nat} (h : i < n) :
    ((List.range n).filterMap f).Perm ((f i).toList ++ (List.range n).filterMap (fun j => if j = i then none else f j)) := by
  have hn : n = i + (1 + (n - i - 1)) := by omega
  have e : List.range n = List.range i ++ ([i] ++ (List.range (n - i - 1)).map (fun j => i + 1 + j)) := by
    rw [hn, List.range_add, List.range_add]
    simp [Function.comp_def, Nat.add_assoc]
  have h1 : (List.range i).filterMap (fun j => if j = i then none else f j) = (List.range i).filterMap f := by
    apply filterMap_congr_mem
    intro x hx
    have : x < i := by simpa using hx
    simp [Nat.ne_of_lt this]
  have h2 : ((List.range (n - i - 1)).map (fun j => i + 1 + j)).filterMap (fun j => if j = i then none else f j) =
      ((List.range (n - i - 1)).map (fun j => i + 1 + j)).filterMap f := by
    apply filterMap_congr_mem
    intro x hx
    obtain ⟨k, _, rfl⟩ := List.mem_map.1 hx
    have : i + 1 + k ≠ i := by omega
    simp [this]
  have h3 : [i].filterMap (fun j => if j = i then none else f j) = [] := by simp
  have h4 : [i].filterMap f = (f i).toList := by cases hf : f i <;> simp [hf]
  rw [e, List.filterMap_append, List.filterMap_append, List.filterMap_append, List.filterMap_append, h1, h2, h3, h4, List.nil_append]
  rw [← List.append_assoc, ← List.append_assoc]
  exact List.perm_append_comm.append_right _

theorem filterMap_range_single (v : Option α) {i n : Nat} (h : i < n) :
    ((List.range n).filterMap (fun j => if j = i then v else none)).Perm v.toList := by
  have := filterMap_range_split (fun j => if j = i then v else none) h
  simp only [if_true] at this
  refine this.trans ?_
  rw [filterMap_none _ (fun j => if j = i then none else if j = i then v else none)]
  · simp
  · intro x _
    by_cases hx : x = i <;> simp [hx]

/-- Where every accepted task is. -/
structure HeldInv (s : HPool α) : Prop where
  all : s.pool.phase ≠ .destroyed → s.pool.accepted.Perm (s.released ++ keptTasks s ++ s.pool.queue)
  dead : s.pool.phase = .destroyed → s.pool.accepted.Perm (s.released ++ keptTasks s)
  hand : ∀ (i : Nat) (w : WPc α) t, s.pool.workers[i]? = some w → t ∈ inHand w → s.held i = some t
  gone : ∀ i : Nat, s.pool.workers[i]? = some WPc.exited → s.held i = none
  beyond : ∀ i : Nat, s.pool.workers.length ≤ i → s.held i = none

/-- A step in which no worker takes a task or returns. -/
theorem heldInv_keep {s : HPool α} {p : Pool α} (hi : HeldInv s) (hl : s.pool.phase = .live)
    (hd : ∀ i : Nat, drops s.pool.workers[i]? p.workers[i]? = false)
    (hh : ∀ (i : Nat) (w : WPc α) t, p.workers[i]? = some w → t ∈ inHand w → ∃ w', s.pool.workers[i]? = some w' ∧ t ∈ inHand w')
    (he : ∀ i : Nat, p.workers[i]? = some WPc.exited → s.pool.workers[i]? = some WPc.exited)
    (hlen : s.pool.workers.length ≤ p.workers.length)
    (hq : p.accepted.Perm ((s.pool.accepted) ++ []) ∧ p.queue = s.pool.queue ∨
      (∃ t, p.accepted = s.pool.accepted ++ [t] ∧ p.queue = s.pool.queue ++ [t]) ∧ p.phase ≠ .destroyed) : HeldInv (s.track p) := by
  obtain ⟨h1, h2, h3, h4, h5⟩ := hi
  have hheld : (s.track p).held = s.held := by
    funext i
    simp only [HPool.track]
    split
    · rename_i t e
      obtain ⟨w', e1, e2⟩ := hh i _ t e (by simp [inHand])
      exact (h3 i w' t e1 e2).symm
    · rename_i e
      exact (h4 i (he i e)).symm
    · rfl
  have hkept : keptTasks (s.track p) = keptTasks s := by
    simp only [keptTasks, hheld]
    show (List.range p.workers.length).filterMap s.held = _
    have : p.workers.length = s.pool.workers.length + (p.workers.length - s.pool.workers.length) := by omega
    rw [this, List.range_add, List.filterMap_append, filterMap_none (List.map _ _), List.append_nil]
    intro x hx
    obtain ⟨k, _, rfl⟩ := List.mem_map.1 hx
    exact h5 _ (by omega)
  have hdrop : (List.range p.workers.length).filterMap (fun i => if drops s.pool.workers[i]? p.workers[i]? then s.held i else none) = [] :=
    filterMap_none _ _ fun x _ => by simp [hd x]
  have hlive : s.pool.phase ≠ .destroyed := by rw [hl]; decide
  have h1 := h1 hlive
  refine ⟨fun hp => ?_, fun hp => ?_, ?_, ?_, ?_⟩
  · rw [hkept]
    simp only [HPool.track] at hp ⊢
    rw [hdrop, if_neg hp]
    simp only [List.append_nil]
    rcases hq with ⟨q1, q2⟩ | ⟨⟨t, q1, q2⟩, _⟩
    · rw [q2]
      exact q1.trans (by simpa using h1)
    · rw [q1, q2]
      have := h1.append_right [t]
      simpa only [List.append_assoc] using this
  · rw [hkept]
    simp only [HPool.track] at hp ⊢
    rw [hdrop, if_pos hp]
    rcases hq with ⟨q1, q2⟩ | ⟨_, q⟩
    · refine q1.trans ?_
      simp only [List.append_nil]
      refine h1.trans ?_
      simp only [List.append_assoc]
      exact List.perm_append_comm.append_left _
    · exact absurd hp q
  · intro i w t e1 e2
    obtain ⟨w', e3, e4⟩ := hh i w t e1 e2
    rw [hheld]
    exact h3 i w' t e3 e4
  · intro i e
    rw [hheld]
    exact h4 i (he i e)
  · intro i e
    rw [hheld]
    exact h5 i (Nat.le_trans hlen e)

/-- A step in which worker `i` loses what its variable held. -/
theorem heldInv_move {s : HPool α} {p : Pool α} {i : Nat} {w' : WPc α} {v : Option α} (hi : HeldInv s) (hl : s.pool.phase = .live)
    (hlt : i < s.pool.workers.length) (hw : p.workers = s.pool.workers.set i w')
    (hd : drops s.pool.workers[i]? (some w') = true) (hph : p.phase = .live)
    (hv : v = match (some w' : Option (WPc α)) with | some (.taken t) => some t | some .exited => none | _ => s.held i)
    (hin : ∀ t ∈ inHand w', v = some t) (hex : w' = .exited → v = none)
    (hq : ∃ t', t' = v.toList ∧ s.pool.queue = t' ++ p.queue) (hacc : p.accepted = s.pool.accepted) : HeldInv (s.track p) := by
  obtain ⟨h1, h2, h3, h4, h5⟩ := hi
  have hget : ∀ j : Nat, p.workers[j]? = if j = i then some w' else s.pool.workers[j]? := by
    intro j
    rw [hw, List.getElem?_set]
    by_cases hj : j = i
    · subst hj; simp [hlt]
    · simp [Ne.symm hj, hj]
  have hlen : p.workers.length = s.pool.workers.length := by rw [hw, List.length_set]
  have hheld : (s.track p).held = fun j => if j = i then v else s.held j := by
    funext j
    simp only [HPool.track, hget j]
    by_cases hj : j = i
    · subst hj; simp only [if_pos]; exact hv.symm
    · simp only [if_neg hj]
      split
      · rename_i t e
        exact (h3 j _ t e (by simp [inHand])).symm
      · rename_i e
        exact (h4 j e).symm
      · rfl
  have hdrop : ((List.range p.workers.length).filterMap
      (fun i => if drops s.pool.workers[i]? p.workers[i]? then s.held i else none)).Perm (s.held i).toList := by
    have e : (fun j => if drops s.pool.workers[j]? p.workers[j]? then s.held j else none) = fun j => if j = i then s.held i else none := by
      funext j
      rw [hget j]
      by_cases hj : j = i
      · subst hj; simp [hd]
      · simp [hj, drops_self]
    rw [e]
    exact filterMap_range_single _ (hlen ▸ hlt)
  have hkept : (keptTasks (s.track p)).Perm (v.toList ++ (List.range s.pool.workers.length).filterMap (fun j => if j = i then none else s.held j)) := by
    simp only [keptTasks, hheld]
    show ((List.range p.workers.length).filterMap _).Perm _
    rw [hlen]
    refine (filterMap_range_split _ hlt).trans ?_
    simp only [if_true]
    apply List.Perm.of_eq
    congr 1
    apply filterMap_congr_mem
    intro x _
    by_cases hx : x = i <;> simp [hx]
  have hold : (keptTasks s).Perm ((s.held i).toList ++ (List.range s.pool.workers.length).filterMap (fun j => if j = i then none else s.held j)) :=
    filterMap_range_split _ hlt
  have hlive : s.pool.phase ≠ .destroyed := by rw [hl]; decide
  have hlive' : p.phase ≠ .destroyed := by rw [hph]; decide
  have h1 := h1 hlive
  obtain ⟨tv, rfl, hq⟩ := hq
  refine ⟨fun hp => ?_, fun hp => absurd hp hlive', ?_, ?_, ?_⟩
  · show p.accepted.Perm ((s.released ++ _ ++ if p.phase = .destroyed then s.pool.queue else []) ++ keptTasks (s.track p) ++ p.queue)
    rw [if_neg hlive', hacc, List.append_nil]
    refine h1.trans ?_
    rw [hq]
    refine List.Perm.trans ?_ (((hdrop.append_left s.released).append hkept).append_right p.queue).symm
    refine ((hold.append_left s.released).append_right _).trans ?_
    generalize (List.range s.pool.workers.length).filterMap (fun j => if j = i then none else s.held j) = r
    simp only [List.append_assoc]
    refine List.Perm.append_left _ (List.Perm.append_left _ ?_)
    rw [← List.append_assoc, ← List.append_assoc]
    exact List.perm_append_comm.append_right _
  · intro j w t e1 e2
    rw [hheld]
    change p.workers[j]? = some w at e1
    rw [hget j] at e1
    by_cases hj : j = i
    · subst hj
      simp only [if_pos, Option.some.injEq] at e1
      subst e1
      simp only [if_pos]
      exact hin t e2
    · simp only [if_neg hj] at e1 ⊢
      exact h3 j w t e1 e2
  · intro j e1
    rw [hheld]
    change p.workers[j]? = _ at e1
    rw [hget j] at e1
    by_cases hj : j = i
    · subst hj
      simp only [if_pos, Option.some.injEq] at e1
      simp only [if_pos]
      exact hex e1
    · simp only [if_neg hj] at e1 ⊢
      exact h4 j e1
  · intro j e1
    rw [hheld]
    change p.workers.length ≤ j at e1
    have : j ≠ i := by omega
    simp only [if_neg this]
    exact h5 j (by omega)

theorem lt_of_getElem?_some {β : Type} {l : List β} {i : Nat} {x : β} (h : l[i]? = some x) : i < l.length :=
  (List.getElem?_eq_some_iff.1 h).1

theorem heldInv_step {calls : α → Prop} (s : HPool α) (l) (s' : HPool α) (hl : s.pool.phase = .live) (hi : HeldInv s)
    (h : HPool.Act calls s l s') : HeldInv s' := by
  cases h with
  | @act p h hfree =>
  -- the workers stay where they are
  have same : ∀ p : Pool α, p.workers = s.pool.workers →
      (p.accepted.Perm (s.pool.accepted ++ []) ∧ p.queue = s.pool.queue ∨
        (∃ t, p.accepted = s.pool.accepted ++ [t] ∧ p.queue = s.pool.queue ++ [t]) ∧ p.phase ≠ .destroyed) → HeldInv (s.track p) := by
    intro p hw hq
    refine heldInv_keep hi hl (fun i => by rw [hw, drops_self]) (fun i w t e1 e2 => ⟨w, hw ▸ e1, e2⟩) (fun i e => hw ▸ e)
      (by rw [hw]; exact Nat.le_refl _) hq
  -- one worker goes on
  have one : ∀ (p : Pool α) (i : Nat) (w w' : WPc α), s.pool.workers[i]? = some w → p.workers = s.pool.workers.set i w' →
      drops (some w) (some w') = false → (∀ t ∈ inHand w', t ∈ inHand w) → w' ≠ .exited →
      p.accepted = s.pool.accepted → p.queue = s.pool.queue → HeldInv (s.track p) := by
    intro p i w w' hpc hw hd hh he ha hq
    have hlt := lt_of_getElem?_some hpc
    have hget : ∀ j : Nat, p.workers[j]? = if j = i then some w' else s.pool.workers[j]? := by
      intro j
      rw [hw, List.getElem?_set]
      by_cases hj : j = i
      · subst hj; simp [hlt]
      · simp [Ne.symm hj, hj]
    refine heldInv_keep hi hl (fun j => ?_) (fun j v t e1 e2 => ?_) (fun j e => ?_) (by rw [hw]; simp) (.inl ⟨by simp [ha], hq⟩)
    · rw [hget j]
      by_cases hj : j = i
      · subst hj; simpa [hpc] using hd
      · simp [hj, drops_self]
    · rw [hget j] at e1
      by_cases hj : j = i
      · subst hj
        simp only [if_pos, Option.some.injEq] at e1
        subst e1
        exact ⟨w, hpc, hh t e2⟩
      · simp only [if_neg hj] at e1
        exact ⟨v, e1, e2⟩
    · rw [hget j] at e
      by_cases hj : j = i
      · subst hj
        simp only [if_pos, Option.some.injEq] at e
        exact absurd e he
      · simpa only [if_neg hj] using e
  clear hfree
  cases h
  case addPushed a t hpc => exact same _ rfl (.inr ⟨⟨t, rfl, rfl⟩, by simp [hl]⟩)
  case addNotified a i hpc hw => exact one _ i .waiting .wake hw rfl rfl (by simp [inHand]) (by simp) rfl rfl
  case stopNotified a k hpc =>
    refine heldInv_keep hi hl (fun j => ?_) (fun j v t e1 e2 => ?_) (fun j e => ?_) (by simp) (.inl ⟨by simp, rfl⟩)
    · simp only [setPc_workers, List.getElem?_map]
      cases hw : s.pool.workers[j]? with
      | none => rfl
      | some w => cases w <;> rfl
    · simp only [setPc_workers, getElem?_notify] at e1
      obtain ⟨w', e3, rfl⟩ := e1
      exact ⟨w', e3, by cases w' <;> first | exact e2 | simp [WPc.notify, inHand] at e2⟩
    · simp only [setPc_workers, getElem?_notify] at e
      obtain ⟨w', e3, e4⟩ := e
      cases w' <;> simp [WPc.notify] at e4
      exact e3
  case initSpawned a r n hpc =>
    have hget : ∀ (j : Nat) (w : WPc α), (s.pool.workers ++ [WPc.lock])[j]? = some w → s.pool.workers[j]? = some w ∨ w = WPc.lock := by
      intro j w e
      rw [List.getElem?_append] at e
      split at e
      · exact .inl e
      · right
        cases hk : j - s.pool.workers.length with
        | zero => simp [hk] at e; exact e.symm
        | succ k => simp [hk] at e
    refine heldInv_keep hi hl (fun j => ?_) (fun j v t e1 e2 => ?_) (fun j e => ?_) (by simp) (.inl ⟨by simp, rfl⟩)
    · simp only [setPc_workers]
      by_cases hj : j < s.pool.workers.length
      · rw [List.getElem?_append_left hj, drops_self]
      · rw [List.getElem?_eq_none (by omega : s.pool.workers.length ≤ j)]
        rfl
    · rcases hget j v e1 with e | rfl
      · exact ⟨v, e, e2⟩
      · simp [inHand] at e2
    · rcases hget j _ e with e | e
      · exact e
      · cases e
  case wExit i hpc hc =>
    exact heldInv_move (w' := .exited) (v := none) hi hl (lt_of_getElem?_some hpc) rfl (by rw [hpc]; rfl) hl rfl (by simp [inHand])
      (fun _ => rfl) ⟨[], rfl, rfl⟩ rfl
  case wPop i t q hpc hq =>
    exact heldInv_move (w' := .taken t) (v := some t) hi hl (lt_of_getElem?_some hpc) rfl (by rw [hpc]; rfl) hl rfl (by simp [inHand])
      (by simp) ⟨[t], rfl, hq⟩ rfl
  all_goals first
    | exact same _ rfl (.inl ⟨by simp, rfl⟩)
    | (have hpc := ‹s.pool.workers[_]? = some _›
       exact one _ _ _ _ hpc rfl rfl (by simp [inHand]) (by simp) rfl rfl)

theorem heldInv_init : HeldInv ({} : HPool α) := by constructor <;> simp [keptTasks]

/-! ### Concrete executions -/

/-- The scheduler of `PoolExec`, with the workers' variables; `none` if a captured object's destructor calls the pool in the assignment. -/
def hcmdRun (c : α → Bool) (s : HPool α) : List (Cmd α) → Option (HPool α × List (PoolLabel α))
  | [] => some (s, [])
  | x :: cs =>
    if s.pool.phase = .live then
      match cmdStep s.pool x with
      | none => none
      | some (p, l) =>
        if (List.range s.pool.workers.length).all (fun i => !drops s.pool.workers[i]? p.workers[i]? || (s.held i).all (fun u => !c u)) then
          (hcmdRun c (s.track p) cs).map fun r => (r.1, l :: r.2)
        else none
    else none

theorem hcmdRun_sound (c : α → Bool) : ∀ {cs : List (Cmd α)} {s s' : HPool α} {tr}, hcmdRun c s cs = some (s', tr) →
    HRun (fun t => c t = true) s tr s'
  | [], s, s', tr, h => by cases h; exact .nil s
  | x :: cs, s, s', tr, h => by
    simp only [hcmdRun] at h
    split at h
    · split at h
      · cases h
      · rename_i hl _ p l h1
        split at h
        · rename_i hall
          simp only [Option.map_eq_some_iff] at h
          obtain ⟨⟨s2, tr2⟩, h2, h3⟩ := h
          cases h3
          refine hrun_cons hl (.act (cmdStep_sound h1) ?_) (hcmdRun_sound c h2)
          intro i t u e1 e2 e3
          have := List.all_eq_true.1 hall i (List.mem_range.2 (lt_of_getElem?_some e1))
          rw [e1, e2, e3] at this
          simpa [drops] using this
        · cases h
    · cases h

/-- An agent that has called nothing is in none of the functions. -/
theorem idle_of_no_call {tr : List (PoolLabel α)} {s : Pool α} (h : Run {} tr s) (a : Agent) (hn : ∀ op, .call a op ∉ tr) : s.pcs a = .idle := by
  generalize hs : ({} : Pool α) = s0 at h
  induction h with
  | nil => subst hs; rfl
  | @snoc tr s' l s'' h hl ha ih =>
    have ih := ih (fun op hm => hn op (by simp [hm]))
    have hn' : ∀ op, l ≠ .call a op := fun op e => hn op (by simp [e])
    clear hn h
    cases ha <;> simp only [setPc_pcs, setW_pcs] <;> grind

end Cppnet
