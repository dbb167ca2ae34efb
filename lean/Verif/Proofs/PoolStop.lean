import Verif.Proofs.PoolExec

/-! # Invariants of the thread pool: threads and stopping -/

namespace Cppnet
open Spec Pool
variable {α : Type}

theorem pool_run_inv_labels {P : Pool α → Prop} {Q : PoolLabel α → Prop}
    (hstep : ∀ s l s', s.phase = .live → P s → Q l → Act s l s' → P s') {s tr s'} (h : Run s tr s') (hq : ∀ l ∈ tr, Q l)
    (h0 : P s) : P s' := by
  induction h with
  | nil => exact h0
  | snoc _ hl ha ih => exact hstep _ _ _ hl (ih fun l h => hq l (by simp [h])) (hq _ (by simp)) ha

/-- A worker that has returned stays so. -/
theorem exited_step {s s' : Pool α} {l} (h : Act s l s') (i : Nat) (hi : s.workers[i]? = some .exited) :
    s'.workers[i]? = some .exited := by
  have set : ∀ (j : Nat) (w w' : WPc α), s.workers[j]? = some w → w ≠ .exited → (s.workers.set j w')[i]? = some .exited := by
    intro j w w' hj hw
    rw [List.getElem?_set_ne]
    · exact hi
    · rintro rfl; rw [hi] at hj; cases hj; exact hw rfl
  cases h
  case stopNotified =>
    simp only [setPc_workers, getElem?_notify]
    exact ⟨.exited, hi, rfl⟩
  case initSpawned =>
    simp only [setPc_workers]
    rw [List.getElem?_append_left (List.getElem?_eq_some_iff.1 hi).1]; exact hi
  all_goals first
    | exact hi
    | (have hpc := ‹s.workers[_]? = some _›
       exact set _ _ _ hpc (by simp))
    | (rename_i hpc
       exact set _ _ _ hpc (by simp))

/-- Every worker that has not returned is in `threads_`; the threads that are no longer joinable have
returned. -/
structure ThrInv (s : Pool α) : Prop where
  listed : ∀ (w : Nat) x, s.workers[w]? = some x → x = .exited ∨ ∃ b, (w, b) ∈ s.threads
  joined : ∀ w, (w, false) ∈ s.threads → s.workers[w]? = some .exited

theorem thrInv_step (s : Pool α) (l) (s') (hi : ThrInv s) (h : Act s l s') : ThrInv s' := by
  obtain ⟨h1, h2⟩ := hi
  have hex := exited_step h
  have same : s'.threads = s.threads → s'.workers.length = s.workers.length → ThrInv s' := by
    intro e1 e2
    refine ⟨fun w x hx => ?_, fun w hw => hex w (h2 w (e1 ▸ hw))⟩
    rw [e1]
    have hlt : w < s.workers.length := by rw [← e2]; exact (List.getElem?_eq_some_iff.1 hx).1
    rcases h1 w _ (List.getElem?_eq_getElem hlt) with h | h
    · left
      have := hex w (by rw [List.getElem?_eq_getElem hlt, h])
      rw [hx] at this; cases this; rfl
    · exact .inr h
  have clear : (∀ x ∈ s.threads, x.2 = false) → s'.threads = [] → s'.workers = s.workers → ThrInv s' := by
    intro hf e1 e2
    refine ⟨fun w x hx => .inl ?_, fun w hw => by simp [e1] at hw⟩
    rw [e2] at hx
    rcases h1 w x hx with h | ⟨b, h⟩
    · exact h
    · have := hf _ h
      simp only at this
      subst this
      rw [h2 w h] at hx
      cases hx; rfl
  cases h
  case resizeCleared a n hpc h => exact clear h rfl rfl
  case initCleared a r n hpc h => exact clear h rfl rfl
  case stopJoined a k i w hpc h h' =>
    refine ⟨fun v x hx => ?_, fun v hv => ?_⟩
    · rcases h1 v x hx with hh | ⟨b, hh⟩
      · exact .inl hh
      · right
        obtain ⟨j, hj⟩ := List.getElem?_of_mem hh
        by_cases e : j = i
        · subst e
          rw [h] at hj
          cases hj
          exact ⟨false, by
            simp only [setPc_threads]
            exact List.mem_of_getElem? (i := j) (by rw [List.getElem?_set_self (List.getElem?_eq_some_iff.1 h).1])⟩
        · exact ⟨b, by
            simp only [setPc_threads]
            exact List.mem_of_getElem? (i := j) (by rw [List.getElem?_set_ne (Ne.symm e)]; exact hj)⟩
    · simp only [setPc_threads] at hv
      rcases List.mem_or_eq_of_mem_set hv with hh | hh
      · exact h2 v hh
      · cases hh; exact h'
  case initSpawned a r n hpc =>
    refine ⟨fun v x hx => ?_, fun v hv => ?_⟩
    · simp only [setPc_workers, setPc_threads] at hx ⊢
      by_cases hv : v < s.workers.length
      · rw [List.getElem?_append_left hv] at hx
        rcases h1 v x hx with hh | ⟨b, hh⟩
        · exact .inl hh
        · exact .inr ⟨b, by simp [hh]⟩
      · have : v = s.workers.length := by
          have := (List.getElem?_eq_some_iff.1 hx).1
          simp at this; omega
        exact .inr ⟨true, by simp [this]⟩
    · simp only [setPc_threads, List.mem_append, List.mem_singleton, Prod.mk.injEq, Bool.false_eq_true, and_false, or_false] at hv
      exact hex v (h2 v hv)
  all_goals exact same rfl (by simp)

theorem thrInv_init : ThrInv ({} : Pool α) := ⟨by simp, by simp⟩

/-- The agent is in `AddTask` or `GetBusyAndTaskNum` or in nothing. -/
def CPc.use : CPc α → Bool
  | .idle | .addCheck _ | .addLock _ | .addPush _ | .addNotify | .addUnlock | .numLock | .numSize | .numBusy _ => true
  | _ => false

def CPc.stopping : CPc α → Bool
  | .stopNotify _ | .stopJoin _ _ => true
  | _ => false

/-- Once the pool is stopped, workers without a task take none. -/
theorem noTask_step {s s' : Pool α} {l} (h : Act s l s') (hc : s.cont = false) (hw : ∀ w ∈ s.workers, noTask w = true) :
    s'.cont = false ∧ (∀ w ∈ s'.workers, noTask w = true) ∧ s'.popped = s.popped ∧ s'.started = s.started ∧ s'.finished = s.finished := by
  have set : ∀ (j : Nat) (w : WPc α), noTask w = true → ∀ v ∈ s.workers.set j w, noTask v = true := by
    intro j w hj v hv
    rcases List.mem_or_eq_of_mem_set hv with h | rfl
    · exact hw v h
    · exact hj
  cases h
  case stopNotified =>
    refine ⟨hc, fun w h => ?_, rfl, rfl, rfl⟩
    simp only [setPc_workers, List.mem_map] at h
    obtain ⟨w, h, rfl⟩ := h
    have := hw w h
    cases w <;> simp [noTask, WPc.notify] at this ⊢
  case initSpawned =>
    refine ⟨hc, fun w h => ?_, rfl, rfl, rfl⟩
    simp only [setPc_workers, List.mem_append, List.mem_singleton] at h
    rcases h with h | rfl
    · exact hw w h
    · rfl
  all_goals first
    | exact ⟨hc, hw, rfl, rfl, rfl⟩
    | exact ⟨rfl, hw, rfl, rfl, rfl⟩
    | exact ⟨hc, set _ _ rfl, rfl, rfl, rfl⟩
    | (have hpc := ‹s.workers[_]? = some _›
       have := hw _ (List.mem_of_getElem? hpc)
       simp [noTask] at this; done)
    | (rename_i hpc
       have := hw _ (List.mem_of_getElem? hpc)
       simp [noTask] at this; done)
    | (rename_i hh
       rw [hc] at hh; cases hh)

structure StopInv (ctl : Nat) (s : Pool α) : Prop where
  others : ∀ a, a ≠ .client ctl → (s.pcs a).use = true
  joined : ∀ k i, s.pcs (.client ctl) = .stopJoin k i → ∀ m w b, m < i → s.threads[m]? = some (w, b) → b = false
  stopped : s.cont = false → (s.pcs (.client ctl)).stopping = true ∨ ∀ w ∈ s.workers, noTask w = true

theorem all_joined {ctl : Nat} {s : Pool α} (ht : ThrInv s) (hi : StopInv ctl s) {k : AfterStop} {i : Nat}
    (hpc : s.pcs (.client ctl) = .stopJoin k i) (h : s.threads.length ≤ i) : ∀ w ∈ s.workers, w = .exited := by
  intro x hx
  obtain ⟨w, hw⟩ := List.getElem?_of_mem hx
  rcases ht.listed w x hw with h' | ⟨b, h'⟩
  · exact h'
  · obtain ⟨m, hm⟩ := List.getElem?_of_mem h'
    have hlt := (List.getElem?_eq_some_iff.1 hm).1
    have hb := hi.joined k i hpc m w b (by omega) hm
    subst hb
    have := ht.joined w h'
    rw [hw] at this
    cases this; rfl

theorem stopInv_step (ctl : Nat) (s : Pool α) (l) (s') (ht : ThrInv s) (hi : StopInv ctl s) (hd : Disciplined ctl l)
    (h : Act s l s') : StopInv ctl s' := by
  have hall := fun k i => all_joined ht hi (k := k) (i := i)
  have hno := noTask_step h
  obtain ⟨h1, h2, h3⟩ := hi
  have ctlOnly : ∀ a, (s.pcs a).use = false → a = .client ctl := by
    intro a ha
    by_cases e : a = .client ctl
    · exact e
    · rw [h1 a e] at ha; cases ha
  -- a step that is not `ctl`'s
  have other : (∀ a, a ≠ .client ctl → (s'.pcs a).use = true) → s'.pcs (.client ctl) = s.pcs (.client ctl) → s'.threads = s.threads →
      s'.cont = s.cont → StopInv ctl s' := by
    intro e1 e2 e3 e4
    refine ⟨e1, fun k i => ?_, fun hc => ?_⟩
    · rw [e2, e3]; exact h2 k i
    · rw [e2]
      rw [e4] at hc
      rcases h3 hc with h | h
      · exact .inl h
      · exact .inr (hno hc h).2.1
  -- a step inside `AddTask` or `GetBusyAndTaskNum`
  have useStep : ∀ (a : Agent) (c : CPc α), (s.pcs a).use = true → c.use = true → (∀ b, s'.pcs b = if b = a then c else s.pcs b) →
      s'.threads = s.threads → s'.cont = s.cont → StopInv ctl s' := by
    intro a c ha hc e2 e3 e4
    refine ⟨fun b hb => ?_, fun k i hk => ?_, fun hcc => ?_⟩
    · rw [e2]; split
      · exact hc
      · exact h1 b hb
    · rw [e2] at hk
      rw [e3]
      by_cases e : Agent.client ctl = a
      · rw [if_pos e] at hk; rw [hk] at hc; cases hc
      · rw [if_neg e] at hk; exact h2 k i hk
    · rw [e4] at hcc
      rcases h3 hcc with h | h
      · left
        rw [e2, if_neg]
        · exact h
        · rintro rfl
          revert h ha
          cases s.pcs (.client ctl) <;> simp [CPc.use, CPc.stopping]
      · exact .inr (hno hcc h).2.1
  -- a step of `ctl` that does not finish stopping
  have ctlStep : ∀ (c : CPc α), (∀ b, s'.pcs b = if b = .client ctl then c else s.pcs b) →
      (∀ k i, c = .stopJoin k i → ∀ m w b, m < i → s'.threads[m]? = some (w, b) → b = false) →
      (s'.cont = false → s.cont = true → c.stopping = true) →
      ((s.pcs (.client ctl)).stopping = true → c.stopping = true ∨ ∀ w ∈ s.workers, noTask w = true) → StopInv ctl s' := by
    intro c e2 e3 e4 e5
    refine ⟨fun b hb => ?_, fun k i hk => ?_, fun hcc => ?_⟩
    · rw [e2, if_neg hb]; exact h1 b hb
    · rw [e2, if_pos rfl] at hk; exact e3 k i hk
    · rw [e2, if_pos rfl]
      cases hs : s.cont with
      | true => exact .inl (e4 hcc hs)
      | false =>
        rcases h3 hs with h | h
        · rcases e5 h with h | h
          · exact .inl h
          · exact .inr (hno hs h).2.1
        · exact .inr (hno hs h).2.1
  cases h
  case call a op hidle hmay =>
    rcases hd a op rfl with ⟨t, rfl⟩ | rfl | rfl
    · exact useStep a _ (by simp [hidle, CPc.use]) rfl (fun b => rfl) rfl rfl
    · exact useStep a _ (by simp [hidle, CPc.use]) rfl (fun b => rfl) rfl rfl
    · refine ctlStep (entry op) (fun b => rfl) (fun k i e => by cases op <;> simp [entry] at e) (fun e e' => ?_) (fun e => ?_)
      · simp [e'] at e
      · simp [hidle, CPc.stopping] at e
  case addRefused a t hpc h => exact useStep a _ (by simp [hpc, CPc.use]) rfl (fun b => rfl) rfl rfl
  case addChecked a t hpc h h' => exact useStep a _ (by simp [hpc, CPc.use]) rfl (fun b => rfl) rfl rfl
  case addLocked a t hpc h => exact useStep a _ (by simp [hpc, CPc.use]) rfl (fun b => rfl) rfl rfl
  case addPushed a t hpc => exact useStep a _ (by simp [hpc, CPc.use]) rfl (fun b => rfl) rfl rfl
  case addNotified a i hpc h => exact useStep a _ (by simp [hpc, CPc.use]) rfl (fun b => rfl) rfl rfl
  case addNobody a hpc h => exact useStep a _ (by simp [hpc, CPc.use]) rfl (fun b => rfl) rfl rfl
  case addDone a hpc => exact useStep a _ (by simp [hpc, CPc.use]) rfl (fun b => rfl) rfl rfl
  case numLocked a hpc h => exact useStep a _ (by simp [hpc, CPc.use]) rfl (fun b => rfl) rfl rfl
  case numSized a hpc => exact useStep a _ (by simp [hpc, CPc.use]) rfl (fun b => rfl) rfl rfl
  case numDone a k hpc => exact useStep a _ (by simp [hpc, CPc.use]) rfl (fun b => rfl) rfl rfl
  case stopAlready a k hpc h =>
    have ha := ctlOnly a (by rw [hpc]; rfl)
    subst ha
    exact ctlStep _ (fun b => rfl) (fun k' i e => by cases k <;> simp [afterStop] at e) (fun _ e' => by simp [h] at e')
      (fun e => by simp [hpc, CPc.stopping] at e)
  case stopChecked a k hpc h =>
    have ha := ctlOnly a (by rw [hpc]; rfl)
    subst ha
    exact ctlStep _ (fun b => rfl) (fun k' i e => by simp at e) (fun e _ => by simp [h] at e)
      (fun e => by simp [hpc, CPc.stopping] at e)
  case stopFlag a k hpc =>
    have ha := ctlOnly a (by rw [hpc]; rfl)
    subst ha
    exact ctlStep (.stopNotify k) (fun b => rfl) (fun k' i e => by simp at e) (fun e _ => rfl)
      (fun e => .inl rfl)
  case stopNotified a k hpc =>
    have ha := ctlOnly a (by rw [hpc]; rfl)
    subst ha
    exact ctlStep (.stopJoin k 0) (fun b => rfl) (fun k' i e m w b hm => by cases e; omega) (fun e _ => rfl)
      (fun e => .inl rfl)
  case stopJoined a k i w hpc h h' =>
    have ha := ctlOnly a (by rw [hpc]; rfl)
    subst ha
    refine ctlStep (.stopJoin k (i + 1)) (fun b => rfl) (fun k' i' e m v b hm hv => ?_) (fun e _ => rfl) (fun e => .inl rfl)
    cases e
    simp only [setPc_threads] at hv
    by_cases e : m = i
    · subst e
      rw [List.getElem?_set_self (List.getElem?_eq_some_iff.1 h).1] at hv
      cases hv; rfl
    · rw [List.getElem?_set_ne (Ne.symm e)] at hv
      exact h2 k i hpc m v b (by omega) hv
  case stopBadJoin a k i w hpc h => exact ⟨h1, h2, h3⟩
  case stopDone a k i hpc h =>
    have ha := ctlOnly a (by rw [hpc]; rfl)
    subst ha
    exact ctlStep _ (fun b => rfl) (fun k' i e => by cases k <;> simp [afterStop] at e)
      (fun e e' => by simp [e'] at e) (fun _ => .inr fun w hw => by rw [hall k i hpc h w hw]; rfl)
  case resizeSame a n hpc h =>
    have ha := ctlOnly a (by rw [hpc]; rfl)
    subst ha
    exact ctlStep _ (fun b => rfl) (fun k' i e => by simp at e) (fun e e' => by simp [e'] at e)
      (fun e => by simp [hpc, CPc.stopping] at e)
  case resizeStop a n hpc h h' =>
    have ha := ctlOnly a (by rw [hpc]; rfl)
    subst ha
    exact ctlStep _ (fun b => rfl) (fun k' i e => by simp at e) (fun e e' => by simp [e'] at e)
      (fun e => by simp [hpc, CPc.stopping] at e)
  case resizeCleared a n hpc h =>
    have ha := ctlOnly a (by rw [hpc]; rfl)
    subst ha
    exact ctlStep _ (fun b => rfl) (fun k' i e => by simp at e) (fun e e' => by simp [e'] at e)
      (fun e => by simp [hpc, CPc.stopping] at e)
  case initCleared a r n hpc h =>
    have ha := ctlOnly a (by rw [hpc]; rfl)
    subst ha
    exact ctlStep _ (fun b => rfl) (fun k' i e => by simp at e) (fun e e' => by simp [e'] at e)
      (fun e => by simp [hpc, CPc.stopping] at e)
  case initSpawned a r n hpc =>
    have ha := ctlOnly a (by rw [hpc]; rfl)
    subst ha
    exact ctlStep _ (fun b => rfl) (fun k' i e => by simp at e) (fun e e' => by simp [e'] at e)
      (fun e => by simp [hpc, CPc.stopping] at e)
  case initDone a r hpc =>
    have ha := ctlOnly a (by rw [hpc]; rfl)
    subst ha
    exact ctlStep _ (fun b => rfl) (fun k' i e => by simp at e) (fun e e' => by simp [e'] at e)
      (fun e => by simp [hpc, CPc.stopping] at e)
  case destroyed a hpc h =>
    have ha := ctlOnly a (by rw [hpc]; rfl)
    subst ha
    exact ctlStep .idle (fun b => rfl) (fun k' i e => by simp at e) (fun e e' => by simp [e'] at e)
      (fun e => by simp [hpc, CPc.stopping] at e)
  case resizeTerminates => exact ⟨h1, h2, h3⟩
  case initTerminates => exact ⟨h1, h2, h3⟩
  case destroyTerminates => exact ⟨h1, h2, h3⟩
  all_goals exact other h1 rfl rfl rfl

theorem stopInv_init (ctl : Nat) : StopInv ctl ({} : Pool α) := ⟨by simp [CPc.use], by simp, by simp⟩

end Cppnet
