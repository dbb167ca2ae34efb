import Verif.Proofs.PoolStop

/-! # Progress of the thread pool -/

namespace Cppnet
open Spec Pool
variable {α : Type}

/-- By itself the pool can take `t` next. -/
def Takes (s : Pool α) (t : α) : Prop :=
  ∃ tr s', Run s tr s' ∧ s'.popped = s.popped ++ [t] ∧ ∀ l ∈ tr, Quiet l

theorem takes_step {s s' : Pool α} {t : α} {l} (hl : s.phase = .live) (h : Act s l s') (hq : Quiet l) (hp : s'.popped = s.popped)
    (ht : Takes s' t) : Takes s t := by
  obtain ⟨tr, s2, h1, h2, h3⟩ := ht
  exact ⟨l :: tr, s2, pool_run_cons hl h h1, by rw [h2, hp], by
    intro l' hl'
    rcases List.mem_cons.1 hl' with rfl | hl'
    · exact hq
    · exact h3 l' hl'⟩

theorem quiet_tau : Quiet (.tau : PoolLabel α) := ⟨by simp, by simp⟩
theorem quiet_ret (a : Agent) (r : PoolRet) : Quiet (.ret a r : PoolLabel α) := ⟨by simp, by simp⟩

/-- The situation in which a task should be taken. -/
structure Work (s : Pool α) (t : α) : Prop where
  live : s.phase = .live
  cont : s.cont = true
  queue : ∃ q, s.queue = t :: q
  lockInv : LockInv s
  wakeInv : WakeInv s

theorem set_self {s : Pool α} {i : Nat} {w w' : WPc α} (h : s.workers[i]? = some w) : (s.workers.set i w')[i]? = some w' :=
  List.getElem?_set_self (List.getElem?_eq_some_iff.1 h).1

theorem takes_size {s : Pool α} {t : α} (hw : Work s t) {i : Nat} (h : s.workers[i]? = some .size) : Takes s t := by
  obtain ⟨q, hq⟩ := hw.queue
  exact ⟨[.tau], _, pool_run_cons hw.live (.wPop h hq) (.nil _), rfl, by simp [quiet_tau]⟩

theorem work_step {s s' : Pool α} {t : α} {l} (hw : Work s t) (h : Act s l s') (h1 : s'.phase = .live) (h2 : s'.cont = true)
    (h3 : ∃ q, s'.queue = t :: q) : Work s' t :=
  ⟨h1, h2, h3, lockInv_step _ _ _ hw.lockInv h, wakeInv_step _ _ _ hw.lockInv hw.wakeInv h⟩

theorem takes_cont {s : Pool α} {t : α} (hw : Work s t) {i : Nat} (h : s.workers[i]? = some .cont) : Takes s t := by
  have ha : Act s .tau _ := .wGoOn h hw.cont
  exact takes_step hw.live ha quiet_tau rfl (takes_size (work_step hw ha hw.live hw.cont hw.queue) (set_self h))

theorem takes_check {s : Pool α} {t : α} (hw : Work s t) {i : Nat} (h : s.workers[i]? = some .check) : Takes s t := by
  obtain ⟨q, hq⟩ := hw.queue
  have ha : Act s .tau _ := .wNoWait h (.inr (by simp [hq]))
  exact takes_step hw.live ha quiet_tau rfl (takes_cont (work_step hw ha hw.live hw.cont hw.queue) (set_self h))

theorem takes_pred {s : Pool α} {t : α} (hw : Work s t) {i : Nat} (h : s.workers[i]? = some .pred) : Takes s t := by
  obtain ⟨q, hq⟩ := hw.queue
  have ha : Act s .tau _ := .wPredTrue h (.inl (by simp [hq]))
  exact takes_step hw.live ha quiet_tau rfl (takes_cont (work_step hw ha hw.live hw.cont hw.queue) (set_self h))

theorem takes_holder {s : Pool α} {t : α} (hw : Work s t) {i : Nat} {w : WPc α} (h : s.workers[i]? = some w) (hh : w.holds = true) :
    Takes s t := by
  obtain ⟨q, hq⟩ := hw.queue
  cases w <;> simp [WPc.holds] at hh
  · exact takes_check hw h
  · exact takes_pred hw h
  · have := hw.lockInv.empty i h
    rw [hq] at this; cases this
  · exact takes_cont hw h
  · exact takes_size hw h

theorem takes_unlocked {s : Pool α} {t : α} (hw : Work s t) (hl : s.lock = none) (hf : ∃ w ∈ s.workers, free w = true) : Takes s t := by
  have lk : ∀ i : Nat, s.workers[i]? = some WPc.lock → Takes s t := by
    intro i h
    have ha : Act s .tau _ := .wLocked h hl
    exact takes_step hw.live ha quiet_tau rfl (takes_check (work_step hw ha hw.live hw.cont hw.queue) (set_self h))
  have wk : ∀ i : Nat, s.workers[i]? = some WPc.wake → Takes s t := by
    intro i h
    have ha : Act s .tau _ := .wRelocked h hl
    exact takes_step hw.live ha quiet_tau rfl (takes_pred (work_step hw ha hw.live hw.cont hw.queue) (set_self h))
  have nohold : ∀ (i : Nat) w, s.workers[i]? = some w → w.holds = false := by
    intro i w h
    cases hh : w.holds with
    | false => rfl
    | true =>
      have := hw.lockInv.worker i w h hh
      rw [hl] at this; cases this
  have way : ∀ (i : Nat) w, s.workers[i]? = some w → onTheWay w = true → Takes s t := by
    intro i w h ho
    have hn := nohold i w h
    cases w <;> simp [onTheWay, WPc.holds] at ho hn
    · exact lk i h
    · exact wk i h
  obtain ⟨w, hmem, hfree⟩ := hf
  obtain ⟨i, hi⟩ := List.getElem?_of_mem hmem
  by_cases ho : onTheWay w = true
  · exact way i w hi ho
  · have hn := nohold i w hi
    have hwt : w = .waiting := by cases w <;> simp [free, onTheWay, WPc.holds] at hfree ho hn ⊢
    subst hwt
    have hb := countP_pos_of blocked hi rfl
    obtain ⟨q, hq⟩ := hw.queue
    have hpos : 0 < s.workers.countP onTheWay := by
      rcases hw.wakeInv.wake hw.cont hb with h | ⟨_, a, ha⟩
      · rw [hq] at h; simp only [List.length_cons] at h; omega
      · have := hw.lockInv.agent a (by rw [ha]; rfl)
        rw [hl] at this; cases this
    rw [List.countP_pos_iff] at hpos
    obtain ⟨v, hv, ho⟩ := hpos
    obtain ⟨j, hj⟩ := List.getElem?_of_mem hv
    exact way j v hj ho

theorem takes_addUnlock {s : Pool α} {t : α} (hw : Work s t) {a : Agent} (h : s.pcs a = .addUnlock)
    (hf : ∃ w ∈ s.workers, free w = true) : Takes s t := by
  have ha : Act s _ _ := .addDone h
  exact takes_step hw.live ha (quiet_ret _ _) rfl (takes_unlocked (work_step hw ha hw.live hw.cont hw.queue) rfl hf)

theorem takes_addNotify {s : Pool α} {t : α} (hw : Work s t) {a : Agent} (h : s.pcs a = .addNotify)
    (hf : ∃ w ∈ s.workers, free w = true) : Takes s t := by
  by_cases hb : ∃ i : Nat, s.workers[i]? = some WPc.waiting
  · obtain ⟨i, hi⟩ := hb
    have ha : Act s .tau _ := .addNotified h hi
    refine takes_step hw.live ha quiet_tau rfl (takes_addUnlock (work_step hw ha hw.live hw.cont hw.queue) (a := a) (by simp) ?_)
    exact ⟨.wake, List.mem_of_getElem? (i := i) (set_self hi), rfl⟩
  · have ha : Act s .tau _ := .addNobody h (by
      rintro w hw rfl
      exact hb (List.getElem?_of_mem hw))
    exact takes_step hw.live ha quiet_tau rfl (takes_addUnlock (work_step hw ha hw.live hw.cont hw.queue) (a := a) (by simp) hf)

/-- C49, progress: a running pool that has a queued task and a worker without a task can always take the
first queued task, whatever state the other threads are in. -/
theorem takes_next {s : Pool α} {t : α} (hw : Work s t) (hf : ∃ w ∈ s.workers, free w = true) : Takes s t := by
  cases hl : s.lock with
  | none => exact takes_unlocked hw hl hf
  | some a =>
    rcases hw.lockInv.holder a hl with h | ⟨i, w, _, h1, h2⟩
    · cases hpc : s.pcs a <;> rw [hpc] at h <;> simp [CPc.holds] at h
      case addPush t' =>
        have ha : Act s .tau _ := .addPushed hpc
        obtain ⟨q, hq⟩ := hw.queue
        exact takes_step hw.live ha quiet_tau rfl
          (takes_addNotify (work_step hw ha hw.live hw.cont ⟨q ++ [t'], by simp [hq]⟩) (a := a) (by simp) hf)
      case addNotify => exact takes_addNotify hw hpc hf
      case addUnlock => exact takes_addUnlock hw hpc hf
      case numSize =>
        have ha : Act s .tau _ := .numSized hpc
        have hb : Act (s.setPc a (.numBusy s.queue.length)) _ _ := .numDone (a := a) (k := s.queue.length) (by simp)
        have hw' := work_step hw ha hw.live hw.cont hw.queue
        exact takes_step hw.live ha quiet_tau rfl (takes_step hw.live hb (quiet_ret _ _) rfl
          (takes_unlocked (work_step hw' hb hw.live hw.cont hw.queue) rfl hf))
      case numBusy k =>
        have ha : Act s _ _ := .numDone hpc
        exact takes_step hw.live ha (quiet_ret _ _) rfl (takes_unlocked (work_step hw ha hw.live hw.cont hw.queue) rfl hf)
    · exact takes_holder hw h1 h2

end Cppnet
