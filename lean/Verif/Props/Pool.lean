import Verif.Proofs.PoolTerm

/-!
# Thread pool properties: C48–C54, C78–C80

All theorems are about every execution (`Run`) of the transition system of `Verif/Model/ThreadPool.lean`:
any number of threads, any schedule, any length.
-/

namespace Cppnet
open Spec Pool
variable {α : Type}

theorem reachable_lock {s : Pool α} (h : Reachable s) : LockInv s := by
  obtain ⟨tr, h⟩ := h
  exact pool_run_inv (fun s l s' _ hi ha => lockInv_step s l s' hi ha) h lockInv_init

theorem reachable_hist {s : Pool α} (h : Reachable s) : HistInv s := by
  obtain ⟨tr, h⟩ := h
  exact pool_run_inv (fun s l s' _ hi ha => histInv_step s l s' hi ha) h histInv_init

theorem reachable_wake {s : Pool α} (h : Reachable s) : WakeInv s := by
  obtain ⟨tr, h⟩ := h
  exact (pool_run_inv (P := fun s => LockInv s ∧ WakeInv s)
    (fun s l s' _ hi ha => ⟨lockInv_step s l s' hi.1 ha, wakeInv_step s l s' hi.1 hi.2 ha⟩) h ⟨lockInv_init, wakeInv_init⟩).2

theorem reachable_thr {s : Pool α} (h : Reachable s) : ThrInv s := by
  obtain ⟨tr, h⟩ := h
  exact pool_run_inv (fun s l s' _ hi ha => thrInv_step s l s' hi ha) h thrInv_init

theorem disciplined_stop {ctl : Nat} {s : Pool α} {tr} (h : Run {} tr s) (hd : ∀ l ∈ tr, Disciplined ctl l) :
    ThrInv s ∧ StopInv ctl s :=
  pool_run_inv_labels (P := fun s => ThrInv s ∧ StopInv ctl s) (Q := Disciplined ctl)
    (fun s l s' _ hi hq ha => ⟨thrInv_step s l s' hi.1 ha, stopInv_step ctl s l s' hi.1 hi.2 hq ha⟩) h hd
    ⟨thrInv_init, stopInv_init ctl⟩

/-! ### C48 -/

/-- C48, every number of workers: the tasks leave the queue in the order in which they entered it (what
was popped is a prefix of what was accepted, the rest is still queued), and every popped task is either
finished or in the hands of exactly one worker; so the executed tasks, with their multiplicities, are
among the accepted ones: nothing runs twice and nothing runs that was not accepted. -/
theorem C48_once_partial (s : Pool α) (h : Reachable s) :
    s.accepted = s.popped ++ s.queue ∧ s.popped.Perm (s.finished ++ s.workers.flatMap inHand) ∧
    s.started.Perm (s.finished ++ s.workers.flatMap executing) ∧ ∃ rest, (s.started ++ rest).Perm s.accepted := by
  obtain ⟨h1, h2, h3⟩ := reachable_hist h
  refine ⟨h1, h2, h3, ?_⟩
  -- the tasks popped but not started
  let waitingStart : WPc α → List α := fun w => match w with | .taken t | .start t => [t] | _ => []
  have split : ∀ ws : List (WPc α), (ws.flatMap inHand).Perm (ws.flatMap executing ++ ws.flatMap waitingStart) := by
    intro ws
    induction ws with
    | nil => simp
    | cons w ws ih =>
      simp only [List.flatMap_cons]
      have : inHand w = executing w ++ waitingStart w := by cases w <;> rfl
      rw [this]
      refine (ih.append_left _).trans ?_
      simp only [List.append_assoc]
      refine List.Perm.append_left _ ?_
      rw [← List.append_assoc, ← List.append_assoc]
      exact List.perm_append_comm.append_right _
  refine ⟨s.workers.flatMap waitingStart ++ s.queue, ?_⟩
  rw [h1, ← List.append_assoc]
  refine List.Perm.append_right _ ?_
  refine (h3.append_right _).trans (List.Perm.trans ?_ h2.symm)
  rw [List.append_assoc]
  exact (split _).symm.append_left _

/-- Tasks popped but not yet called. -/
def toStart : WPc α → List α
  | .taken t | .start t => [t]
  | _ => []

theorem single_step (s : Pool α) (l) (s') (hi : s.workers.length ≤ 1 → s.popped = s.started ++ s.workers.flatMap toStart)
    (h : Act s l s') : s'.workers.length ≤ 1 → s'.popped = s'.started ++ s'.workers.flatMap toStart := by
  have one : ∀ (i : Nat) (w : WPc α), s.workers[i]? = some w → s.workers.length ≤ 1 → i = 0 ∧ s.workers = [w] := by
    intro i w hw hl
    match h : s.workers, i with
    | [], _ => simp [h] at hw
    | [x], 0 => rw [h] at hw; simp at hw; simp [hw]
    | [x], i + 1 => rw [h] at hw; simp at hw
    | x :: y :: r, _ => rw [h] at hl; simp at hl
  cases h
  case stopNotified =>
    intro hl
    simp only [setPc_workers, List.length_map] at hl
    simp only [setPc_workers, setPc_popped, setPc_started]
    rw [flatMap_notify _ rfl]; exact hi hl
  case initSpawned =>
    intro hl
    simp only [setPc_workers, List.length_append, List.length_singleton] at hl
    have := hi (by omega)
    simp only [setPc_workers, setPc_popped, setPc_started]
    rw [this]
    have : s.workers = [] := List.eq_nil_of_length_eq_zero (by omega)
    simp [this, toStart]
  all_goals first
    | exact hi
    | (intro hl
       have hpc := ‹s.workers[_]? = some _›
       simp only [setW_workers, setPc_workers, List.length_set] at hl
       obtain ⟨rfl, e⟩ := one _ _ hpc hl
       have := hi hl
       simp [e, toStart] at this ⊢
       first | exact this | (rw [this]))

/-- C48 with one worker (as the file logger uses it): the tasks are called in the order in which they were
accepted. -/
theorem C48_single_worker_partial (s : Pool α) (h : Reachable s) (hw : s.workers.length ≤ 1) : s.started <+: s.accepted := by
  have hp : s.popped = s.started ++ s.workers.flatMap toStart := by
    obtain ⟨tr, h⟩ := h
    exact pool_run_inv (P := fun s => s.workers.length ≤ 1 → s.popped = s.started ++ s.workers.flatMap toStart)
      (fun s l s' _ hi ha => single_step s l s' hi ha) h (by simp) hw
  obtain ⟨h1, _, _⟩ := reachable_hist h
  exact ⟨s.workers.flatMap toStart ++ s.queue, by rw [h1, hp]; simp⟩

/-- `n` steps of a client. -/
def cl (n : Nat) : List (Cmd Nat) := List.replicate n (.client 0)
/-- `n` steps of worker `i`. -/
def wk (i n : Nat) : List (Cmd Nat) := List.replicate n (.worker i)
def addCmd (t : Nat) : List (Cmd Nat) := .call 0 (.add t) :: cl 5
def initCmd (n : Nat) : List (Cmd Nat) := .call 0 (.init n) :: cl (n + 2)

/-- C48 is false about the order in which tasks start: with two workers the second task can start first
(a worker calls its task after it has released the mutex). -/
theorem C48_start_order_refuted : ∃ s : Pool Nat, Reachable s ∧ s.accepted = [1, 2] ∧ s.started = [2, 1] := by
  obtain ⟨v, hv⟩ : ∃ v, shown (cmdRun {} (initCmd 2 ++ addCmd 1 ++ addCmd 2 ++ wk 0 4 ++ wk 1 6 ++ wk 0 2)) = some v ∧
      v.accepted = [1, 2] ∧ v.started = [2, 1] := by
    refine ⟨_, rfl, ?_⟩
    decide +kernel
  obtain ⟨s, h1, _, _, _, _, _, h2, h3, _⟩ := shown_run hv.1
  exact ⟨s, ⟨_, h1⟩, h2.trans hv.2.1, h3.trans hv.2.2⟩

example : Reachable ({} : Pool Nat) ∧ ∃ s : Pool Nat, Reachable s ∧ s.accepted = [1, 2] ∧ s.workers.length ≤ 1 ∧ s.started = [1] := by
  refine ⟨⟨[], .nil _⟩, ?_⟩
  obtain ⟨v, hv⟩ : ∃ v, shown (cmdRun {} (initCmd 1 ++ addCmd 1 ++ addCmd 2 ++ wk 0 6)) = some v ∧
      v.accepted = [1, 2] ∧ v.workers = [.run 1] ∧ v.started = [1] := by
    refine ⟨_, rfl, ?_⟩
    decide +kernel
  obtain ⟨s, h1, _, h4, _, _, _, h2, h3, _⟩ := shown_run hv.1
  exact ⟨s, ⟨_, h1⟩, h2.trans hv.2.1, by rw [h4, hv.2.2.1]; simp, h3.trans hv.2.2.2⟩

/-! ### C49 -/

/-- C49: while the pool runs, if any worker is blocked then every queued task has an awake worker of its
own on its way to the queue, except that one notification may be about to be sent. -/
theorem C49_no_lost_wakeup (s : Pool α) (h : Reachable s) (hc : s.cont = true) (hb : 0 < s.workers.countP blocked) :
    s.queue.length ≤ s.workers.countP onTheWay ∨
    (s.queue.length ≤ s.workers.countP onTheWay + 1 ∧ ∃ a, s.pcs a = .addNotify) :=
  (reachable_wake h).wake hc hb

/-- C49: so the queue is never non-empty with all workers asleep. -/
theorem C49_awake (s : Pool α) (h : Reachable s) (hc : s.cont = true) (hq : s.queue ≠ []) (hw : s.workers ≠ []) :
    (∃ w ∈ s.workers, blocked w = false ∧ w ≠ .exited) ∨ ∃ a, s.pcs a = .addNotify := by
  have hwake := reachable_wake h
  by_cases hb : 0 < s.workers.countP blocked
  · rcases hwake.wake hc hb with hh | ⟨_, hh⟩
    · have : 0 < s.workers.countP onTheWay := by
        have := List.length_pos_iff.2 hq
        omega
      obtain ⟨w, hw, ho⟩ := List.countP_pos_iff.1 this
      exact .inl ⟨w, hw, by cases w <;> simp [onTheWay, blocked] at ho ⊢, by rintro rfl; simp [onTheWay] at ho⟩
    · exact .inr hh
  · obtain ⟨w, hw⟩ := List.exists_mem_of_ne_nil _ hw
    refine .inl ⟨w, hw, ?_, hwake.exited hc w hw⟩
    cases hbw : blocked w with
    | false => rfl
    | true => exact absurd (List.countP_pos_iff.2 ⟨w, hw, hbw⟩) hb

/-- C49, progress: whenever a task is queued and some worker has no task, the pool can take the first
queued task without a new call, a spurious wake-up or the end of a running task. -/
theorem C49_progress (s : Pool α) (h : Reachable s) (hl : s.phase = .live) (hc : s.cont = true) (t : α) (q : List α)
    (hq : s.queue = t :: q) (hf : ∃ w ∈ s.workers, free w = true) :
    ∃ tr s', Run s tr s' ∧ s'.popped = s.popped ++ [t] ∧ ∀ l ∈ tr, Quiet l :=
  takes_next ⟨hl, hc, ⟨q, hq⟩, reachable_lock h, reachable_wake h⟩ hf

/-- Hypotheses met: a blocked worker, a busy one and a queued task. -/
example : ∃ s : Pool Nat, Reachable s ∧ s.phase = .live ∧ s.cont = true ∧ s.queue = [7] ∧ s.workers = [.wake, .waiting] := by
  obtain ⟨v, hv⟩ : ∃ v, shown (cmdRun {} (initCmd 2 ++ wk 0 4 ++ wk 1 4 ++ addCmd 7)) = some v ∧
      v.phase = .live ∧ v.cont = true ∧ v.queue = [7] ∧ v.workers = [.wake, .waiting] := by
    refine ⟨_, rfl, ?_⟩
    decide +kernel
  obtain ⟨s, h1, h2, h3, _, h4, h5, _⟩ := shown_run hv.1
  exact ⟨s, ⟨_, h1⟩, h5.trans hv.2.1, h4.trans hv.2.2.1, h2.trans hv.2.2.2.1, h3.trans hv.2.2.2.2⟩

/-! ### C50, C51 -/

theorem stopped_states {ctl : Nat} {s s' : Pool α} {tr} (h : Run {} tr s) (hd : ∀ l ∈ tr, Disciplined ctl l)
    (ha : Act s (.ret (.client ctl) .stopped) s') :
    s'.cont = false ∧ (∀ w ∈ s'.workers, noTask w = true) ∧ s'.popped = s.popped ∧ s'.finished = s.finished ∧ s'.workers = s.workers := by
  obtain ⟨ht, hs⟩ := disciplined_stop h hd
  have hj : JoinInv ctl s := (pool_run_inv_labels (P := fun s => ThrInv s ∧ StopInv ctl s ∧ JoinInv ctl s) (Q := Disciplined ctl)
    (fun s l s' _ hi hq ha => ⟨thrInv_step s l s' hi.1 ha, stopInv_step ctl s l s' hi.1 hi.2.1 hq ha, joinInv_step ctl s l s' hi.2.1 hi.2.2 ha⟩) h hd
    ⟨thrInv_init, stopInv_init ctl, joinInv_init ctl⟩).2.2
  generalize hlab : PoolLabel.ret (.client ctl) .stopped = l at ha
  cases ha <;> first | cases hlab | skip
  case stopAlready a k hpc hc =>
    cases k <;> simp [stopLabel] at hlab
    subst hlab
    refine ⟨hc, ?_, rfl, rfl, rfl⟩
    rcases hs.stopped hc with hh | hh
    · rw [hpc] at hh; cases hh
    · exact hh
  case stopDone a k i hpc hlen =>
    cases k <;> simp [stopLabel] at hlab
    subst hlab
    refine ⟨hj.flag (by rw [hpc]; rfl), fun w hw => ?_, rfl, rfl, rfl⟩
    rw [all_joined ht hs hpc hlen w hw]; rfl
  case initDone a r hpc => cases r <;> cases hlab

/-- C50, for a pool controlled by one thread: when `Stop` returns no worker has a task, every popped task
has been run to its end, and in every continuation (whatever any thread does, resizing included) no task
is popped, started or finished any more.  (It is false for two threads that call `Stop`, see below.) -/
theorem C50_quiescent_partial (ctl : Nat) (s s' : Pool α) (tr : List (PoolLabel α)) (h : Run {} tr s)
    (hd : ∀ l ∈ tr, Disciplined ctl l) (ha : Act s (.ret (.client ctl) .stopped) s') :
    (∀ w ∈ s'.workers, inHand w = []) ∧ s'.finished.Perm s'.popped ∧ s'.finished.Perm s'.started ∧
    ∀ tr' s'', Run s' tr' s'' → s''.popped = s'.popped ∧ s''.started = s'.started ∧ s''.finished = s'.finished := by
  obtain ⟨h1, h2, h3, h4, h5⟩ := stopped_states h hd ha
  have hin : ∀ w ∈ s'.workers, inHand w = [] := by
    intro w hw
    have := h2 w hw
    cases w <;> simp [noTask, inHand] at this ⊢
  have hex : ∀ w ∈ s'.workers, executing w = [] := by
    intro w hw
    have := h2 w hw
    cases w <;> simp [noTask, executing] at this ⊢
  obtain ⟨_, g2, g3⟩ := histInv_step _ _ _ (reachable_hist ⟨tr, h⟩) ha
  rw [List.flatMap_eq_nil_iff.2 hin, List.append_nil] at g2
  rw [List.flatMap_eq_nil_iff.2 hex, List.append_nil] at g3
  refine ⟨hin, g2.symm, g3.symm, fun tr' s'' hr => ?_⟩
  have := pool_run_inv (P := fun x => x.cont = false ∧ (∀ w ∈ x.workers, noTask w = true) ∧ x.popped = s'.popped ∧
      x.started = s'.started ∧ x.finished = s'.finished) (fun x l x' _ hi ha => by
    obtain ⟨a1, a2, a3, a4, a5⟩ := noTask_step ha hi.1 hi.2.1
    exact ⟨a1, a2, a3.trans hi.2.2.1, a4.trans hi.2.2.2.1, a5.trans hi.2.2.2.2⟩) hr ⟨h1, h2, rfl, rfl, rfl⟩
  exact this.2.2

/-- The agent is neither in `Init` nor in `Resize`. -/
def CPc.noSpawn : CPc α → Bool
  | .resizeCheck _ | .resizeClear _ | .initClear _ _ | .initSpawn _ _ => false
  | .stopCheck (.resize _) | .stopSet (.resize _) | .stopNotify (.resize _) | .stopJoin (.resize _) _ => false
  | _ => true

/-- A call of neither `Init` nor `Resize`. -/
def NoSpawn (l : PoolLabel α) : Prop := ∀ a op, l = .call a op → (∀ n, op ≠ .init n) ∧ ∀ n, op ≠ .resize n

theorem exited_inv {ctl : Nat} {s s' : Pool α} {l} (ht : ThrInv s) (hs : StopInv ctl s) (hn : (s.pcs (.client ctl)).noSpawn = true)
    (he : s.cont = false → (s.pcs (.client ctl)).stopping = true ∨ ∀ w ∈ s.workers, w = .exited)
    (hd : Disciplined ctl l) (hns : NoSpawn l) (h : Act s l s') :
    (s'.pcs (.client ctl)).noSpawn = true ∧ (s'.cont = false → (s'.pcs (.client ctl)).stopping = true ∨ ∀ w ∈ s'.workers, w = .exited) := by
  have hall := fun k i => all_joined ht hs (k := k) (i := i)
  have ctlOnly : ∀ a, (s.pcs a).use = false → a = .client ctl := by
    intro a ha
    by_cases e : a = .client ctl
    · exact e
    · rw [hs.others a e] at ha; cases ha
  have setEx : ∀ (j : Nat) (w w' : WPc α), s.workers[j]? = some w → w ≠ .exited → (∀ w ∈ s.workers, w = .exited) →
      ∀ v ∈ s.workers.set j w', v = .exited := by
    intro j w w' hj hne ha
    exact absurd (ha _ (List.mem_of_getElem? hj)) hne
  have use : ∀ (a : Agent) (c : CPc α), (s.pcs a).use = true → c.use = true → (s.setPc a c).pcs (.client ctl) = s.pcs (.client ctl) ∨
      ((s.setPc a c).pcs (.client ctl) = c ∧ c.noSpawn = true ∧ (s.pcs (.client ctl)).stopping = false) := by
    intro a c ha hc
    by_cases e : Agent.client ctl = a
    · subst e
      refine .inr ⟨by simp, ?_, ?_⟩
      · cases c <;> simp [CPc.use, CPc.noSpawn] at hc ⊢
      · revert ha; cases s.pcs (.client ctl) <;> simp [CPc.use, CPc.stopping]
    · exact .inl (by rw [setPc_pcs, if_neg e])
  -- steps inside `AddTask` and `GetBusyAndTaskNum`
  have useStep : ∀ (a : Agent) (c : CPc α), (s.pcs a).use = true → c.use = true → (∀ b, s'.pcs b = if b = a then c else s.pcs b) →
      s'.cont = s.cont → ((∀ w ∈ s.workers, w = .exited) → ∀ w ∈ s'.workers, w = .exited) →
      (s'.pcs (.client ctl)).noSpawn = true ∧ (s'.cont = false → (s'.pcs (.client ctl)).stopping = true ∨ ∀ w ∈ s'.workers, w = .exited) := by
    intro a c ha hc e1 e2 e3
    rcases use a c ha hc with e | ⟨e, e4, e5⟩ <;> simp only [setPc_pcs, ← e1] at e
    · refine ⟨by rw [e]; exact hn, fun hcc => ?_⟩
      rw [e]
      rcases he (e2 ▸ hcc) with h | h
      · exact .inl h
      · exact .inr (e3 h)
    · refine ⟨by rw [e]; exact e4, fun hcc => ?_⟩
      rcases he (e2 ▸ hcc) with h | h
      · rw [e5] at h; cases h
      · exact .inr (e3 h)
  cases h
  case call a op hidle hmay =>
    obtain ⟨hn1, hn2⟩ := hns a op rfl
    rcases hd a op rfl with ⟨t, rfl⟩ | rfl | rfl
    · exact useStep a _ (by simp [hidle, CPc.use]) rfl (fun b => rfl) rfl id
    · exact useStep a _ (by simp [hidle, CPc.use]) rfl (fun b => rfl) rfl id
    · refine ⟨?_, fun hc => ?_⟩
      · cases op <;> simp [entry, CPc.noSpawn] at hn1 hn2 ⊢
      · rcases he hc with h | h
        · simp [hidle, CPc.stopping] at h
        · exact .inr h
  case addRefused a t hpc h => exact useStep a _ (by simp [hpc, CPc.use]) rfl (fun b => rfl) rfl id
  case addChecked a t hpc h h' => exact useStep a _ (by simp [hpc, CPc.use]) rfl (fun b => rfl) rfl id
  case addLocked a t hpc h => exact useStep a _ (by simp [hpc, CPc.use]) rfl (fun b => rfl) rfl id
  case addPushed a t hpc => exact useStep a _ (by simp [hpc, CPc.use]) rfl (fun b => rfl) rfl id
  case addNotified a i hpc h => exact useStep a _ (by simp [hpc, CPc.use]) rfl (fun b => rfl) rfl (setEx i _ _ h (by simp))
  case addNobody a hpc h => exact useStep a _ (by simp [hpc, CPc.use]) rfl (fun b => rfl) rfl id
  case addDone a hpc => exact useStep a _ (by simp [hpc, CPc.use]) rfl (fun b => rfl) rfl id
  case numLocked a hpc h => exact useStep a _ (by simp [hpc, CPc.use]) rfl (fun b => rfl) rfl id
  case numSized a hpc => exact useStep a _ (by simp [hpc, CPc.use]) rfl (fun b => rfl) rfl id
  case numDone a k hpc => exact useStep a _ (by simp [hpc, CPc.use]) rfl (fun b => rfl) rfl id
  case stopAlready a k hpc h =>
    have ha := ctlOnly a (by rw [hpc]; rfl)
    subst ha
    refine ⟨?_, fun hc => ?_⟩
    · rw [hpc] at hn; cases k <;> simp [afterStop, CPc.noSpawn] at hn ⊢
    · rcases he hc with h | h
      · simp [hpc, CPc.stopping] at h
      · exact .inr h
  case stopChecked a k hpc h =>
    have ha := ctlOnly a (by rw [hpc]; rfl)
    subst ha
    rw [hpc] at hn
    exact ⟨by cases k <;> simp [CPc.noSpawn] at hn ⊢, fun hc => by simp [h] at hc⟩
  case stopFlag a k hpc =>
    have ha := ctlOnly a (by rw [hpc]; rfl)
    subst ha
    rw [hpc] at hn
    exact ⟨by cases k <;> simp [CPc.noSpawn] at hn ⊢, fun hc => .inl (by simp [CPc.stopping])⟩
  case stopNotified a k hpc =>
    have ha := ctlOnly a (by rw [hpc]; rfl)
    subst ha
    rw [hpc] at hn
    exact ⟨by cases k <;> simp [CPc.noSpawn] at hn ⊢, fun hc => .inl (by simp [CPc.stopping])⟩
  case stopJoined a k i w hpc h h' =>
    have ha := ctlOnly a (by rw [hpc]; rfl)
    subst ha
    rw [hpc] at hn
    exact ⟨by cases k <;> simp [CPc.noSpawn] at hn ⊢, fun hc => .inl (by simp [CPc.stopping])⟩
  case stopBadJoin a k i w hpc h => exact ⟨hn, he⟩
  case stopSelfJoin => exact ⟨hn, he⟩
  case wThrow => exact ⟨hn, he⟩
  case stopDone a k i hpc h =>
    have ha := ctlOnly a (by rw [hpc]; rfl)
    subst ha
    refine ⟨?_, fun _ => .inr (hall k i hpc h)⟩
    rw [hpc] at hn; cases k <;> simp [afterStop, CPc.noSpawn] at hn ⊢
  case destroyed a hpc h =>
    have ha := ctlOnly a (by rw [hpc]; rfl)
    subst ha
    refine ⟨by simp [CPc.noSpawn], fun hc => ?_⟩
    rcases he hc with h | h
    · simp [hpc, CPc.stopping] at h
    · exact .inr h
  case destroyTerminates => exact ⟨hn, he⟩
  case resizeTerminates => exact ⟨hn, he⟩
  case initTerminates => exact ⟨hn, he⟩
  case wLocked i hpc h =>
    exact ⟨hn, fun hc => (he hc).imp id fun h => setEx i _ _ hpc (by simp) h⟩
  case resizeSame a n hpc h => have ha := ctlOnly a (by rw [hpc]; rfl); subst ha; simp [hpc, CPc.noSpawn] at hn
  case resizeStop a n hpc h h' => have ha := ctlOnly a (by rw [hpc]; rfl); subst ha; simp [hpc, CPc.noSpawn] at hn
  case resizeCleared a n hpc h => have ha := ctlOnly a (by rw [hpc]; rfl); subst ha; simp [hpc, CPc.noSpawn] at hn
  case initCleared a r n hpc h => have ha := ctlOnly a (by rw [hpc]; rfl); subst ha; simp [hpc, CPc.noSpawn] at hn
  case initSpawned a r n hpc => have ha := ctlOnly a (by rw [hpc]; rfl); subst ha; simp [hpc, CPc.noSpawn] at hn
  case initDone a r hpc => have ha := ctlOnly a (by rw [hpc]; rfl); subst ha; simp [hpc, CPc.noSpawn] at hn
  all_goals
    have hpc := ‹s.workers[_]? = some _›
    exact ⟨hn, fun hc => (he hc).imp id fun h => setEx _ _ _ hpc (by simp) h⟩

/-- C50, for a pool that one thread initialises, stops and never resizes: when `Stop` returns every
worker thread has returned. -/
theorem C50_exited_partial (ctl : Nat) (s₁ s s' : Pool α) (tr₁ tr : List (PoolLabel α)) (h₁ : Run {} tr₁ s₁)
    (hd₁ : ∀ l ∈ tr₁, Disciplined ctl l) (hc : s₁.cont = true) (hidle : s₁.pcs (.client ctl) = .idle) (h : Run s₁ tr s)
    (hd : ∀ l ∈ tr, Disciplined ctl l ∧ NoSpawn l) (ha : Act s (.ret (.client ctl) .stopped) s') :
    ∀ w ∈ s'.workers, w = .exited := by
  obtain ⟨ht1, hs1⟩ := disciplined_stop h₁ hd₁
  obtain ⟨ht, hs, hn, he⟩ := pool_run_inv_labels (P := fun s => ThrInv s ∧ StopInv ctl s ∧ (s.pcs (.client ctl)).noSpawn = true ∧
      (s.cont = false → (s.pcs (.client ctl)).stopping = true ∨ ∀ w ∈ s.workers, w = .exited))
    (Q := fun l => Disciplined ctl l ∧ NoSpawn l)
    (fun s l s' _ hi hq ha => ⟨thrInv_step s l s' hi.1 ha, stopInv_step ctl s l s' hi.1 hi.2.1 hq.1 ha,
      exited_inv hi.1 hi.2.1 hi.2.2.1 hi.2.2.2 hq.1 hq.2 ha⟩) h hd
    ⟨ht1, hs1, by rw [hidle]; rfl, by rw [hc]; simp⟩
  generalize hlab : PoolLabel.ret (.client ctl) .stopped = l at ha
  cases ha <;> first | cases hlab | skip
  case stopAlready a k hpc hc =>
    cases k <;> simp [stopLabel] at hlab
    subst hlab
    rcases he hc with hh | hh
    · rw [hpc] at hh; cases hh
    · exact hh
  case stopDone a k i hpc hlen =>
    cases k <;> simp [stopLabel] at hlab
    subst hlab
    exact fun w hw => all_joined ht hs hpc hlen w hw
  case initDone a r hpc => cases r <;> cases hlab

def stopCmd (n : Nat) : List (Cmd Nat) := .call 0 .stop :: cl n

/-- C50 is false if two threads call `Stop`: the second call returns at once, while a task is running. -/
theorem C50_second_stop_refuted : ∃ (s s' : Pool Nat), Reachable s ∧ Act s (.ret (.client 1) .stopped) s' ∧ s'.workers = [.run 7] := by
  obtain ⟨v, hv⟩ : ∃ v, shown (cmdRun {} (initCmd 1 ++ addCmd 7 ++ wk 0 6 ++ stopCmd 3 ++ [.call 1 .stop])) = some v ∧
      v.workers = [.run 7] ∧ v.cont = false ∧ v.client1 = .stopCheck .ret := by
    refine ⟨_, rfl, ?_⟩
    decide +kernel
  obtain ⟨s, h1, _, h3, _, h4, _, _, _, _, _, h5⟩ := shown_run hv.1
  exact ⟨s, _, ⟨_, h1⟩, .stopAlready (k := .ret) (h5.trans hv.2.2.2) (h4.trans hv.2.2.1), h3.trans hv.2.1⟩

/-- C51 is false: a task that `AddTask` accepted is not run if `Stop` comes first, and never will be. -/
theorem C51_dropped_refuted : ∃ (s s' : Pool Nat) (tr : List (PoolLabel Nat)), Run {} tr s ∧ .ret (.client 0) (.added 0) ∈ tr ∧
    (∀ l ∈ tr, Disciplined 0 l) ∧ Act s (.ret (.client 0) .stopped) s' ∧ s'.accepted = [7] ∧ s'.started = [] := by
  obtain ⟨v, hv⟩ : ∃ v, shown (cmdRun {} (initCmd 1 ++ addCmd 7 ++ stopCmd 3 ++ wk 0 3 ++ cl 1)) = some v ∧
      .ret (.client 0) (.added 0) ∈ v.trace ∧ v.client0 = .stopJoin .ret 1 ∧ v.threads = [(0, false)] ∧ v.accepted = [7] ∧ v.started = [] ∧
      ∀ l ∈ v.trace, (match l with | .call a _ => decide (a = .client 0) | _ => true) = true := by
    refine ⟨_, rfl, ?_⟩
    decide +kernel
  obtain ⟨s, h1, _, _, h2, _, _, h3, h4, _, h5, _⟩ := shown_run hv.1
  refine ⟨s, _, _, h1, hv.2.1, fun l hl a op e => ?_, .stopDone (k := .ret) (i := 1) (h5.trans hv.2.2.1) (by rw [h2, hv.2.2.2.1]; simp),
    h3.trans hv.2.2.2.2.1, h4.trans hv.2.2.2.2.2.1⟩
  have := hv.2.2.2.2.2.2 l hl
  subst e
  exact .inr (.inr (by simpa using this))

/-- C51, what holds (one controlling thread): when `Stop` returns, the accepted tasks are the finished ones
and those still in the queue; in particular all of them if the queue is empty. -/
theorem C51_accounted_partial (ctl : Nat) (s s' : Pool α) (tr : List (PoolLabel α)) (h : Run {} tr s)
    (hd : ∀ l ∈ tr, Disciplined ctl l) (ha : Act s (.ret (.client ctl) .stopped) s') :
    (s'.finished ++ s'.queue).Perm s'.accepted := by
  obtain ⟨_, h2, _⟩ := C50_quiescent_partial ctl s s' tr h hd ha
  obtain ⟨g1, _, _⟩ := histInv_step _ _ _ (reachable_hist ⟨tr, h⟩) ha
  rw [g1]
  exact h2.append_right _

/-- Hypotheses met: a run that ends with the return of `Stop`, after a task was run. -/
example : ∃ (s s' : Pool Nat) (tr : List (PoolLabel Nat)), Run {} tr s ∧ (∀ l ∈ tr, Disciplined 0 l) ∧
    Act s (.ret (.client 0) .stopped) s' ∧ s'.finished = [7] ∧ s'.queue = [8] := by
  obtain ⟨v, hv⟩ : ∃ v, shown (cmdRun {} (initCmd 1 ++ addCmd 7 ++ addCmd 8 ++ wk 0 6 ++ stopCmd 3 ++ wk 0 5 ++ cl 1)) = some v ∧
      v.client0 = .stopJoin .ret 1 ∧ v.threads = [(0, false)] ∧ v.finished = [7] ∧ v.queue = [8] ∧
      ∀ l ∈ v.trace, (match l with | .call a _ => decide (a = .client 0) | _ => true) = true := by
    refine ⟨_, rfl, ?_⟩
    decide +kernel
  obtain ⟨s, h1, h7, _, h2, _, _, _, _, h4, h5, _⟩ := shown_run hv.1
  refine ⟨s, _, _, h1, fun l hl a op e => ?_, .stopDone (k := .ret) (i := 1) (h5.trans hv.2.1) (by rw [h2, hv.2.2.1]; simp),
    h4.trans hv.2.2.2.1, h7.trans hv.2.2.2.2.1⟩
  have := hv.2.2.2.2.2 l hl
  subst e
  exact .inr (.inr (by simpa using this))

/-! ### C52 -/

/-- A function a client may be in while `Stop` of another client is stuck. -/
def CPc.harmless : CPc α → Bool
  | .idle | .addCheck _ | .stopCheck _ | .resizeCheck _ | .resizeClear _ | .initClear _ _ | .members | .numLock | .numSize | .numBusy _ => true
  | _ => false

structure Stuck (s : Pool α) : Prop where
  cont : s.cont = false
  workers : s.workers = [.waiting]
  threads : s.threads = [(0, true)]
  stop : s.pcs (.client 0) = .stopJoin .ret 0
  others : ∀ a, a ≠ .client 0 → (s.pcs a).harmless = true

theorem stuck_step {s s' : Pool α} {l} (hs : Stuck s) (hl : l ≠ .spurious) (h : Act s l s') :
    Stuck s' ∧ l ≠ .ret (.client 0) .stopped := by
  obtain ⟨h1, h2, h3, h4, h5⟩ := hs
  have noW : ∀ (i : Nat) (w : WPc α), s.workers[i]? = some w → w = .waiting := by
    intro i w hw
    rw [h2] at hw
    cases i <;> simp at hw
    exact hw.symm
  -- steps of other agents
  have other : ∀ (a : Agent) (c : CPc α), s.pcs a ≠ .stopJoin .ret 0 → c.harmless = true →
      (∀ b, s'.pcs b = if b = a then c else s.pcs b) → s'.cont = s.cont → s'.workers = s.workers → s'.threads = s.threads → Stuck s' := by
    intro a c ha hc e1 e2 e3 e4
    have hne : a ≠ .client 0 := by rintro rfl; exact ha h4
    refine ⟨e2 ▸ h1, e3 ▸ h2, e4 ▸ h3, by rw [e1, if_neg (Ne.symm hne)]; exact h4, fun b hb => ?_⟩
    rw [e1]
    by_cases e : b = a
    · rw [if_pos e]; exact hc
    · rw [if_neg e]; exact h5 b hb
  have bad : ∀ a, (s.pcs a).harmless = false → s.pcs a = .stopJoin .ret 0 := by
    intro a ha
    by_cases e : a = .client 0
    · rw [e]; exact h4
    · rw [h5 a e] at ha; cases ha
  have retne : ∀ a r, s.pcs a ≠ .stopJoin .ret 0 → (.ret a r : PoolLabel α) ≠ .ret (.client 0) .stopped := by
    intro a r ha e
    injection e with e _
    rw [e] at ha
    exact ha h4
  have same : s'.cont = s.cont → s'.workers = s.workers → s'.threads = s.threads → s'.pcs = s.pcs → Stuck s' := by
    intro e1 e2 e3 e4
    exact ⟨e1 ▸ h1, e2 ▸ h2, e3 ▸ h3, e4 ▸ h4, e4 ▸ h5⟩
  cases h
  case call a op hidle hmay =>
    exact ⟨other a _ (by rw [hidle]; simp) (by cases op <;> rfl) (fun _ => rfl) rfl rfl rfl, by simp⟩
  case addRefused a t hpc _ => exact ⟨other a _ (by rw [hpc]; simp) rfl (fun _ => rfl) rfl rfl rfl, retne _ _ (by rw [hpc]; simp)⟩
  case addChecked a t hpc h _ => rw [h1] at h; cases h
  case addLocked a t hpc _ => have := bad a (by rw [hpc]; rfl); rw [hpc] at this; cases this
  case addPushed a t hpc => have := bad a (by rw [hpc]; rfl); rw [hpc] at this; cases this
  case addNotified a i hpc _ => have := bad a (by rw [hpc]; rfl); rw [hpc] at this; cases this
  case addNobody a hpc _ => have := bad a (by rw [hpc]; rfl); rw [hpc] at this; cases this
  case addDone a hpc => have := bad a (by rw [hpc]; rfl); rw [hpc] at this; cases this
  case stopAlready a k hpc _ =>
    refine ⟨other a _ (by rw [hpc]; simp) (by cases k <;> rfl) (fun _ => rfl) rfl rfl rfl, ?_⟩
    cases k
    · exact retne _ _ (by rw [hpc]; simp)
    · simp [stopLabel]
    · simp [stopLabel]
  case stopChecked a k hpc h => rw [h1] at h; cases h
  case stopFlag a k hpc => have := bad a (by rw [hpc]; rfl); rw [hpc] at this; cases this
  case stopNotified a k hpc => have := bad a (by rw [hpc]; rfl); rw [hpc] at this; cases this
  case stopJoined a k i w hpc h h' => have := noW _ _ h'; cases this
  case stopBadJoin a k i w hpc h =>
    rw [h3] at h
    cases i <;> simp at h
  case stopSelfJoin k i w hpc h => have := h5 (.worker w) (by simp); rw [hpc] at this; cases this
  case stopDone a k i hpc h =>
    have := bad a (by rw [hpc]; rfl)
    rw [hpc] at this
    injection this with _ e
    rw [h3, e] at h
    simp at h
  case resizeSame a n hpc _ => exact ⟨other a _ (by rw [hpc]; simp) rfl (fun _ => rfl) rfl rfl rfl, retne _ _ (by rw [hpc]; simp)⟩
  case resizeStop a n hpc _ _ => exact ⟨other a _ (by rw [hpc]; simp) rfl (fun _ => rfl) rfl rfl rfl, by simp⟩
  case resizeCleared a n hpc h => have := h (0, true) (by rw [h3]; simp); cases this
  case resizeTerminates a n hpc h => exact ⟨same rfl rfl rfl rfl, by simp⟩
  case initCleared a r n hpc h => have := h (0, true) (by rw [h3]; simp); cases this
  case initTerminates a n hpc h => exact ⟨same rfl rfl rfl rfl, by simp⟩
  case initSpawned a r n hpc => have := bad a (by rw [hpc]; rfl); rw [hpc] at this; cases this
  case initDone a r hpc => have := bad a (by rw [hpc]; rfl); rw [hpc] at this; cases this
  case destroyed a hpc h => have := h (0, true) (by rw [h3]; simp); cases this
  case destroyTerminates a hpc h => exact ⟨same rfl rfl rfl rfl, by simp⟩
  case numLocked a hpc _ => exact ⟨other a _ (by rw [hpc]; simp) rfl (fun _ => rfl) rfl rfl rfl, by simp⟩
  case numSized a hpc => exact ⟨other a _ (by rw [hpc]; simp) rfl (fun _ => rfl) rfl rfl rfl, by simp⟩
  case numDone a k hpc => exact ⟨other a _ (by rw [hpc]; simp) rfl (fun _ => rfl) rfl rfl rfl, retne _ _ (by rw [hpc]; simp)⟩
  case wSpurious => exact absurd rfl hl
  all_goals
    have hpc := ‹s.workers[_]? = some _›
    have := noW _ _ hpc
    cases this

/-- C52 is false: the notification of `Stop` can fall between a worker's test of the flag and its going to
sleep (the flag is not written under the mutex).  The worker then sleeps and, whatever any thread does
afterwards, `Stop` does not return unless the operating system wakes the worker for no reason. -/
theorem C52_lost_stop_refuted : ∃ (s : Pool Nat) (tr : List (PoolLabel Nat)), Run {} tr s ∧ (∀ l ∈ tr, Disciplined 0 l) ∧
    .call (.client 0) .stop ∈ tr ∧ s.workers = [.waiting] ∧
    ∀ tr' s', Run s tr' s' → .spurious ∉ tr' → .ret (.client 0) .stopped ∉ tr' := by
  obtain ⟨v, hv⟩ : ∃ v, shown (cmdRun {} (initCmd 1 ++ wk 0 3 ++ stopCmd 3 ++ wk 0 1)) = some v ∧
      v.client0 = .stopJoin .ret 0 ∧ v.threads = [(0, true)] ∧ v.workers = [.waiting] ∧ v.cont = false ∧
      .call (.client 0) .stop ∈ v.trace ∧
      ∀ l ∈ v.trace, (match l with | .call a _ => decide (a = .client 0) | _ => true) = true := by
    refine ⟨_, rfl, ?_⟩
    decide +kernel
  obtain ⟨s, h1, h7, h3, h2, h4, _, _, _, _, h5, _⟩ := shown_run hv.1
  have hd : ∀ l ∈ v.trace, Disciplined 0 l := by
    intro l hl a op e
    have := hv.2.2.2.2.2.2 l hl
    subst e
    exact .inr (.inr (by simpa using this))
  have hl : ∀ a, a ≠ .client 0 → s.pcs a = .idle := by
    -- only client 0 has called anything
    have : ∀ (tr : List (PoolLabel Nat)) (s : Pool Nat), Run {} tr s →
        (∀ l ∈ tr, (match l with | .call a _ => decide (a = .client 0) | _ => true) = true) →
        ∀ a, a ≠ .client 0 → s.pcs a = .idle := by
      intro tr s hr hc
      refine pool_run_inv_labels (P := fun s => ∀ a, a ≠ .client 0 → s.pcs a = .idle)
        (Q := fun l => (match l with | .call a _ => decide (a = Agent.client 0) | _ => true) = true) ?_ hr hc (fun a _ => rfl)
      intro s l s' _ hi hq ha a hne
      have hid := hi a hne
      cases ha
      case call b op hidle hmay =>
        have : b = .client 0 := by simpa using hq
        subst this
        simp [hne, hid]
      all_goals first
        | exact hid
        | (have hpc := ‹s.pcs _ = _›
           rename_i b _ _
           by_cases e : a = b
           · subst e; rw [hid] at hpc; cases hpc
           · simp [e, hid])
        | (have hpc := ‹s.pcs _ = _›
           by_cases e : a = ‹Agent›
           · rw [← e, hid] at hpc; cases hpc
           · simp [e, hid])
    exact this _ _ h1 hv.2.2.2.2.2.2
  have hst : Stuck s := ⟨h4.trans hv.2.2.2.2.1, h3.trans hv.2.2.2.1, h2.trans hv.2.2.1, h5.trans hv.2.1, fun a ha => by rw [hl a ha]; rfl⟩
  refine ⟨s, _, h1, hd, hv.2.2.2.2.2.1, h3.trans hv.2.2.2.1, fun tr' s' hr => ?_⟩
  have : .spurious ∉ tr' → Stuck s' ∧ .ret (.client 0) .stopped ∉ tr' := by
    induction hr with
    | nil => exact fun _ => ⟨hst, by simp⟩
    | snoc hr hph ha ih =>
      intro hn
      simp only [List.mem_append, List.mem_singleton, not_or] at hn
      obtain ⟨i1, i2⟩ := ih hn.1
      obtain ⟨j1, j2⟩ := stuck_step i1 (Ne.symm hn.2) ha
      exact ⟨j1, by simp only [List.mem_append, List.mem_singleton, not_or]; exact ⟨i2, Ne.symm j2⟩⟩
  exact fun hn => (this hn).2

/-- The step in which `Stop` comes to its end shows its return. -/
theorem stop_shows {ctl : Nat} {s s' : Pool α} {l i} (hpc : s.pcs (.client ctl) = .stopJoin .ret i)
    (h' : s'.pcs (.client ctl) = .idle) (h : Act s l s') : l = .ret (.client ctl) .stopped := by
  generalize hcl : Agent.client ctl = c at hpc h' ⊢
  cases h
  case stopDone a k j hpc' hj =>
    by_cases e : c = a
    · subst e
      rw [hpc] at hpc'
      injection hpc' with e1 _
      rw [← e1]; rfl
    · simp [e, hpc] at h'
  all_goals first
    | (rw [hpc] at h'; cases h'; done)
    | (simp only [setW_pcs] at h'; rw [hpc] at h'; cases h'; done)
    | (exfalso
       have hpc' := ‹s.pcs _ = _›
       simp only [setPc_pcs] at h'
       split at h'
       · rename_i e
         first
           | (rw [← e, hpc] at *; simp_all; done)
           | (simp_all; done)
       · simp_all)
    | grind

/-- C52, what holds (one controlling thread): if no worker is between its test and its going to sleep when
`Stop` notifies, then however the threads are scheduled afterwards, as long as `Stop` has not returned and no task has
thrown it can still return, by steps of the calls and tasks already begun alone. -/
theorem C52_returns_partial (ctl : Nat) (s : Pool α) (tr : List (PoolLabel α)) (h : Run {} tr s) (hd : ∀ l ∈ tr, Disciplined ctl l)
    (hlive : s.phase = .live) (hpc : s.pcs (.client ctl) = .stopNotify .ret) (hb : ∀ w ∈ s.workers, w ≠ .block) :
    ∃ s₁, Act s .tau s₁ ∧ s₁.pcs (.client ctl) = .stopJoin .ret 0 ∧
    ∀ tr' s', Run s₁ tr' s' → (∀ l ∈ tr', Disciplined ctl l ∧ l ≠ .throws) → .ret (.client ctl) .stopped ∉ tr' →
    ∃ tr'' s'', Run s' (tr'' ++ [.ret (.client ctl) .stopped]) s'' ∧ ∀ l ∈ tr'', Quiet l := by
  have dtau : Disciplined ctl (.tau : PoolLabel α) := by intro a op h; cases h
  obtain ⟨ht, hs, hj⟩ := pool_run_inv_labels (P := fun s => ThrInv s ∧ StopInv ctl s ∧ JoinInv ctl s) (Q := Disciplined ctl)
    (fun s l s' _ hi hq ha => ⟨thrInv_step s l s' hi.1 ha, stopInv_step ctl s l s' hi.1 hi.2.1 hq ha, joinInv_step ctl s l s' hi.2.1 hi.2.2 ha⟩) h hd
    ⟨thrInv_init, stopInv_init ctl, joinInv_init ctl⟩
  have hact := Act.stopNotified hpc
  refine ⟨_, hact, by simp, fun tr' s' hr hd' hn => ?_⟩
  have hdr : Draining ctl .ret ({ s with workers := s.workers.map WPc.notify }.setPc (.client ctl) (.stopJoin .ret 0)) := by
    refine ⟨hlive, hj.flag (by rw [hpc]; rfl), ⟨0, by simp⟩, ?_, lockInv_step _ _ _ (reachable_lock ⟨tr, h⟩) hact,
      thrInv_step _ _ _ ht hact, stopInv_step ctl _ _ _ ht hs dtau hact, joinInv_step ctl _ _ _ hs hj hact⟩
    intro w hw
    simp only [setPc_workers, List.mem_map] at hw
    obtain ⟨w', hw', rfl⟩ := hw
    have := hb w' hw'
    cases w' <;> simp [WPc.notify] at this ⊢
  have hend : Draining ctl .ret s' := by
    induction hr with
    | nil => exact hdr
    | snoc hr hph ha ih =>
      simp only [List.mem_append, List.mem_singleton, not_or] at hn
      have hi := ih (fun l hl => hd' l (List.mem_append_left _ hl)) hn.1
      rcases draining_step hi (hd' _ (by simp)).1 (hd' _ (by simp)).2 ha with e | e
      · obtain ⟨i, hji⟩ := hi.joining
        exact absurd (stop_shows hji e ha).symm hn.2
      · exact e.1
  obtain ⟨tr'', s'', h1, h2, _⟩ := draining_returns _ _ rfl hend
  exact ⟨tr'', s'', h1, h2⟩

/-- Hypotheses met: `Stop` is about to notify, one worker is asleep and one is running a task. -/
example : ∃ (s : Pool Nat) (tr : List (PoolLabel Nat)), Run {} tr s ∧ (∀ l ∈ tr, Disciplined 0 l) ∧ s.phase = .live ∧
    s.pcs (.client 0) = .stopNotify .ret ∧ s.workers = [.run 7, .waiting] := by
  obtain ⟨v, hv⟩ : ∃ v, shown (cmdRun {} (initCmd 2 ++ addCmd 7 ++ wk 0 6 ++ wk 1 4 ++ stopCmd 2)) = some v ∧
      v.client0 = .stopNotify .ret ∧ v.phase = .live ∧ v.workers = [.run 7, .waiting] ∧
      ∀ l ∈ v.trace, (match l with | .call a _ => decide (a = .client 0) | _ => true) = true := by
    refine ⟨_, rfl, ?_⟩
    decide +kernel
  obtain ⟨s, h1, _, h3, _, _, h6, _, _, _, h5, _⟩ := shown_run hv.1
  refine ⟨s, _, h1, fun l hl a op e => ?_, h6.trans hv.2.2.1, h5.trans hv.2.1, h3.trans hv.2.2.2.1⟩
  have := hv.2.2.2.2 l hl
  subst e
  exact .inr (.inr (by simpa using this))

/-! ### C53 -/

def resizeCmd (n : Nat) : List (Cmd Nat) := [.call 0 (.resize n)]

/-- C53 is false: after `Resize` has changed the size, `AddTask` refuses every task. -/
theorem C53_refuses_refuted : ∃ (s : Pool Nat) (tr : List (PoolLabel Nat)), Run {} tr s ∧ (∀ l ∈ tr, Disciplined 0 l) ∧
    ∃ before, tr = before ++ [.ret (.client 0) .resized, .call (.client 0) (.add 7), .ret (.client 0) (.added (-2))] := by
  obtain ⟨v, hv⟩ : ∃ v, shown (cmdRun {} (initCmd 1 ++ wk 0 4 ++ resizeCmd 2 ++ cl 4 ++ wk 0 3 ++ cl 7 ++ [.call 0 (.add 7)] ++ cl 1)) = some v ∧
      v.trace = v.trace.take (v.trace.length - 3) ++ [.ret (.client 0) .resized, .call (.client 0) (.add 7), .ret (.client 0) (.added (-2))] ∧
      ∀ l ∈ v.trace, (match l with | .call a _ => decide (a = .client 0) | _ => true) = true := by
    refine ⟨_, rfl, ?_⟩
    decide +kernel
  obtain ⟨s, h1, _⟩ := shown_run hv.1
  refine ⟨s, _, h1, fun l hl a op e => ?_, _, hv.2.1⟩
  have := hv.2.2 l hl
  subst e
  exact .inr (.inr (by simpa using this))

/-- C53 is false: destroying the pool after `Resize` has changed the size terminates the program. -/
theorem C53_destroy_refuted : ∃ (s : Pool Nat) (tr : List (PoolLabel Nat)), Run {} tr s ∧ (∀ l ∈ tr, Disciplined 0 l) ∧
    .ret (.client 0) .resized ∈ tr ∧ .call (.client 0) .destroy ∈ tr ∧ s.phase = .terminated := by
  obtain ⟨v, hv⟩ : ∃ v, shown (cmdRun {} (initCmd 1 ++ wk 0 4 ++ resizeCmd 2 ++ cl 4 ++ wk 0 3 ++ cl 7 ++ [.call 0 .destroy] ++ cl 2)) = some v ∧
      .ret (.client 0) .resized ∈ v.trace ∧ .call (.client 0) .destroy ∈ v.trace ∧ v.phase = .terminated ∧
      ∀ l ∈ v.trace, (match l with | .call a _ => decide (a = .client 0) | _ => true) = true := by
    refine ⟨_, rfl, ?_⟩
    decide +kernel
  obtain ⟨s, h1, _, _, _, _, h6, _⟩ := shown_run hv.1
  refine ⟨s, _, h1, fun l hl a op e => ?_, hv.2.1, hv.2.2.1, h6.trans hv.2.2.2.1⟩
  have := hv.2.2.2.2 l hl
  subst e
  exact .inr (.inr (by simpa using this))

/-- C53, what holds: `Resize` to the current size or to 0 leaves the pool as it was.  (For other sizes see
`C53_always_refuses_partial`.) -/
theorem C53_same_partial (s s' : Pool α) (j n : Nat) (l : PoolLabel α) (hn : n = s.threadNum ∨ n = 0)
    (h : s.pcs (.client j) = .resizeCheck n) (ha : Act s l s') (hown : s'.pcs (.client j) ≠ .resizeCheck n) :
    l = .ret (.client j) .resized ∧ s' = s.setPc (.client j) .idle := by
  generalize hcl : Agent.client j = c at h hown ⊢
  have other : ∀ (a : Agent) (c' : CPc α), s.pcs a ≠ .resizeCheck n → (if c = a then c' else s.pcs c) ≠ .resizeCheck n → False := by
    intro a c' h1 h2
    by_cases e : c = a
    · rw [e] at h; exact h1 h
    · rw [if_neg e] at h2; exact h2 h
  cases ha
  case resizeSame a m hpc hm =>
    by_cases e : c = a
    · subst e; exact ⟨rfl, rfl⟩
    · exfalso; apply hown; rw [setPc_pcs, if_neg e]; exact h
  case resizeStop a m hpc hm hm' =>
    exfalso
    by_cases e : c = a
    · subst e
      rw [h] at hpc
      injection hpc with e
      subst e
      rcases hn with hn | hn
      · exact hm hn.symm
      · exact hm' hn
    · apply hown; rw [setPc_pcs, if_neg e]; exact h
  all_goals first
    | exact absurd h hown
    | (have hpc := ‹s.pcs _ = _›
       exact (other _ _ (by rw [‹s.pcs _ = _›]; simp) hown).elim)
    | (exact (other _ _ (by rename_i hpc; rw [hpc]; simp) hown).elim)
    | (exact (other _ _ (by rename_i hpc _; rw [hpc]; simp) hown).elim)
    | (exact (other _ _ (by rename_i hpc _ _; rw [hpc]; simp) hown).elim)

/-- Nothing ever sets the flag again. -/
theorem stays_stopped {s s' : Pool α} {l} (h : Act s l s') (hc : s.cont = false) : s'.cont = false := by
  cases h <;> first | exact hc | rfl

/-- The agent is in `AddTask`, past the test. -/
def CPc.adding : CPc α → Bool
  | .addLock _ | .addPush _ | .addNotify | .addUnlock => true
  | _ => false

theorem refused_step {s s' : Pool α} {l} {b : Agent} (hc : s.cont = false) (hb : (s.pcs b).adding = false) (h : Act s l s') :
    (s'.pcs b).adding = false ∧ ∀ rc, l = .ret b (.added rc) → rc = -2 := by
  have step : ∀ (a : Agent) (c : CPc α), c.adding = false → ((if b = a then c else s.pcs b) : CPc α).adding = false := by
    intro a c hc
    by_cases e : b = a
    · rw [if_pos e]; exact hc
    · rw [if_neg e]; exact hb
  have moving : ∀ (a : Agent) (c c' : CPc α), s.pcs a = c → c.adding = true → ((if b = a then c' else s.pcs b) : CPc α).adding = false ∧ b ≠ a := by
    intro a c c' h1 h2
    by_cases e : b = a
    · subst e; rw [h1] at hb; rw [hb] at h2; cases h2
    · rw [if_neg e]; exact ⟨hb, e⟩
  cases h
  case call a op _ _ => exact ⟨step a _ (by cases op <;> rfl), by simp⟩
  case addRefused a t hpc h => exact ⟨step a _ rfl, by rintro rc ⟨⟩; rfl⟩
  case addChecked a t hpc h h' => rw [hc] at h; cases h
  case addLocked a t hpc h => exact ⟨(moving a _ _ hpc rfl).1, by simp⟩
  case addPushed a t hpc => exact ⟨(moving a _ _ hpc rfl).1, by simp⟩
  case addNotified a t hpc h => exact ⟨(moving a _ _ hpc rfl).1, by simp⟩
  case addNobody a hpc h => exact ⟨(moving a _ _ hpc rfl).1, by simp⟩
  case addDone a hpc => exact ⟨(moving a _ .idle hpc rfl).1, fun rc e => by injection e with e _; exact absurd e.symm (moving a _ .idle hpc rfl).2⟩
  case stopAlready a k hpc h => exact ⟨step a _ (by cases k <;> rfl), by cases k <;> simp [stopLabel]⟩
  case stopDone a k i hpc h => exact ⟨step a _ (by cases k <;> rfl), by cases k <;> simp [stopLabel]⟩
  case initDone a r hpc => exact ⟨step a _ rfl, by cases r <;> simp⟩
  all_goals first
    | exact ⟨hb, by simp⟩
    | exact ⟨step _ _ rfl, by simp⟩

/-- The flag is cleared in the second half of a size-changing `Resize`. -/
def CPc.restarting : CPc α → Bool
  | .resizeClear _ | .initClear true _ | .initSpawn true _ => true
  | _ => false

/-- An agent joins workers only after the flag was cleared, and restarts them only then. -/
theorem restart_step {s s' : Pool α} {l} (hi : ∀ a, (s.pcs a).restarting = true ∨ (s.pcs a).stopping = true → s.cont = false)
    (h : Act s l s') : ∀ a, (s'.pcs a).restarting = true ∨ (s'.pcs a).stopping = true → s'.cont = false := by
  intro b hb
  have keep : s'.cont = false ∨ s.cont = true := by
    cases hc : s.cont with
    | false => exact .inl (stays_stopped h hc)
    | true => exact .inr rfl
  rcases keep with k | k
  · exact k
  · have hno : ∀ a, (s.pcs a).restarting = false ∧ (s.pcs a).stopping = false := by
      intro a
      constructor
      · cases e : (s.pcs a).restarting with
        | false => rfl
        | true => rw [hi a (.inl e)] at k; cases k
      · cases e : (s.pcs a).stopping with
        | false => rfl
        | true => rw [hi a (.inr e)] at k; cases k
    have step : ∀ (a : Agent) (c : CPc α), c.restarting = false → c.stopping = false →
        ¬ (((if b = a then c else s.pcs b) : CPc α).restarting = true ∨ ((if b = a then c else s.pcs b) : CPc α).stopping = true) := by
      intro a c h1 h2
      by_cases e : b = a
      · rw [if_pos e, h1, h2]; simp
      · rw [if_neg e, (hno b).1, (hno b).2]; simp
    cases h
    case call a op _ _ => exact absurd hb (step a _ (by cases op <;> rfl) (by cases op <;> rfl))
    case stopAlready a k' hpc hh => rw [hh] at k; cases k
    case stopFlag => rfl
    case stopNotified a _ hpc => have := (hno a).2; rw [hpc] at this; cases this
    case stopJoined a _ _ _ hpc _ _ => have := (hno a).2; rw [hpc] at this; cases this
    case stopDone a _ _ hpc _ => have := (hno a).2; rw [hpc] at this; cases this
    case resizeCleared a _ hpc _ => have := (hno a).1; rw [hpc] at this; cases this
    case initCleared a r n hpc _ =>
      have := (hno a).1
      rw [hpc] at this
      cases r
      · exact absurd hb (step a _ rfl rfl)
      · cases this
    case initSpawned a r n hpc =>
      have := (hno a).1
      rw [hpc] at this
      cases r
      · exact absurd hb (step a _ rfl rfl)
      · cases this
    all_goals first
      | exact absurd hb (by simp only [setW_pcs, (hno b).1, (hno b).2]; simp)
      | exact absurd hb (step _ _ rfl rfl)

/-- C53, how far the failure goes: after any `Resize` that changed the size, every later `AddTask`, by
whichever thread, returns -2, and no thread is ever able to make the pool accept tasks again. -/
theorem C53_always_refuses_partial (s s' : Pool α) (h : Reachable s) (a : Agent) (n : Nat) (hn : s.pcs a = .initSpawn true n)
    (tr : List (PoolLabel α)) (hr : Run s tr s') (b : Agent) (hb : s.pcs b = .idle) (rc : Int) (hrc : .ret b (.added rc) ∈ tr) : rc = -2 := by
  obtain ⟨tr0, h0⟩ := h
  have hc : s.cont = false := pool_run_inv (P := fun s => ∀ a, (s.pcs a).restarting = true ∨ (s.pcs a).stopping = true → s.cont = false)
    (fun s l s' _ hi ha => restart_step hi ha) h0 (by intro a; simp [CPc.restarting, CPc.stopping]) a (.inl (by rw [hn]; rfl))
  have : s'.cont = false ∧ (s'.pcs b).adding = false ∧ ∀ rc, .ret b (.added rc) ∈ tr → rc = -2 := by
    clear hrc
    induction hr with
    | nil => exact ⟨hc, by rw [hb]; rfl, by simp⟩
    | snoc hr hph ha ih =>
      obtain ⟨i1, i2, i3⟩ := ih
      obtain ⟨j1, j2⟩ := refused_step i1 i2 ha
      refine ⟨stays_stopped ha i1, j1, fun rc hm => ?_⟩
      rcases List.mem_append.1 hm with hm | hm
      · exact i3 rc hm
      · exact j2 rc (List.mem_singleton.1 hm).symm
  exact this.2.2 rc hrc

/-- Hypotheses met. -/
example : ∃ s : Pool Nat, Reachable s ∧ s.pcs (.client 0) = .initSpawn true 0 ∧ s.pcs (.client 1) = .idle ∧ s.workers = [.exited, .lock, .lock] := by
  obtain ⟨v, hv⟩ : ∃ v, shown (cmdRun {} (initCmd 1 ++ wk 0 4 ++ resizeCmd 2 ++ cl 4 ++ wk 0 3 ++ cl 6)) = some v ∧
      v.client0 = .initSpawn true 0 ∧ v.client1 = .idle ∧ v.workers = [.exited, .lock, .lock] := by
    refine ⟨_, rfl, ?_⟩
    decide +kernel
  obtain ⟨s, h1, _, h2, _, _, _, _, _, _, h3, h4⟩ := shown_run hv.1
  exact ⟨s, ⟨_, h1⟩, h3.trans hv.2.1, h4.trans hv.2.2.1, h2.trans hv.2.2.2⟩

/-! ### C54 -/

/-- C54 is false as stated: the numbers can be 0 and 0 while an accepted task is neither queued nor
finished (a worker has taken it off the queue and not yet counted itself as busy). -/
theorem C54_gap_refuted : ∃ (s s' : Pool Nat), Reachable s ∧ Act s (.ret (.client 0) (.numbers 0 0)) s' ∧
    s.accepted = [7] ∧ s.finished = [] ∧ s.workers = [.taken 7] := by
  obtain ⟨v, hv⟩ : ∃ v, shown (cmdRun {} (initCmd 1 ++ addCmd 7 ++ wk 0 4 ++ [.call 0 .numbers] ++ cl 2)) = some v ∧
      v.client0 = .numBusy 0 ∧ v.accepted = [7] ∧ v.finished = [] ∧ v.workers = [.taken 7] := by
    refine ⟨_, rfl, ?_⟩
    decide +kernel
  obtain ⟨s, h1, _, h3, _, _, _, h6, _, h8, h9, _⟩ := shown_run hv.1
  have hbusy : s.busy = s.workers.countP counted := pool_run_inv (P := fun s => s.busy = s.workers.countP counted)
    (fun s l s' _ hi ha => busy_step s l s' hi ha) h1 rfl
  rw [h3, hv.2.2.2.2] at hbusy
  refine ⟨s, { s with lock := none }.setPc (.client 0) .idle, ⟨_, h1⟩, ?_, h6.trans hv.2.2.1, h8.trans hv.2.2.2.1, h3.trans hv.2.2.2.2⟩
  rw [show PoolRet.numbers 0 0 = PoolRet.numbers s.busy 0 by rw [hbusy]; rfl]
  exact .numDone (h9.trans hv.2.1)

theorem numBusy_step {s s' : Pool α} {l} (hl : LockInv s) (hi : ∀ a k, s.pcs a = .numBusy k → k = s.queue.length) (h : Act s l s') :
    ∀ a k, s'.pcs a = .numBusy k → k = s'.queue.length := by
  -- a queue change happens under the lock, so nobody is at `numBusy` then
  have quiet : ∀ b : Agent, s.lock = some b → (∀ k, s.pcs b ≠ .numBusy k) → ∀ a k, s.pcs a ≠ .numBusy k := by
    intro b hb hn a k ha
    have := hl.agent a (by rw [ha]; rfl)
    rw [hb] at this
    injection this with e
    exact hn k (e ▸ ha)
  have same : s'.pcs = s.pcs → s'.queue = s.queue → ∀ a k, s'.pcs a = .numBusy k → k = s'.queue.length := by
    intro e1 e2; rw [e1, e2]; exact hi
  have step : ∀ (a : Agent) (c : CPc α), (∀ b, s'.pcs b = if b = a then c else s.pcs b) → s'.queue = s.queue → (∀ k, c ≠ .numBusy k) →
      ∀ a k, s'.pcs a = .numBusy k → k = s'.queue.length := by
    intro a c e1 e2 hc b k hb
    rw [e1] at hb
    by_cases e : b = a
    · rw [if_pos e] at hb; exact absurd hb (hc k)
    · rw [if_neg e] at hb; rw [e2]; exact hi b k hb
  cases h
  case call a op _ _ => exact step a _ (fun _ => rfl) rfl (by cases op <;> simp [entry])
  case addPushed a t hpc =>
    intro b k hb
    have := quiet a (hl.agent a (by rw [hpc]; rfl)) (by rw [hpc]; simp) b k
    simp only [setPc_pcs] at hb
    by_cases e : b = a
    · rw [if_pos e] at hb; cases hb
    · rw [if_neg e] at hb; exact absurd hb this
  case numSized a hpc =>
    intro b k hb
    simp only [setPc_pcs] at hb
    by_cases e : b = a
    · rw [if_pos e] at hb; injection hb with e; exact e.symm
    · rw [if_neg e] at hb; exact hi b k hb
  case wPop i t q hpc hq =>
    intro b k hb
    have hlk := hl.worker i _ hpc rfl
    have := quiet (.worker i) hlk (by
      intro k hk
      obtain ⟨t, ht⟩ := hl.task i (by rw [hk]; simp)
      rw [hpc] at ht; cases ht) b k
    exact absurd hb this
  case stopAlready a k hpc h => exact step a _ (fun _ => rfl) rfl (by cases k <;> simp [afterStop])
  case stopDone a k i hpc h => exact step a _ (fun _ => rfl) rfl (by cases k <;> simp [afterStop])
  all_goals first
    | exact same rfl rfl
    | exact step _ _ (fun _ => rfl) rfl (by simp)

/-- C54, what holds: at the moment the numbers are returned, the task number is the length of the queue and
the busy number is that of the workers that have begun a task's bookkeeping and not yet ended it, so at
most the number of workers.  (A worker between popping a task and counting itself is not included.) -/
theorem C54_numbers_partial (s s' : Pool α) (h : Reachable s) (a : Agent) (busy task : Nat)
    (ha : Act s (.ret a (.numbers busy task)) s') :
    task = s.queue.length ∧ busy = s.workers.countP counted ∧ busy ≤ s.workers.length := by
  obtain ⟨tr, h⟩ := h
  have hb : s.busy = s.workers.countP counted := pool_run_inv (P := fun s => s.busy = s.workers.countP counted)
    (fun s l s' _ hi ha => busy_step s l s' hi ha) h rfl
  have hn : ∀ a k, s.pcs a = .numBusy k → k = s.queue.length :=
    (pool_run_inv (P := fun s => LockInv s ∧ ∀ a k, s.pcs a = .numBusy k → k = s.queue.length)
      (fun s l s' _ hi ha => ⟨lockInv_step s l s' hi.1 ha, numBusy_step hi.1 hi.2 ha⟩) h ⟨lockInv_init, by simp⟩).2
  generalize hlab : PoolLabel.ret a (.numbers busy task) = l at ha
  cases ha <;> first | cases hlab | skip
  case stopAlready k _ _ => cases k <;> cases hlab
  case stopDone k _ _ _ => cases k <;> cases hlab
  case initDone r _ => cases r <;> cases hlab
  case numDone hpc => exact ⟨hn _ _ hpc, hb, hb ▸ List.countP_le_length⟩

/-- Hypotheses met: one busy worker, one queued task. -/
example : ∃ (s s' : Pool Nat), Reachable s ∧ Act s (.ret (.client 0) (.numbers s.busy 1)) s' ∧ s.workers = [.run 7] ∧ s.queue = [8] := by
  obtain ⟨v, hv⟩ : ∃ v, shown (cmdRun {} (initCmd 1 ++ addCmd 7 ++ addCmd 8 ++ wk 0 6 ++ [.call 0 .numbers] ++ cl 2)) = some v ∧
      v.client0 = .numBusy 1 ∧ v.workers = [.run 7] ∧ v.queue = [8] := by
    refine ⟨_, rfl, ?_⟩
    decide +kernel
  obtain ⟨s, h1, h2, h3, _, _, _, h6, _, h8, h9, _⟩ := shown_run hv.1
  exact ⟨s, _, ⟨_, h1⟩, .numDone (h9.trans hv.2.1), h3.trans hv.2.2.1, h2.trans hv.2.2.2⟩

/-! ### C78: the result of `AddTask` -/

theorem lastCall_snoc (tr : List (PoolLabel α)) (l : PoolLabel α) (a : Agent) :
    lastCall (tr ++ [l]) a = match l with
      | .call b op => if b = a then some op else lastCall tr a
      | _ => lastCall tr a := by
  rw [lastCall, List.foldl_append]
  rfl

theorem succeeded_snoc (tr : List (PoolLabel α)) (l : PoolLabel α) :
    succeeded (tr ++ [l]) = succeeded tr ++ newlyAdded tr l := by
  have hfst : ∀ (tr : List (PoolLabel α)) (p : List (PoolLabel α) × List α), (tr.foldl (fun (p : List (PoolLabel α) × List α) l =>
      (p.1 ++ [l], p.2 ++ newlyAdded p.1 l)) p).1 = p.1 ++ tr := by
    intro tr
    induction tr with
    | nil => simp
    | cons x tr ih => intro p; rw [List.foldl_cons, ih]; simp
  have := hfst tr ([], [])
  rw [succeeded, List.foldl_append, List.foldl_cons, List.foldl_nil, this]
  rfl

/-- The task an agent in `AddTask` has not pushed yet. -/
def CPc.toPush : CPc α → Option α
  | .addCheck t | .addLock t | .addPush t => some t
  | _ => none

/-- The agent is in `AddTask` and has pushed its task. -/
def CPc.pushed : CPc α → Bool
  | .addNotify | .addUnlock => true
  | _ => false

structure ResInv (tr : List (PoolLabel α)) (s : Pool α) : Prop where
  lock : LockInv s
  toPush : ∀ a t, (s.pcs a).toPush = some t → lastCall tr a = some (.add t)
  pushed : ∀ a, (s.pcs a).pushed = true → ∃ t, lastCall tr a = some (.add t) ∧ s.accepted = succeeded tr ++ [t]
  none : (∀ a, (s.pcs a).pushed = false) → s.accepted = succeeded tr

theorem resInv_step (tr : List (PoolLabel α)) (s : Pool α) (l) (s') (hi : ResInv tr s) (h : Act s l s') : ResInv (tr ++ [l]) s' := by
  obtain ⟨h0, h1, h2, h3⟩ := hi
  have hl' := lockInv_step _ _ _ h0 h
  -- steps that neither call nor return 0 and keep `accepted`
  have plain : (∀ a, lastCall (tr ++ [l]) a = lastCall tr a) → succeeded (tr ++ [l]) = succeeded tr → s'.accepted = s.accepted →
      (∀ a, (s'.pcs a).toPush = (s.pcs a).toPush ∨ (s'.pcs a).toPush = none) → (∀ a, (s'.pcs a).pushed = (s.pcs a).pushed) →
      ResInv (tr ++ [l]) s' := by
    intro e1 e2 e3 e4 e5
    refine ⟨hl', ?_, ?_, ?_⟩
    · intro a t ht
      rw [e1]
      rcases e4 a with e | e
      · exact h1 a t (e ▸ ht)
      · rw [e] at ht; cases ht
    · intro a ha
      rw [e1, e2, e3]
      exact h2 a (e5 a ▸ ha)
    · intro ha
      rw [e2, e3]
      exact h3 fun a => e5 a ▸ ha a
  have step : ∀ (a : Agent) (c : CPc α), (∀ b, s'.pcs b = if b = a then c else s.pcs b) →
      (c.toPush = (s.pcs a).toPush ∨ c.toPush = Option.none) → c.pushed = (s.pcs a).pushed →
      (∀ a, (s'.pcs a).toPush = (s.pcs a).toPush ∨ (s'.pcs a).toPush = Option.none) ∧ (∀ a, (s'.pcs a).pushed = (s.pcs a).pushed) := by
    intro a c e1 e2 e3
    constructor
    · intro b
      rw [e1]
      by_cases e : b = a
      · rw [if_pos e, e]; exact e2
      · rw [if_neg e]; exact .inl rfl
    · intro b
      rw [e1]
      by_cases e : b = a
      · rw [if_pos e, e]; exact e3
      · rw [if_neg e]
  have others : ∀ a b, s.lock = some a → (s.pcs b).pushed = true → b = a := by
    intro a b ha hb
    have := h0.agent b (by revert hb; cases s.pcs b <;> simp [CPc.pushed, CPc.holds])
    rw [ha] at this
    injection this with e
    exact e.symm
  cases h
  case call a op hidle hmay =>
    refine ⟨hl', ?_, ?_, ?_⟩
    · intro b t hb
      rw [lastCall_snoc]
      simp only [setPc_pcs] at hb
      by_cases e : b = a
      · rw [if_pos e] at hb
        simp only [e, if_true]
        cases op <;> simp [entry, CPc.toPush] at hb ⊢
        exact hb
      · rw [if_neg e] at hb
        simp only [if_neg (Ne.symm e)]
        exact h1 b t hb
    · intro b hb
      rw [lastCall_snoc, succeeded_snoc, show newlyAdded tr _ = [] from rfl, List.append_nil]
      simp only [setPc_pcs] at hb
      by_cases e : b = a
      · rw [if_pos e] at hb
        cases op <;> simp [entry, CPc.pushed] at hb
      · rw [if_neg e] at hb
        simp only [if_neg (Ne.symm e)]
        exact h2 b hb
    · intro hb
      rw [succeeded_snoc, show newlyAdded tr _ = [] from rfl, List.append_nil]
      refine h3 fun b => ?_
      by_cases e : b = a
      · rw [e, hidle]; rfl
      · have := hb b
        simpa only [setPc_pcs, if_neg e] using this
  case addPushed a t hpc =>
    have hlk := h0.agent a (by rw [hpc]; rfl)
    have hnone : s.accepted = succeeded tr := h3 fun b => by
      cases hb : (s.pcs b).pushed with
      | false => rfl
      | true => rw [others a b hlk hb, hpc] at hb; cases hb
    have hlast := h1 a t (by rw [hpc]; rfl)
    refine ⟨hl', ?_, ?_, ?_⟩
    · intro b t' hb
      rw [lastCall_snoc]
      simp only [setPc_pcs] at hb
      by_cases e : b = a
      · rw [if_pos e] at hb; cases hb
      · rw [if_neg e] at hb; exact h1 b t' hb
    · intro b hb
      rw [lastCall_snoc, succeeded_snoc, show newlyAdded tr _ = [] from rfl, List.append_nil]
      simp only [setPc_pcs] at hb
      by_cases e : b = a
      · exact ⟨t, by rw [e]; exact hlast, by simp only [setPc_accepted]; rw [hnone]⟩
      · rw [if_neg e] at hb
        exact absurd (others a b hlk hb) e
    · intro hb
      have := hb a
      simp [CPc.pushed] at this
  case addDone a hpc =>
    have hlk := h0.agent a (by rw [hpc]; rfl)
    obtain ⟨t, h4, h5⟩ := h2 a (by rw [hpc]; rfl)
    refine ⟨hl', ?_, ?_, ?_⟩
    · intro b t' hb
      rw [lastCall_snoc]
      simp only [setPc_pcs] at hb
      by_cases e : b = a
      · rw [if_pos e] at hb; cases hb
      · rw [if_neg e] at hb; exact h1 b t' hb
    · intro b hb
      simp only [setPc_pcs] at hb
      by_cases e : b = a
      · rw [if_pos e] at hb; cases hb
      · rw [if_neg e] at hb
        exact absurd (others a b hlk hb) e
    · intro _
      rw [succeeded_snoc]
      simp only [newlyAdded, h4, if_true]
      exact h5
  case addRefused a t hpc h =>
    obtain ⟨e1, e2⟩ := step a _ (fun _ => rfl) (.inr rfl) (by rw [hpc]; rfl)
    exact plain (fun _ => by rw [lastCall_snoc]) (by rw [succeeded_snoc]; exact List.append_nil _) rfl e1 e2
  case stopAlready a k hpc h =>
    obtain ⟨e1, e2⟩ := step a _ (fun _ => rfl) (.inr (by cases k <;> rfl)) (by rw [hpc]; cases k <;> rfl)
    exact plain (fun _ => by rw [lastCall_snoc]; cases k <;> rfl) (by rw [succeeded_snoc]; cases k <;> exact List.append_nil _) rfl e1 e2
  case stopDone a k i hpc h =>
    obtain ⟨e1, e2⟩ := step a _ (fun _ => rfl) (.inr (by cases k <;> rfl)) (by rw [hpc]; cases k <;> rfl)
    exact plain (fun _ => by rw [lastCall_snoc]; cases k <;> rfl) (by rw [succeeded_snoc]; cases k <;> exact List.append_nil _) rfl e1 e2
  case initDone a r hpc =>
    obtain ⟨e1, e2⟩ := step a _ (fun _ => rfl) (.inr rfl) (by rw [hpc]; rfl)
    exact plain (fun _ => by rw [lastCall_snoc]) (by rw [succeeded_snoc]; cases r <;> exact List.append_nil _) rfl e1 e2
  all_goals first
    | exact plain (fun _ => by rw [lastCall_snoc]) (by rw [succeeded_snoc]; exact List.append_nil _) rfl (fun _ => .inl rfl) (fun _ => rfl)
    | (have hpc := ‹s.pcs _ = _›
       obtain ⟨e1, e2⟩ := step _ _ (fun _ => rfl) (by rw [hpc]; first | exact .inl rfl | exact .inr rfl) (by rw [hpc]; rfl)
       exact plain (fun _ => by rw [lastCall_snoc]) (by rw [succeeded_snoc]; exact List.append_nil _) rfl e1 e2)

theorem resInv_run {tr : List (PoolLabel α)} {s : Pool α} (h : Run {} tr s) : ResInv tr s := by
  induction h with
  | nil => exact ⟨lockInv_init, by simp [CPc.toPush], by simp [CPc.pushed], fun _ => rfl⟩
  | snoc hr hph ha ih => exact resInv_step _ _ _ _ ih ha

/-- The trace of a successful call. -/
example : ∃ (s : Pool Nat) (tr : List (PoolLabel Nat)), Run {} tr s ∧ succeeded tr = [7] ∧ s.accepted = [7] := by
  obtain ⟨v, hv⟩ : ∃ v, shown (cmdRun {} (initCmd 1 ++ addCmd 7 ++ wk 0 6)) = some v ∧ succeeded v.trace = [7] ∧ v.accepted = [7] := by
    refine ⟨_, rfl, ?_⟩
    decide +kernel
  obtain ⟨s, h1, _, _, _, _, _, h2, _⟩ := shown_run hv.1
  exact ⟨s, _, h1, hv.2.1, h2.trans hv.2.2⟩

/-- C78: the accepted tasks are those of the `AddTask` calls that returned 0, plus at most one whose call
is about to return. -/
theorem C78_result (s : Pool α) (tr : List (PoolLabel α)) (h : Run {} tr s) :
    s.accepted = succeeded tr ∨ ∃ a t, lastCall tr a = some (.add t) ∧ s.accepted = succeeded tr ++ [t] ∧
      (s.pcs a = .addNotify ∨ s.pcs a = .addUnlock) := by
  obtain ⟨_, _, h2, h3⟩ := resInv_run h
  by_cases e : ∃ a, (s.pcs a).pushed = true
  · obtain ⟨a, ha⟩ := e
    obtain ⟨t, h4, h5⟩ := h2 a ha
    refine .inr ⟨a, t, h4, h5, ?_⟩
    revert ha
    cases s.pcs a <;> simp [CPc.pushed]
  · refine .inl (h3 fun a => ?_)
    cases hp : (s.pcs a).pushed with
    | false => rfl
    | true => exact absurd ⟨a, hp⟩ e

/-! ### C79: a stopped pool accepts nothing -/

/-- C79: once any call of `Stop` has returned, every `AddTask` call begun afterwards, by any thread, returns
-2, whatever else is called in between. -/
theorem C79_stopped_for_good (s s₁ s' : Pool α) (h : Reachable s) (a b : Agent) (ha : Act s (.ret a .stopped) s₁)
    (tr : List (PoolLabel α)) (hr : Run s₁ tr s') (hb : s₁.pcs b = .idle) (rc : Int) (hrc : .ret b (.added rc) ∈ tr) : rc = -2 := by
  obtain ⟨tr0, h0⟩ := h
  have hi := pool_run_inv (P := fun s => ∀ a, (s.pcs a).restarting = true ∨ (s.pcs a).stopping = true → s.cont = false)
    (fun s l s' _ hi ha => restart_step hi ha) h0 (by intro a; simp [CPc.restarting, CPc.stopping])
  have hc : s₁.cont = false := by
    generalize hlab : PoolLabel.ret a .stopped = l at ha
    cases ha <;> first | cases hlab | skip
    case stopAlready c k hpc hc => exact hc
    case stopDone c k i hpc hlen => exact hi c (.inr (by rw [hpc]; rfl))
    case initDone c r hpc => cases r <;> cases hlab
  have : s'.cont = false ∧ (s'.pcs b).adding = false ∧ ∀ rc, .ret b (.added rc) ∈ tr → rc = -2 := by
    clear hrc
    induction hr with
    | nil => exact ⟨hc, by rw [hb]; rfl, by simp⟩
    | snoc hr hph ha ih =>
      obtain ⟨i1, i2, i3⟩ := ih
      obtain ⟨j1, j2⟩ := refused_step i1 i2 ha
      refine ⟨stays_stopped ha i1, j1, fun rc hm => ?_⟩
      rcases List.mem_append.1 hm with hm | hm
      · exact i3 rc hm
      · exact j2 rc (List.mem_singleton.1 hm).symm
  exact this.2.2 rc hrc

/-! ### C80: the normal life of a pool -/

/-- What holds while a pool is initialised once and never resized. -/
structure LifeInv (ctl : Nat) (s : Pool α) : Prop where
  phase : s.phase ≠ .terminated
  stage : (∃ n, s.pcs (.client ctl) = .initClear false n ∧ s.threads = [] ∧ s.cont = true) ∨
    (∃ n, s.pcs (.client ctl) = .initSpawn false n ∧ s.cont = true) ∨
    ((s.pcs (.client ctl)).noSpawn = true ∧ (s.cont = false → (s.pcs (.client ctl)).stopping = true ∨ ∀ x ∈ s.threads, x.2 = false) ∧
      (s.pcs (.client ctl) = .members → s.cont = false))

theorem lifeInv_step (ctl : Nat) (s : Pool α) (l) (s') (hs : StopInv ctl s) (hj : JoinInv ctl s) (hi : LifeInv ctl s)
    (hd : Disciplined ctl l) (hn : NoSpawn l) (hnt : l ≠ .throws) (h : Act s l s') : LifeInv ctl s' := by
  obtain ⟨h1, h2⟩ := hi
  have ctlOnly : ∀ a, (s.pcs a).use = false → a = .client ctl := by
    intro a ha
    by_cases e : a = .client ctl
    · exact e
    · rw [hs.others a e] at ha; cases ha
  -- nothing but agents inside `AddTask` and `GetBusyAndTaskNum` moved
  have same : s'.phase = s.phase → s'.pcs (.client ctl) = s.pcs (.client ctl) → s'.threads = s.threads → s'.cont = s.cont → LifeInv ctl s' := by
    intro e1 e2 e3 e4
    refine ⟨e1 ▸ h1, ?_⟩
    rw [e2, e3, e4]; exact h2
  have useStep : ∀ (a : Agent) (c : CPc α), (s.pcs a).use = true → c.use = true → (∀ b, s'.pcs b = if b = a then c else s.pcs b) →
      s'.phase = s.phase → s'.threads = s.threads → s'.cont = s.cont → LifeInv ctl s' := by
    intro a c ha hc e1 e2 e3 e4
    by_cases e : a = .client ctl
    · refine ⟨e2 ▸ h1, .inr (.inr ?_)⟩
      have e5 : s'.pcs (.client ctl) = c := by rw [e1, if_pos e.symm]
      rw [e5]
      refine ⟨by revert hc; cases c <;> simp [CPc.use, CPc.noSpawn], ?_, by rintro rfl; cases hc⟩
      rw [e4, e3]
      intro hcc
      rcases h2 with ⟨n, h, _⟩ | ⟨n, h, _⟩ | ⟨_, h, _⟩
      · rw [e, h] at ha; cases ha
      · rw [e, h] at ha; cases ha
      · rcases h hcc with h | h
        · rw [e] at ha
          revert h ha
          cases s.pcs (.client ctl) <;> simp [CPc.use, CPc.stopping]
        · exact .inr h
    · exact same e2 (by rw [e1, if_neg (Ne.symm e)]) e3 e4
  have last : ∀ c, s.pcs (.client ctl) = c → c.noSpawn = true → (s.cont = false → c.stopping = true ∨ ∀ x ∈ s.threads, x.2 = false) ∧
      (c = .members → s.cont = false) := by
    intro c hc hns
    rcases h2 with ⟨n, h, _⟩ | ⟨n, h, _⟩ | ⟨_, h, h'⟩
    · rw [h] at hc; subst hc; cases hns
    · rw [h] at hc; subst hc; cases hns
    · rw [hc] at h h'; exact ⟨h, h'⟩
  have noResize : ∀ c, s.pcs (.client ctl) = c → c.noSpawn = true ∨ (∃ n, c = .initClear false n) ∨ (∃ n, c = .initSpawn false n) := by
    intro c hc
    rcases h2 with ⟨n, h, _⟩ | ⟨n, h, _⟩ | ⟨h, _⟩
    · exact .inr (.inl ⟨n, hc ▸ h⟩)
    · exact .inr (.inr ⟨n, hc ▸ h⟩)
    · exact .inl (hc ▸ h)
  cases h
  case call a op hidle hmay =>
    obtain ⟨hn1, hn2⟩ := hn a op rfl
    rcases hd a op rfl with ⟨t, rfl⟩ | rfl | rfl
    · exact useStep a _ (by rw [hidle]; rfl) rfl (fun _ => rfl) rfl rfl rfl
    · exact useStep a _ (by rw [hidle]; rfl) rfl (fun _ => rfl) rfl rfl rfl
    · refine ⟨h1, .inr (.inr ?_)⟩
      simp only [setPc_pcs, if_true, setPc_cont, setPc_threads]
      have := (last _ hidle rfl).1
      refine ⟨by cases op <;> simp [entry, CPc.noSpawn] at hn1 hn2 ⊢, fun hc => ?_, by cases op <;> simp [entry]⟩
      rcases this hc with h | h
      · cases h
      · exact .inr h
  case addRefused a t hpc h => exact useStep a _ (by rw [hpc]; rfl) rfl (fun _ => rfl) rfl rfl rfl
  case addChecked a t hpc h h' => exact useStep a _ (by rw [hpc]; rfl) rfl (fun _ => rfl) rfl rfl rfl
  case addLocked a t hpc h => exact useStep a _ (by rw [hpc]; rfl) rfl (fun _ => rfl) rfl rfl rfl
  case addPushed a t hpc => exact useStep a _ (by rw [hpc]; rfl) rfl (fun _ => rfl) rfl rfl rfl
  case addNotified a i hpc h => exact useStep a _ (by rw [hpc]; rfl) rfl (fun _ => rfl) rfl rfl rfl
  case addNobody a hpc h => exact useStep a _ (by rw [hpc]; rfl) rfl (fun _ => rfl) rfl rfl rfl
  case addDone a hpc => exact useStep a _ (by rw [hpc]; rfl) rfl (fun _ => rfl) rfl rfl rfl
  case numLocked a hpc h => exact useStep a _ (by rw [hpc]; rfl) rfl (fun _ => rfl) rfl rfl rfl
  case numSized a hpc => exact useStep a _ (by rw [hpc]; rfl) rfl (fun _ => rfl) rfl rfl rfl
  case numDone a k hpc => exact useStep a _ (by rw [hpc]; rfl) rfl (fun _ => rfl) rfl rfl rfl
  case stopAlready a k hpc h =>
    have ha := ctlOnly a (by rw [hpc]; rfl)
    subst ha
    have hk : (CPc.stopCheck k : CPc α).noSpawn = true := by
      rcases noResize _ hpc with e | ⟨_, e⟩ | ⟨_, e⟩
      · exact e
      · cases e
      · cases e
    refine ⟨h1, .inr (.inr ?_)⟩
    simp only [setPc_pcs, if_true, setPc_cont, setPc_threads]
    refine ⟨by cases k <;> simp [afterStop, CPc.noSpawn] at hk ⊢, fun hc => ?_, fun _ => h⟩
    rcases (last _ hpc hk).1 hc with h | h
    · cases h
    · exact .inr h
  case stopChecked a k hpc h =>
    have ha := ctlOnly a (by rw [hpc]; rfl)
    subst ha
    have hk : (CPc.stopCheck k : CPc α).noSpawn = true := by
      rcases noResize _ hpc with e | ⟨_, e⟩ | ⟨_, e⟩
      · exact e
      · cases e
      · cases e
    refine ⟨h1, .inr (.inr ?_)⟩
    simp only [setPc_pcs, if_true, setPc_cont, setPc_threads]
    exact ⟨by cases k <;> simp [CPc.noSpawn] at hk ⊢, fun hc => (by rw [h] at hc; cases hc), by simp⟩
  case stopFlag a k hpc =>
    have ha := ctlOnly a (by rw [hpc]; rfl)
    subst ha
    have hk : (CPc.stopSet k : CPc α).noSpawn = true := by
      rcases noResize _ hpc with e | ⟨_, e⟩ | ⟨_, e⟩
      · exact e
      · cases e
      · cases e
    refine ⟨h1, .inr (.inr ?_)⟩
    simp only [setPc_pcs, if_true, setPc_cont, setPc_threads]
    exact ⟨by cases k <;> simp [CPc.noSpawn] at hk ⊢, fun _ => .inl rfl, by simp⟩
  case stopNotified a k hpc =>
    have ha := ctlOnly a (by rw [hpc]; rfl)
    subst ha
    have hk : (CPc.stopNotify k : CPc α).noSpawn = true := by
      rcases noResize _ hpc with e | ⟨_, e⟩ | ⟨_, e⟩
      · exact e
      · cases e
      · cases e
    refine ⟨h1, .inr (.inr ?_)⟩
    simp only [setPc_pcs, if_true, setPc_cont, setPc_threads]
    exact ⟨by cases k <;> simp [CPc.noSpawn] at hk ⊢, fun _ => .inl rfl, by simp⟩
  case stopJoined a k i w hpc h h' =>
    have ha := ctlOnly a (by rw [hpc]; rfl)
    subst ha
    have hk : (CPc.stopJoin k i : CPc α).noSpawn = true := by
      rcases noResize _ hpc with e | ⟨_, e⟩ | ⟨_, e⟩
      · exact e
      · cases e
      · cases e
    refine ⟨h1, .inr (.inr ?_)⟩
    simp only [setPc_pcs, if_true, setPc_cont, setPc_threads]
    exact ⟨by cases k <;> simp [CPc.noSpawn] at hk ⊢, fun _ => .inl rfl, by simp⟩
  case stopBadJoin a k i w hpc h =>
    have ha := ctlOnly a (by rw [hpc]; rfl)
    subst ha
    have := hj.left k i hpc i _ (Nat.le_refl _) h
    cases this
  case stopDone a k i hpc h =>
    have ha := ctlOnly a (by rw [hpc]; rfl)
    subst ha
    have hk : (CPc.stopJoin k i : CPc α).noSpawn = true := by
      rcases noResize _ hpc with e | ⟨_, e⟩ | ⟨_, e⟩
      · exact e
      · cases e
      · cases e
    refine ⟨h1, .inr (.inr ?_)⟩
    simp only [setPc_pcs, if_true, setPc_cont, setPc_threads]
    refine ⟨by cases k <;> simp [afterStop, CPc.noSpawn] at hk ⊢, fun _ => .inr ?_, fun _ => hj.flag (by rw [hpc]; rfl)⟩
    intro x hx
    obtain ⟨m, hm⟩ := List.getElem?_of_mem hx
    exact hs.joined k i hpc m x.1 x.2 (Nat.lt_of_lt_of_le (List.getElem?_eq_some_iff.1 hm).1 h) hm
  case resizeSame a n hpc h =>
    have ha := ctlOnly a (by rw [hpc]; rfl)
    subst ha
    rcases noResize _ hpc with e | ⟨_, e⟩ | ⟨_, e⟩ <;> cases e
  case resizeStop a n hpc h h' =>
    have ha := ctlOnly a (by rw [hpc]; rfl)
    subst ha
    rcases noResize _ hpc with e | ⟨_, e⟩ | ⟨_, e⟩ <;> cases e
  case resizeCleared a n hpc h =>
    have ha := ctlOnly a (by rw [hpc]; rfl)
    subst ha
    rcases noResize _ hpc with e | ⟨_, e⟩ | ⟨_, e⟩ <;> cases e
  case resizeTerminates a n hpc h =>
    have ha := ctlOnly a (by rw [hpc]; rfl)
    subst ha
    rcases noResize _ hpc with e | ⟨_, e⟩ | ⟨_, e⟩ <;> cases e
  case initCleared a r n hpc h =>
    have ha := ctlOnly a (by rw [hpc]; rfl)
    subst ha
    rcases h2 with ⟨m, e, e2, e3⟩ | ⟨m, e, _⟩ | ⟨e, _⟩
    · rw [hpc] at e
      injection e with e4 e5
      subst e4
      exact ⟨h1, .inr (.inl ⟨n, by simp, e3⟩)⟩
    · rw [hpc] at e; cases e
    · rw [hpc] at e; cases e
  case initTerminates a r n hpc h =>
    have ha := ctlOnly a (by rw [hpc]; rfl)
    subst ha
    rcases h2 with ⟨m, e, e2, e3⟩ | ⟨m, e, _⟩ | ⟨e, _⟩
    · obtain ⟨x, hx, _⟩ := h
      rw [e2] at hx; cases hx
    · rw [hpc] at e; cases e
    · rw [hpc] at e; cases e
  case initSpawned a r n hpc =>
    have ha := ctlOnly a (by rw [hpc]; rfl)
    subst ha
    rcases h2 with ⟨m, e, _⟩ | ⟨m, e, e2⟩ | ⟨e, _⟩
    · rw [hpc] at e; cases e
    · rw [hpc] at e
      injection e with e4 e5
      subst e4
      exact ⟨h1, .inr (.inl ⟨n, by simp, e2⟩)⟩
    · rw [hpc] at e; cases e
  case initDone a r hpc =>
    have ha := ctlOnly a (by rw [hpc]; rfl)
    subst ha
    rcases h2 with ⟨m, e, _⟩ | ⟨m, e, e2⟩ | ⟨e, _⟩
    · rw [hpc] at e; cases e
    · exact ⟨h1, .inr (.inr ⟨by simp [CPc.noSpawn], fun hc => by simp [e2] at hc, by simp⟩)⟩
    · rw [hpc] at e; cases e
  case destroyed a hpc h =>
    have ha := ctlOnly a (by rw [hpc]; rfl)
    subst ha
    exact ⟨by simp, .inr (.inr ⟨by simp [CPc.noSpawn], fun _ => .inr h, by simp⟩)⟩
  case destroyTerminates a hpc h =>
    have ha := ctlOnly a (by rw [hpc]; rfl)
    subst ha
    obtain ⟨h3, h4⟩ := last _ hpc rfl
    obtain ⟨x, hx, hx'⟩ := h
    rcases h3 (h4 rfl) with e | e
    · cases e
    · rw [e x hx] at hx'; cases hx'
  case stopSelfJoin k i w hpc h => exact absurd (ctlOnly _ (by rw [hpc]; rfl)) (by simp)
  case wThrow => exact absurd rfl hnt
  all_goals exact same rfl rfl rfl rfl

/-- C80: a pool that one thread initialises once, stops any number of times, and destroys, while any number of
threads and the tasks themselves add tasks and ask for the numbers, never terminates the program as long as no task throws:
no joinable thread is destroyed and no thread is joined twice. -/
theorem C80_no_terminate (ctl n : Nat) (s : Pool α) (tr : List (PoolLabel α))
    (h : Run (({} : Pool α).setPc (.client ctl) (entry (.init n))) tr s) (hd : ∀ l ∈ tr, Disciplined ctl l ∧ NoSpawn l ∧ l ≠ .throws) : s.phase ≠ .terminated := by
  have hact : Act ({} : Pool α) (.call (.client ctl) (.init n)) (({} : Pool α).setPc (.client ctl) (entry (.init n))) := .call rfl trivial
  have hdis : Disciplined ctl (.call (.client ctl) (.init n) : PoolLabel α) := by
    rintro a op e
    injection e with e1 e2
    exact .inr (.inr e1.symm)
  have h0 := thrInv_step _ _ _ thrInv_init hact
  have h1 := stopInv_step ctl _ _ _ thrInv_init (stopInv_init ctl) hdis hact
  have h2 := joinInv_step ctl _ _ _ (stopInv_init ctl) (joinInv_init ctl) hact
  have h3 : LifeInv ctl (({} : Pool α).setPc (.client ctl) (entry (.init n))) :=
    ⟨by simp, .inl ⟨n, by simp [entry], rfl, rfl⟩⟩
  exact (pool_run_inv_labels (P := fun s => ThrInv s ∧ StopInv ctl s ∧ JoinInv ctl s ∧ LifeInv ctl s) (Q := fun l => Disciplined ctl l ∧ NoSpawn l ∧ l ≠ .throws)
    (fun s l s' _ hi hq ha => ⟨thrInv_step s l s' hi.1 ha, stopInv_step ctl s l s' hi.1 hi.2.1 hq.1 ha,
      joinInv_step ctl s l s' hi.2.1 hi.2.2.1 ha, lifeInv_step ctl s l s' hi.2.1 hi.2.2.1 hi.2.2.2 hq.1 hq.2.1 hq.2.2 ha⟩) h hd ⟨h0, h1, h2, h3⟩).2.2.2.phase

/-- Hypotheses met: a pool that is stopped and destroyed after a task. -/
example : ∃ s : Pool Nat, Reachable s ∧ s.finished = [7] ∧ s.phase = .destroyed := by
  obtain ⟨v, hv⟩ : ∃ v, shown (cmdRun {} (initCmd 1 ++ addCmd 7 ++ wk 0 6 ++ stopCmd 3 ++ wk 0 5 ++ cl 2 ++ [.call 0 .destroy] ++ cl 2)) = some v ∧
      v.finished = [7] ∧ v.phase = .destroyed := by
    refine ⟨_, rfl, ?_⟩
    decide +kernel
  obtain ⟨s, h1, _, _, _, _, h3, _, _, h4, _⟩ := shown_run hv.1
  exact ⟨s, ⟨_, h1⟩, h4.trans hv.2.1, h3.trans hv.2.2⟩

end Cppnet
