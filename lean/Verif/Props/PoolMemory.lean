import Verif.Spec.PoolMemory
import Verif.Props.ThreadLimit

/-!
# C199: a pool whose program runs out of memory keeps the tasks it has
-/

namespace Cppnet
open Spec Pool
variable {α : Type}

/-- What the exception does is what the end of `AddTask` would do. -/
theorem addThrew_done (s : Pool α) (a : Agent) :
    Act (s.setPc a .addUnlock) (.ret a (.added 0)) ({ s with lock := none }.setPc a .idle) :=
  act_eq (.addDone (by simp)) (by rw [← setPc_twice { s with lock := none } a .addUnlock .idle]; rfl)

theorem mem_inv {P : Pool α → Prop} {Q : MemLabel α → Prop} (hstep : ∀ s l s', s.phase = .live → P s → Q (.pool l) → Act s l s' → P s')
    (hpush : ∀ s a t, s.pcs a = .addPush t → P s → P (s.setPc a .addUnlock))
    (hret : ∀ a : Agent, Q (.pool (.ret a (.added 0))))
    (hterm : ∀ s i, Q (.copyThrew i) → P s → P { s with phase := .terminated })
    {s tr s'} (h : MemRun s tr s') (hq : ∀ l ∈ tr, Q l) (h0 : P s) : P s' := by
  induction h with
  | nil => exact h0
  | snoc _ hl ha ih =>
    have ih := ih fun l h => hq l (by simp [h])
    cases ha with
    | act ha => exact hstep _ _ _ hl ih (hq _ (by simp)) ha
    | @addThrew a t hpc => exact hstep _ _ _ (by simpa using hl) (hpush _ _ _ hpc ih) (hret a) (addThrew_done _ a)
    | copyThrew _ _ => exact hterm _ _ (hq _ (List.mem_append_right _ (List.mem_singleton.2 rfl))) ih

theorem mem_hist {s : Pool α} {tr} (h : MemRun {} tr s) : HistInv s :=
  mem_inv (Q := fun _ => True) (fun s l s' _ hi _ ha => histInv_step s l s' hi ha) (fun _ _ _ _ h => ⟨h.fifo, h.popped, h.started⟩)
    (fun _ => trivial) (fun _ _ _ h => ⟨h.fifo, h.popped, h.started⟩) h (fun _ _ => trivial) ⟨rfl, .nil, .nil⟩

theorem lock_push {s : Pool α} {a : Agent} {t : α} (hpc : s.pcs a = .addPush t) (h : LockInv s) : LockInv (s.setPc a .addUnlock) := by
  obtain ⟨h1, h2, h3, h4, h5⟩ := h
  refine ⟨h1, fun b hb => ?_, fun i hi => ?_, fun b hb => ?_, h5⟩
  · simp only [setPc_pcs] at hb
    by_cases e : b = a
    · subst e; exact h2 b (by rw [hpc]; rfl)
    · rw [if_neg e] at hb; exact h2 b hb
  · refine h3 i ?_
    simp only [setPc_pcs] at hi
    by_cases e : Agent.worker i = a
    · rw [e, hpc]; simp
    · rw [if_neg e] at hi; exact hi
  · rcases h4 b hb with h | h
    · refine .inl ?_
      simp only [setPc_pcs]
      by_cases e : b = a
      · rw [if_pos e]; rfl
      · rw [if_neg e]; exact h
    · exact .inr h

theorem wake_push {s : Pool α} {a : Agent} {t : α} (hpc : s.pcs a = .addPush t) (h : WakeInv s) : WakeInv (s.setPc a .addUnlock) := by
  obtain ⟨h1, h2⟩ := h
  refine ⟨fun hc hb => ?_, h2⟩
  rcases h1 hc hb with h | ⟨h, b, hb⟩
  · exact .inl h
  · refine .inr ⟨h, b, ?_⟩
    simp only [setPc_pcs]
    by_cases e : b = a
    · rw [e, hpc] at hb; cases hb
    · rw [if_neg e]; exact hb

theorem mem_wake {s : Pool α} {tr} (h : MemRun {} tr s) : LockInv s ∧ WakeInv s :=
  mem_inv (P := fun s => LockInv s ∧ WakeInv s) (Q := fun _ => True)
    (fun s l s' _ hi _ ha => ⟨lockInv_step s l s' hi.1 ha, wakeInv_step s l s' hi.1 hi.2 ha⟩)
    (fun _ _ _ hpc h => ⟨lock_push hpc h.1, wake_push hpc h.2⟩) (fun _ => trivial)
    (fun _ _ _ h => ⟨⟨h.1.worker, h.1.agent, h.1.task, h.1.holder, h.1.empty⟩, ⟨h.2.wake, h.2.exited⟩⟩) h (fun _ _ => trivial)
    ⟨lockInv_init, wakeInv_init⟩

/-! ### What a call that threw has added -/

/-- The agent has pushed a task, its `AddTask` has not returned. -/
def CPc.hasPushed : CPc α → Bool
  | .addNotify | .addUnlock => true
  | _ => false

/-- The number of calls of `AddTask` that have pushed a task and not returned: only the holder of the mutex can be in one. -/
def pend (s : Pool α) : Nat :=
  match s.lock with
  | some a => if (s.pcs a).hasPushed then 1 else 0
  | none => 0

theorem pend_setPc {s : Pool α} {a : Agent} {c : CPc α} (h : (s.pcs a).hasPushed = c.hasPushed) : pend (s.setPc a c) = pend s := by
  unfold pend
  simp only [setPc_lock, setPc_pcs]
  cases s.lock with
  | none => rfl
  | some b =>
    by_cases e : b = a
    · subst e; simp [h]
    · simp [e]

theorem pend_held {s : Pool α} {a : Agent} (hl : s.lock = some a) (h : (s.pcs a).hasPushed = false) : pend s = 0 := by simp [pend, hl, h]

theorem pend_same {s s' : Pool α} (h : s'.lock = s.lock) (h' : ∀ b, (s'.pcs b).hasPushed = (s.pcs b).hasPushed) : pend s' = pend s := by
  unfold pend
  rw [h]
  cases s.lock with
  | none => rfl
  | some b => simp [h']

/-- What a step of the pool adds to the number of the calls that returned 0. -/
def okStep : PoolLabel α → Nat
  | .ret _ (.added n) => if n = 0 then 1 else 0
  | _ => 0

theorem worker_idle {s : Pool α} (h : LockInv s) {i : Nat} {w : WPc α} (hw : s.workers[i]? = some w) (hh : ∀ t, w ≠ .run t) :
    (s.pcs (.worker i)).hasPushed = false := by
  by_cases e : s.pcs (.worker i) = .idle
  · rw [e]; rfl
  · obtain ⟨t, ht⟩ := h.task i e
    rw [hw] at ht
    injection ht with ht
    exact absurd ht (hh t)

theorem pend_locked {s : Pool α} {a : Agent} (h : s.lock = some a) : pend s = if (s.pcs a).hasPushed then 1 else 0 := by simp [pend, h]

theorem pend_free {s : Pool α} (h : s.lock = none) : pend s = 0 := by simp [pend, h]

theorem afterStop_pushed (k : AfterStop) : (afterStop k : CPc α).hasPushed = false := by cases k <;> rfl

theorem okStep_stop (a : Agent) (k : AfterStop) : okStep (stopLabel a k : PoolLabel α) = 0 := by cases k <;> rfl

theorem pend_step {s s' : Pool α} {l : PoolLabel α} (hi : LockInv s) (h : Act s l s') :
    s'.accepted.length + pend s = s.accepted.length + pend s' + okStep l := by
  have keep : ∀ {a : Agent} {c d : CPc α}, s.pcs a = c → c.hasPushed = false → d.hasPushed = false → pend (s.setPc a d) = pend s := by
    intro a c d h1 h2 h3
    exact pend_setPc (by rw [h1, h2, h3])
  cases h
  case call a op hidle hmay =>
    rw [keep hidle rfl (by cases op <;> rfl)]; rfl
  case addRefused a t hpc h => rw [keep hpc rfl rfl]; rfl
  case addLocked a t hpc h => rw [pend_free h, pend_locked (s := Pool.setPc _ _ _) (a := a) rfl]; simp [CPc.hasPushed, okStep]
  case addPushed a t hpc =>
    have hl := hi.agent a (by rw [hpc]; rfl)
    simp [pend, hl, hpc, CPc.hasPushed, okStep]
  case addNotified a i hpc h =>
    have hl := hi.agent a (by rw [hpc]; rfl)
    simp [pend, hl, hpc, CPc.hasPushed, okStep]
  case addNobody a hpc h =>
    have hl := hi.agent a (by rw [hpc]; rfl)
    simp [pend, hl, hpc, CPc.hasPushed, okStep]
  case addDone a hpc =>
    have hl := hi.agent a (by rw [hpc]; rfl)
    rw [pend_locked hl, pend_free (s := Pool.setPc _ _ _) rfl, hpc]
    simp [CPc.hasPushed, okStep]
  case numLocked a hpc h => rw [pend_free h, pend_locked (s := Pool.setPc _ _ _) (a := a) rfl]; simp [CPc.hasPushed, okStep]
  case numDone a k hpc =>
    have hl := hi.agent a (by rw [hpc]; rfl)
    rw [pend_locked hl, pend_free (s := Pool.setPc _ _ _) rfl, hpc]
    simp [CPc.hasPushed, okStep]
  case stopAlready a k hpc h => rw [keep hpc rfl (afterStop_pushed k), okStep_stop]; rfl
  case stopDone a k i hpc h => rw [keep hpc rfl (afterStop_pushed k), okStep_stop]; rfl
  case initDone a r hpc => rw [keep hpc rfl rfl]; cases r <;> rfl
  case wLocked i hpc h =>
    rw [pend_free h, pend_locked (s := Pool.setW _ _ _) (a := .worker i) rfl]
    simp [worker_idle hi hpc (by simp), okStep]
  case wRelocked i hpc h =>
    rw [pend_free h, pend_locked (s := Pool.setW _ _ _) (a := .worker i) rfl]
    simp [worker_idle hi hpc (by simp), okStep]
  case destroyed a hpc h => exact congrArg (s.accepted.length + ·) (keep (d := .idle) hpc rfl rfl).symm
  case numSized a hpc => exact congrArg (s.accepted.length + ·) (keep (d := .numBusy s.queue.length) hpc rfl rfl).symm
  all_goals first
    | rfl
    | (have hpc := ‹s.pcs _ = _›
       refine congrArg (s.accepted.length + ·) (pend_same (s := s) (s' := Pool.setPc _ _ _) rfl fun b => ?_).symm
       simp only [setPc_pcs]
       split
       · rename_i e; rw [e, hpc]; rfl
       · rfl)
    | (have hpc := ‹s.workers[_]? = some _›
       have hl := hi.worker _ _ hpc rfl
       rw [pend_held hl (worker_idle hi hpc (by simp)), pend_free (s := Pool.setW _ _ _) rfl]
       rfl)

theorem pend_le (s : Pool α) : pend s ≤ 1 := by
  unfold pend
  split
  · split <;> omega
  · omega

theorem mem_count {s : Pool α} {tr : List (MemLabel α)} (h : MemRun {} tr s) : s.accepted.length = addedOk tr + pend s := by
  induction h with
  | nil => rfl
  | @snoc tr s' l s'' hr hl ha ih =>
    have hi := (mem_wake hr).1
    unfold addedOk at ih ⊢
    rw [List.countP_append]
    cases ha with
    | @act l' _ ha =>
      have := pend_step hi ha
      have e : addedOk [MemLabel.pool l'] = okStep l' := by
        unfold addedOk
        rw [List.countP_singleton]
        cases l' with
        | ret a r => cases r <;> simp [okStep]
        | _ => rfl
      unfold addedOk at e
      rw [e]
      omega
    | @addThrew a t hpc =>
      have hlk := hi.agent a (by rw [hpc]; rfl)
      rw [pend_free (s := Pool.setPc _ _ _) rfl]
      rw [pend_held hlk (by rw [hpc]; rfl)] at ih
      simpa using ih
    | copyThrew _ _ => simpa [pend] using ih

/-- **C199**, whatever allocations fail: what was accepted is queued, in the hands of one worker or finished, and nothing is run
twice.  The pool has accepted one task for each `AddTask` that returned 0, and perhaps the one of a call that is about to return 0;
none for a call that threw. -/
theorem C199_once_partial (s : Pool α) (tr : List (MemLabel α)) (h : MemRun {} tr s) :
    s.accepted = s.popped ++ s.queue ∧ s.popped.Perm (s.finished ++ s.workers.flatMap inHand) ∧
    s.started.Perm (s.finished ++ s.workers.flatMap executing) ∧
    addedOk tr ≤ s.accepted.length ∧ s.accepted.length ≤ addedOk tr + 1 ∧ ((∀ a, s.pcs a = .idle) → s.accepted.length = addedOk tr) := by
  have hi := mem_hist h
  have hc := mem_count h
  have := pend_le s
  refine ⟨hi.fifo, hi.popped, hi.started, by omega, by omega, fun hid => ?_⟩
  rw [hc]
  unfold pend
  split
  · simp [hid, CPc.hasPushed]
  · rfl

/-- **C199**: a call of `AddTask` that threw has left the mutex to the others, and neither a task nor a worker has changed. -/
theorem C199_threw (s s' : Pool α) (tr : List (MemLabel α)) (a : Agent) (_h : MemRun {} tr s) (ha : MemAct s (.addThrew a) s') :
    s.lock = some a ∧ s'.lock = none ∧ s'.pcs a = .idle ∧ s'.queue = s.queue ∧ s'.accepted = s.accepted ∧ s'.workers = s.workers ∧
    s'.phase = s.phase ∧ s'.cont = s.cont := by
  cases ha with
  | addThrew hpc => exact ⟨(mem_wake _h).1.agent a (by rw [hpc]; rfl), rfl, by simp, rfl, rfl, rfl, rfl, rfl⟩

/-- **C199**: as long as there is a worker without a task, the first task of the queue can be taken, by steps of the pool and the calls
already begun alone, whatever calls threw before. -/
theorem C199_progress_partial (s : Pool α) (tr : List (MemLabel α)) (h : MemRun {} tr s) (hl : s.phase = .live) (hc : s.cont = true)
    (t : α) (q : List α) (hq : s.queue = t :: q) (hf : ∃ w ∈ s.workers, free w = true) :
    ∃ tr s', Run s tr s' ∧ s'.popped = s.popped ++ [t] ∧ ∀ l ∈ tr, Quiet l :=
  takes_next ⟨hl, hc, ⟨q, hq⟩, (mem_wake h).1, (mem_wake h).2⟩ hf

/-! ### Stopping -/

theorem stop_push {ctl : Nat} {s : Pool α} {a : Agent} {t : α} (hpc : s.pcs a = .addPush t) (h : StopInv ctl s) :
    StopInv ctl (s.setPc a .addUnlock) := by
  refine ⟨fun b hb => ?_, fun k i hk => ?_, fun hc => ?_⟩
  · simp only [setPc_pcs]
    split
    · rfl
    · exact h.others b hb
  · simp only [setPc_pcs] at hk
    split at hk
    · cases hk
    · exact h.joined k i hk
  · rcases h.stopped hc with h | h
    · refine .inl ?_
      simp only [setPc_pcs]
      split
      · rename_i e; rw [e, hpc] at h; cases h
      · exact h
    · exact .inr h

theorem join_push {ctl : Nat} {s : Pool α} {a : Agent} (h : JoinInv ctl s) : JoinInv ctl (s.setPc a .addUnlock) := by
  by_cases e : Agent.client ctl = a
  · subst e
    exact ⟨h.valid, h.running, by simp, by simp, by simp [CPc.stopping], by simp⟩
  · have hp : (s.setPc a .addUnlock).pcs (.client ctl) = s.pcs (.client ctl) := by simp [e]
    exact ⟨h.valid, h.running, fun k hk => h.notYet k (hp ▸ hk), fun k i hk => h.left k i (hp ▸ hk), fun hk => h.flag (hp ▸ hk),
      fun k hk => h.before k (hp ▸ hk)⟩

theorem mem_stop {ctl : Nat} {s : Pool α} {tr} (h : MemRun {} tr s) (hd : ∀ l ∈ tr, MemDisciplined ctl l) :
    ThrInv s ∧ StopInv ctl s ∧ JoinInv ctl s :=
  mem_inv (P := fun s => ThrInv s ∧ StopInv ctl s ∧ JoinInv ctl s) (Q := MemDisciplined ctl)
    (fun s l s' _ hi hq ha => ⟨thrInv_step s l s' hi.1 ha, stopInv_step ctl s l s' hi.1 hi.2.1 (hq l rfl) ha,
      joinInv_step ctl s l s' hi.2.1 hi.2.2 ha⟩)
    (fun s a t hpc hi => ⟨thr_pc hi.1, stop_push hpc hi.2.1, join_push hi.2.2⟩)
    (fun a l' e => by cases e; intro a op e; cases e)
    (fun s _ _ h => ⟨⟨h.1.listed, h.1.joined⟩, ⟨h.2.1.others, h.2.1.joined, h.2.1.stopped⟩,
      ⟨h.2.2.valid, h.2.2.running, h.2.2.notYet, h.2.2.left, h.2.2.flag, h.2.2.before⟩⟩)
    h hd ⟨thrInv_init, stopInv_init ctl, joinInv_init ctl⟩

/-- **C199**, with one controlling thread: when `Stop` returns no worker has a task, and the accepted tasks are the finished ones and
those still in the queue. -/
theorem C199_stop_partial (ctl : Nat) (s s' : Pool α) (tr : List (MemLabel α)) (h : MemRun {} tr s) (hd : ∀ l ∈ tr, MemDisciplined ctl l)
    (ha : Act s (.ret (.client ctl) .stopped) s') :
    (∀ w ∈ s'.workers, inHand w = []) ∧ (s'.finished ++ s'.queue).Perm s'.accepted := by
  obtain ⟨ht, hs, hj⟩ := mem_stop h hd
  have key : (∀ w ∈ s.workers, noTask w = true) ∧ s'.workers = s.workers := by
    generalize hlab : PoolLabel.ret (.client ctl) .stopped = l at ha
    cases ha <;> first | cases hlab | skip
    case stopAlready a k hpc hc =>
      cases k <;> simp [stopLabel] at hlab
      subst hlab
      refine ⟨?_, rfl⟩
      rcases hs.stopped hc with hh | hh
      · rw [hpc] at hh; cases hh
      · exact hh
    case stopDone a k i hpc hlen =>
      cases k <;> simp [stopLabel] at hlab
      subst hlab
      refine ⟨fun w hw => ?_, rfl⟩
      rw [all_joined ht hs hpc hlen w hw]; rfl
    case initDone a r hpc => cases r <;> cases hlab
  have hin : ∀ w ∈ s'.workers, inHand w = [] := by
    intro w hw
    rw [key.2] at hw
    have := key.1 w hw
    cases w <;> simp [noTask, inHand] at this ⊢
  refine ⟨hin, ?_⟩
  obtain ⟨g1, g2, _⟩ := histInv_step _ _ _ (mem_hist h) ha
  rw [g1]
  refine List.Perm.append_right _ ?_
  refine (g2.trans ?_).symm
  rw [List.flatMap_eq_nil_iff.2 hin, List.append_nil]

theorem life_push {ctl : Nat} {s : Pool α} {a : Agent} {t : α} (hpc : s.pcs a = .addPush t) (h : LifeInv ctl s) :
    LifeInv ctl (s.setPc a .addUnlock) := by
  obtain ⟨h1, h2⟩ := h
  refine ⟨h1, ?_⟩
  by_cases e : Agent.client ctl = a
  · subst e
    rcases h2 with ⟨n, e, _⟩ | ⟨n, e, _⟩ | ⟨_, h3, _⟩
    · rw [hpc] at e; cases e
    · rw [hpc] at e; cases e
    · refine .inr (.inr ⟨by simp [CPc.noSpawn], fun hc => ?_, by simp⟩)
      rcases h3 hc with h | h
      · rw [hpc] at h; cases h
      · exact .inr h
  · have hp : (s.setPc a .addUnlock).pcs (.client ctl) = s.pcs (.client ctl) := by simp [e]
    rw [hp]
    exact h2

/-- Neither `Init` nor `Resize` is called, no exception leaves a task, and memory suffices for a worker to take a task. -/
def MemFair (l : MemLabel α) : Prop :=
  (∀ a op, l = .pool (.call a op) → (∀ n, op ≠ .init n) ∧ ∀ n, op ≠ .resize n) ∧ l ≠ .pool .throws ∧ ∀ i, l ≠ .copyThrew i

/-- **C199**: calls of `AddTask` that throw never terminate the program: a pool that was initialised once can be used, stopped and
destroyed by its controlling thread. -/
theorem C199_destroy_partial (ctl n : Nat) (s : Pool α) (tr : List (MemLabel α))
    (h : MemRun (({} : Pool α).setPc (.client ctl) (entry (.init n))) tr s) (hd : ∀ l ∈ tr, MemDisciplined ctl l ∧ MemFair l) :
    s.phase ≠ .terminated := by
  have hact : Act ({} : Pool α) (.call (.client ctl) (.init n)) (({} : Pool α).setPc (.client ctl) (entry (.init n))) := .call rfl trivial
  have hdis : Disciplined ctl (.call (.client ctl) (.init n) : PoolLabel α) := by
    rintro a op e
    injection e with e1 e2
    exact .inr (.inr e1.symm)
  exact (mem_inv (P := fun s => ThrInv s ∧ StopInv ctl s ∧ JoinInv ctl s ∧ LifeInv ctl s) (Q := fun l => MemDisciplined ctl l ∧ MemFair l)
    (fun s l s' _ hi hq ha => ⟨thrInv_step s l s' hi.1 ha, stopInv_step ctl s l s' hi.1 hi.2.1 (hq.1 l rfl) ha,
      joinInv_step ctl s l s' hi.2.1 hi.2.2.1 ha, lifeInv_step ctl s l s' hi.2.1 hi.2.2.1 hi.2.2.2 (hq.1 l rfl)
        (fun a op e => hq.2.1 a op (by rw [e])) (fun e => hq.2.2.1 (by rw [e])) ha⟩)
    (fun s a t hpc hi => ⟨thr_pc hi.1, stop_push hpc hi.2.1, join_push hi.2.2.1, life_push hpc hi.2.2.2⟩)
    (fun a => ⟨fun l' e => (by cases e; intro a op e; cases e), fun a op e => (by cases e), by simp, by simp⟩)
    (fun s i hq _ => absurd rfl (hq.2.2.2 i))
    h hd ⟨thrInv_step _ _ _ thrInv_init hact, stopInv_step ctl _ _ _ thrInv_init (stopInv_init ctl) hdis hact,
      joinInv_step ctl _ _ _ (stopInv_init ctl) (joinInv_init ctl) hact, by simp, .inl ⟨n, by simp [entry], rfl, rfl⟩⟩).2.2.2.phase

/-! ### Where it fails -/

theorem mem_of_run {s s' : Pool α} {tr : List (PoolLabel α)} (h : Run s tr s') : MemRun s (tr.map .pool) s' := by
  induction h with
  | nil => exact .nil _
  | snoc _ hl ha ih => rw [List.map_append]; exact .snoc ih hl (.act ha)

/-- C199 is false of a worker that runs out of memory when it takes a task: the program is terminated, and the task that `AddTask`
accepted is never run. -/
theorem C199_worker_refuted : ∃ (s s' : Pool Nat) (tr : List (PoolLabel Nat)), Run {} tr s ∧ .ret (.client 0) (.added 0) ∈ tr ∧
    MemRun {} (tr.map .pool ++ [.copyThrew 0]) s' ∧ s.phase = .live ∧ s'.phase = .terminated ∧ s'.accepted = [7] ∧ s'.started = [] := by
  obtain ⟨v, hv⟩ : ∃ v, shown (cmdRun {} (initCmd 1 ++ addCmd 7 ++ wk 0 3)) = some v ∧
      .ret (.client 0) (.added 0) ∈ v.trace ∧ v.workers = [.size] ∧ v.queue = [7] ∧ v.phase = .live ∧ v.accepted = [7] ∧ v.started = [] := by
    refine ⟨_, rfl, ?_⟩
    decide +kernel
  obtain ⟨s, h1, h2, h3, _, _, h4, h5, h6, _⟩ := shown_run hv.1
  obtain ⟨_, g1, g2, g3, g4, g5, g6⟩ := hv
  exact ⟨s, { s with phase := .terminated }, _, h1, g1, .snoc (mem_of_run h1) (h4.trans g4)
    (.copyThrew (t := 7) (q := []) (by rw [h3, g2]; rfl) (h2.trans g3)), h4.trans g4, rfl, h5.trans g5, h6.trans g6⟩

/- A call that throws, with a task in the queue, a worker that is free and one controlling thread. -/
example : ∃ (s s' : Pool Nat) (tr : List (PoolLabel Nat)), MemRun {} (tr.map .pool) s ∧ MemAct s (.addThrew (.client 0)) s' ∧
    s.phase = .live ∧ s'.queue = [7] ∧ s'.cont = true ∧ (∃ w ∈ s'.workers, free w = true) ∧
    (∀ l ∈ tr.map MemLabel.pool ++ [.addThrew (.client 0)], MemDisciplined 0 l) := by
  obtain ⟨v, hv⟩ : ∃ v, shown (cmdRun {} (initCmd 1 ++ addCmd 7 ++ .call 0 (.add 8) :: cl 2)) = some v ∧
      v.client0 = .addPush 8 ∧ v.workers = [.lock] ∧ v.queue = [7] ∧ v.phase = .live ∧ v.cont = true ∧
      ∀ l ∈ v.trace, (match l with | .call a _ => decide (a = .client 0) | _ => true) = true := by
    refine ⟨_, rfl, ?_⟩
    decide +kernel
  obtain ⟨s, h1, h2, h3, _, h4, h5, _, _, _, h6, _⟩ := shown_run hv.1
  obtain ⟨_, g1, g2, g3, g4, g5, g6⟩ := hv
  refine ⟨s, _, _, mem_of_run h1, .addThrew (t := 8) (h6.trans g1), h5.trans g4, h2.trans g3, h4.trans g5, ⟨.lock, ?_, rfl⟩, ?_⟩
  · simp [h3, g2]
  · intro l hl l' e a op e'
    subst e
    subst e'
    have : PoolLabel.call a op ∈ v.trace := by simpa using hl
    exact .inr (.inr (by simpa using g6 _ this))

/- A pool with any number of threads, initialised once, for which memory runs out at its first task. -/
example (k : Nat) (t : α) : ∃ tr s, MemRun (({} : Pool α).setPc (.client 0) (entry (.init (k + 1)))) tr s ∧ .addThrew (.client 0) ∈ tr ∧
    s.workers.length = k + 1 ∧ s.queue = [] ∧ s.lock = none ∧ ∀ l ∈ tr, MemDisciplined 0 l ∧ MemFair l := by
  obtain ⟨tr, h, ht⟩ := begun_run (α := α) 0 (k + 1)
  rw [Nat.zero_add] at h
  have r := ((((((mem_of_run h).snoc (by simp [begun]) (.act (.initDone (a := .client 0) (r := false) (by simp [begun])))).snoc (by simp [begun])
    (.act (.call (a := .client 0) (op := .add t) (by simp) trivial))).snoc (by simp [begun])
    (.act (.addChecked (a := .client 0) (t := t) (by simp [entry]) (by simp [begun]) (by simp [begun])))).snoc (by simp [begun])
    (.act (.addLocked (a := .client 0) (t := t) (by simp) (by simp [begun])))).snoc (by simp [begun])
    (.addThrew (a := .client 0) (t := t) (by simp)))
  refine ⟨_, _, r, by simp, by simp [begun], by simp [begun], rfl, fun l hl => ?_⟩
  simp only [List.append_assoc, List.mem_append, List.mem_map, List.mem_singleton] at hl
  rcases hl with ⟨x, hx, rfl⟩ | rfl | rfl | rfl | rfl | rfl
  · rw [ht x hx]
    exact ⟨fun l' e => (by cases e; intro a op e; cases e), fun a op e => (by cases e), by simp, by simp⟩
  · exact ⟨fun l' e => (by cases e; intro a op e; cases e), fun a op e => (by cases e), by simp, by simp⟩
  · refine ⟨fun l' e a op e' => ?_, fun a op e => ?_, by simp, by simp⟩
    · cases e; injection e' with e1 e2; exact .inr (.inr e1.symm)
    · cases e; simp
  · exact ⟨fun l' e => (by cases e; intro a op e; cases e), fun a op e => (by cases e), by simp, by simp⟩
  · exact ⟨fun l' e => (by cases e; intro a op e; cases e), fun a op e => (by cases e), by simp, by simp⟩
  · exact ⟨fun l' e => (by cases e), fun a op e => (by cases e), by simp, by simp⟩

end Cppnet
