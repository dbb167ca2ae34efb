import Verif.Spec.Idle
import Verif.Proofs.ServerThreads

/-!
# C177: clients that stay connected keep neither other clients nor `Run` waiting
-/

namespace Cppnet
open Spec MtSys

/-- The connection is being served and its client was not seen to leave. -/
def staying : TaskPc → Bool
  | .say k => staying k
  | .queued | .done | .bye | .byeFind | .byeErase => false
  | _ => true

theorem staying_active {pc : TaskPc} (h : staying pc = true) : active pc = true := by
  cases pc <;> first | rfl | cases h

theorem taskNext_staying {s s' : MtSys} {fd : Int} {a : TAns} {pc pc' : TaskPc} (hm : s.mode = .multiThread) (ha : a.ok = true)
    (h : s.taskNext fd a pc = some (pc', s')) (hp : staying pc = true) : staying pc' = true := by
  cases pc with
  | handler hh =>
    cases hh <;> simp only [taskNext, Option.some.injEq, Prod.mk.injEq] at h <;> (obtain ⟨rfl, _⟩ := h; rfl)
  | say k => simp only [taskNext, Option.some.injEq, Prod.mk.injEq] at h; obtain ⟨rfl, _⟩ := h; exact hp
  | search =>
    simp only [taskNext] at h
    split at h <;> simp only [Option.some.injEq, Prod.mk.injEq] at h <;> (obtain ⟨rfl, _⟩ := h; rfl)
  | _ =>
    simp only [taskNext, ha, if_true, afterRead, hm, startRead] at h
    first
    | (cases hp; done)
    | (simp only [Option.some.injEq, Prod.mk.injEq] at h; obtain ⟨rfl, _⟩ := h; first | rfl | (split <;> rfl))
    | (split at h <;> simp only [Option.some.injEq, Prod.mk.injEq] at h <;> obtain ⟨rfl, _⟩ := h <;> rfl)

/-- What a step does to one task. -/
theorem step_task {s s' : MtSys} {l : MtLabel} (h : s.step l = some s') {i : Nat} {fd : Int} {pc : TaskPc}
    (hi : s.tasks[i]? = some (fd, pc)) :
    s'.tasks[i]? = some (fd, pc) ∨
      (l = .start ∧ pc = .queued ∧ s'.tasks[i]? = some (fd, s.startTask) ∧
        (s.tasks.filter fun t => active t.2).length < s.workers ∧ s.tasks.findIdx? (fun t => t.2 = .queued) = some i) ∨
      ∃ a pc' s'', l = .task i a ∧ s.taskNext fd a pc = some (pc', s'') ∧ s'.tasks[i]? = some (fd, pc') := by
  cases l with
  | loop a =>
    rcases (loopNext_facts h).2 with e | ⟨f, e⟩
    · rw [e]; exact .inl hi
    · rw [e, List.getElem?_append_left (List.getElem?_eq_some_iff.1 hi).1]; exact .inl hi
  | start =>
    simp only [step] at h
    split at h
    · cases h
    · rename_i k hk
      split at h
      · cases h
      · rename_i hc
        simp only [Option.some.injEq] at h
        subst h
        by_cases hki : k = i
        · subst hki
          have hq := List.findIdx?_eq_some_iff_getElem.1 hk
          obtain ⟨hlt, hq, _⟩ := hq
          obtain ⟨hlt', he⟩ := List.getElem?_eq_some_iff.1 hi
          rw [he] at hq
          refine .inr (.inl ⟨rfl, by simpa using hq, ?_, by omega, hk⟩)
          simp only [List.getElem?_modify, hi]
          simp
        · left
          simp only [List.getElem?_modify, hi]
          simp [hki]
  | task k a =>
    simp only [step] at h
    split at h
    · cases h
    · rename_i f p hk
      split at h
      · cases h
      · rename_i p' s1 hn
        simp only [Option.some.injEq] at h
        subst h
        by_cases hki : k = i
        · subst hki
          rw [hi] at hk
          cases hk
          refine .inr (.inr ⟨a, p', s1, rfl, hn, ?_⟩)
          have := (List.getElem?_eq_some_iff.1 hi).1
          simp [this]
        · left
          simp only [List.getElem?_set, hki, if_false]
          exact hi
  | ctl ok => rw [(ctlNext_facts h).2.2.2.2.2.2]; exact .inl hi
  | callStop => simp only [step] at h; split at h <;> cases h; exact .inl hi
  | callDtor => simp only [step] at h; split at h <;> cases h; exact .inl hi

theorem stays_tail {i : Nat} {l : MtLabel} {tr : List MtLabel} (h : Stays i (l :: tr)) : Stays i tr :=
  fun a ha => h a (List.mem_cons_of_mem _ ha)

theorem step_staying {s s' : MtSys} {l : MtLabel} {tr : List MtLabel} (hm : s.mode = .multiThread) (h : s.step l = some s') {i : Nat}
    {fd : Int} {pc : TaskPc} (hi : s.tasks[i]? = some (fd, pc)) (hp : staying pc = true) (hst : Stays i (l :: tr)) :
    ∃ pc', s'.tasks[i]? = some (fd, pc') ∧ staying pc' = true := by
  rcases step_task h hi with e | ⟨_, e, _⟩ | ⟨a, pc', s'', e, hn, hi'⟩
  · exact ⟨pc, e, hp⟩
  · rw [e] at hp; cases hp
  · exact ⟨pc', hi', taskNext_staying hm (hst a (e ▸ List.mem_cons_self)) hn hp⟩

/-- A task whose client stays goes on. -/
theorem run_staying {s s' : MtSys} {tr : List MtLabel} (hm : s.mode = .multiThread) (h : s.run tr = some s') {i : Nat} {fd : Int}
    {pc : TaskPc} (hi : s.tasks[i]? = some (fd, pc)) (hp : staying pc = true) (hst : Stays i tr) :
    ∃ pc', s'.tasks[i]? = some (fd, pc') ∧ staying pc' = true := by
  induction tr generalizing s pc with
  | nil => cases h; exact ⟨pc, hi, hp⟩
  | cons l tr ih =>
    simp only [run] at h
    split at h
    · cases h
    · rename_i s1 h1
      obtain ⟨pc', hi', hp'⟩ := step_staying hm h1 hi hp hst
      exact ih ((step_const h1).1.trans hm) h hi' hp' (stays_tail hst)

/-- At least `n` positions of a list satisfy `p` if `n` different ones are known to. -/
theorem count_ge {α : Type} (p : α → Bool) : ∀ (n : Nat) (l : List α), (∀ i < n, ∃ x, l[i]? = some x ∧ p x = true) → n ≤ (l.filter p).length := by
  intro n
  induction n with
  | zero => intros; omega
  | succ n ih =>
    intro l h
    cases l with
    | nil => obtain ⟨x, hx, _⟩ := h 0 (by omega); cases hx
    | cons a l =>
      obtain ⟨x, hx, hp⟩ := h 0 (by omega)
      simp only [List.getElem?_cons_zero, Option.some.injEq] at hx
      subst hx
      have := ih l (fun i hi => by
        obtain ⟨x, hx, hp⟩ := h (i + 1) (by omega)
        exact ⟨x, by simpa using hx, hp⟩)
      simp only [List.filter_cons, hp, if_true, List.length_cons]
      omega

/-- As long as the clients of the first `workers` tasks stay, no task begins. -/
theorem all_held {s s' : MtSys} {tr : List MtLabel} (hm : s.mode = .multiThread) (h : s.run tr = some s')
    (hs : ∀ i < s.workers, ∃ fd pc, s.tasks[i]? = some (fd, pc) ∧ staying pc = true) (hst : ∀ i < s.workers, Stays i tr)
    {j : Nat} (hj : WaitsForWorker s j) : WaitsForWorker s' j := by
  induction tr generalizing s with
  | nil => cases h; exact hj
  | cons l tr ih =>
    simp only [run] at h
    split at h
    · cases h
    · rename_i s1 h1
      have hc := step_const h1
      refine ih (hc.1.trans hm) h (fun i hi => ?_) (fun i hi => stays_tail (hst i (by rw [← hc.2.2.2]; exact hi))) ?_
      · rw [hc.2.2.2] at hi
        obtain ⟨fd, pc, hi', hp⟩ := hs i hi
        obtain ⟨pc', h2, h3⟩ := step_staying hm h1 hi' hp (hst i hi)
        exact ⟨fd, pc', h2, h3⟩
      · obtain ⟨fd, hj⟩ := hj
        rcases step_task h1 hj with e | ⟨_, _, _, e, _⟩ | ⟨a, pc', s'', _, e, _⟩
        · exact ⟨fd, e⟩
        · have := count_ge (fun t : Int × TaskPc => active t.2) s.workers s.tasks (fun i hi => by
            obtain ⟨f, pc, h1, h2⟩ := hs i hi
            exact ⟨_, h1, staying_active h2⟩)
          omega
        · simp [taskNext] at e

/-- The tasks of `n` connections whose clients are idle. -/
def idleTasks (n : Nat) : List (Int × TaskPc) := (List.range n).map fun (k : Nat) => ((k : Int) + 5, .peek)

theorem idleTasks_succ (n : Nat) : idleTasks (n + 1) = idleTasks n ++ [((n : Int) + 5, .peek)] := by
  simp [idleTasks, List.range_succ]

theorem idleTasks_length (n : Nat) : (idleTasks n).length = n := by simp [idleTasks]

theorem idleTasks_active (n : Nat) : ((idleTasks n).filter fun t => active t.2).length = n := by
  rw [List.filter_eq_self.2]
  · exact idleTasks_length n
  · intro t ht
    simp only [idleTasks, List.mem_map] at ht
    obtain ⟨k, _, rfl⟩ := ht
    rfl

theorem idleTasks_noqueue (n : Nat) : (idleTasks n).findIdx? (fun t => t.2 = .queued) = none := by
  rw [List.findIdx?_eq_none_iff]
  intro t ht
  simp only [idleTasks, List.mem_map] at ht
  obtain ⟨k, _, rfl⟩ := ht
  rfl

/-- A running server with `n` idle connections. -/
def IdleServer (tls fileLog : Bool) (workers : Nat) (n : Nat) (s : MtSys) : Prop :=
  s.mode = .multiThread ∧ s.tls = tls ∧ s.fileLog = fileLog ∧ s.workers = workers ∧ s.cont = true ∧ s.loopFlag = true ∧ s.listen = true ∧
    s.loop = .top ∧ s.tasks = idleTasks n ∧ s.poolStopped = false ∧ s.ctl = .idle

theorem idle_step {tls fileLog : Bool} {workers n : Nat} (hn : n < workers) {s : MtSys} (hs : IdleServer tls fileLog workers n s) :
    ∃ tr s', s.run tr = some s' ∧ .callStop ∉ tr ∧ IdleServer tls fileLog workers (n + 1) s' := by
  obtain ⟨mode, tls', fileLog', workers', types, sessions, cont, loopFlag, ioFlag, listen, loop, tasks, poolStopped, ctl⟩ := s
  obtain ⟨h1, h2, h3, h4, h5, h6, h7, h8, h9, h10, h11⟩ := hs
  dsimp only at h1 h2 h3 h4 h5 h6 h7 h8 h9 h10 h11
  subst h1 h2 h3 h4 h5 h6 h7 h8 h9 h10 h11
  have hq : (idleTasks n ++ [((n : Int) + 5, TaskPc.queued)]).findIdx? (fun t => t.2 = .queued) = some n := by
    rw [List.findIdx?_append, idleTasks_noqueue]
    simp [idleTasks_length]
  have ha : ((idleTasks n ++ [((n : Int) + 5, TaskPc.queued)]).filter fun t => active t.2).length = n := by
    rw [List.filter_append, List.length_append, idleTasks_active]
    simp [active]
  have hmod : ∀ pc pc', (idleTasks n ++ [((n : Int) + 5, pc)]).modify n (fun t => (t.1, pc')) = idleTasks n ++ [((n : Int) + 5, pc')] := by
    intro pc pc'
    apply List.ext_getElem?
    intro i
    rw [List.getElem?_modify]
    by_cases h : i < n
    · rw [List.getElem?_append_left (by rw [idleTasks_length]; exact h), List.getElem?_append_left (by rw [idleTasks_length]; exact h)]
      have : ¬ n = i := by omega
      simp [this]
    · rw [List.getElem?_append_right (by rw [idleTasks_length]; omega), List.getElem?_append_right (by rw [idleTasks_length]; omega), idleTasks_length]
      by_cases h' : n = i
      · subst h'; simp
      · have : i - n ≠ 0 := by omega
        obtain ⟨k, hk⟩ := Nat.exists_eq_succ_of_ne_zero this
        simp [hk]
  have hget : ∀ pc, (idleTasks n ++ [((n : Int) + 5, pc)])[n]? = some ((n : Int) + 5, pc) := by
    intro pc
    rw [List.getElem?_append_right (by rw [idleTasks_length]; exact Nat.le_refl _), idleTasks_length]
    simp
  have hset : ∀ pc pc', (idleTasks n ++ [((n : Int) + 5, pc)]).set n ((n : Int) + 5, pc') = idleTasks n ++ [((n : Int) + 5, pc')] := by
    intro pc pc'
    rw [List.set_append_right _ _ (by rw [idleTasks_length]; exact Nat.le_refl _), idleTasks_length]
    simp
  have hw : ¬ workers' ≤ n := by omega
  have hfd : ¬ ((n : Int) + 5 < 0) := by omega
  cases tls' with
  | false =>
    refine ⟨[.loop {}, .loop { fd := (n : Int) + 5 }, .loop {}, .start, .task n {}, .task n {}],
      ⟨.multiThread, false, fileLog', workers', types, sessions, true, true, ioFlag, true, .top, idleTasks (n + 1), false, .idle⟩, ?_, by simp,
      ⟨rfl, rfl, rfl, rfl, rfl, rfl, rfl, rfl, rfl, rfl, rfl⟩⟩
    rw [idleTasks_succ]
    simp only [run, step, loopNext, addTask, if_true, if_neg hfd, hq, ha, hw, or_false, Bool.false_eq_true, if_false, hmod, startTask, hget,
      taskNext, hset]
  | true =>
    refine ⟨[.loop {}, .loop { fd := (n : Int) + 5 }, .loop {}, .start, .task n {}, .task n {}, .task n {}, .task n {}],
      ⟨.multiThread, true, fileLog', workers', types, ((n : Int) + 5) :: sessions, true, true, ioFlag, true, .top, idleTasks (n + 1), false, .idle⟩, ?_, by simp,
      ⟨rfl, rfl, rfl, rfl, rfl, rfl, rfl, rfl, rfl, rfl, rfl⟩⟩
    rw [idleTasks_succ]
    simp only [run, step, loopNext, addTask, if_true, if_neg hfd, hq, ha, hw, or_false, Bool.false_eq_true, if_false, hmod, startTask, hget,
      taskNext, hset]

theorem idle_reach (tls fileLog : Bool) (workers : Nat) (types : UMap) : ∀ n ≤ workers, ∃ tr s,
    (startedServer .multiThread tls fileLog workers types).run tr = some s ∧ .callStop ∉ tr ∧ IdleServer tls fileLog workers n s := by
  intro n
  induction n with
  | zero =>
    intro _
    refine ⟨toTop, _, rfl, by simp [toTop], ?_⟩
    cases tls <;> exact ⟨rfl, rfl, rfl, rfl, rfl, rfl, rfl, rfl, rfl, rfl, rfl⟩
  | succ n ih =>
    intro hn
    obtain ⟨tr, s, h1, h0, h2⟩ := ih (by omega)
    obtain ⟨tr', s', h3, h0', h4⟩ := idle_step (by omega) h2
    exact ⟨tr ++ tr', s', run_append_run h1 h3, by simp [h0, h0'], h4⟩

theorem idle_get {n i : Nat} (hi : i < n) : (idleTasks n)[i]? = some ((i : Int) + 5, .peek) := by
  simp [idleTasks, hi]

/-- **C177 is false** in the multi-thread mode, for every number of workers: when as many clients as there are workers are connected and
idle, a client that connects then waits for as long as they stay, whatever anybody else does. -/
theorem C177_waits_refuted (tls fileLog : Bool) (workers : Nat) (types : UMap) : ∃ tr s,
    (startedServer .multiThread tls fileLog workers types).run tr = some s ∧ .callStop ∉ tr ∧
    (∀ i < workers, WaitsForClient s i) ∧ WaitsForWorker s workers ∧
    ∀ tr' s', s.run tr' = some s' → (∀ i < workers, Stays i tr') → WaitsForWorker s' workers := by
  obtain ⟨tr, s, h1, hstop, h2⟩ := idle_reach tls fileLog workers types workers (Nat.le_refl _)
  obtain ⟨mode, tls', fileLog', workers', types', sessions, cont, loopFlag, ioFlag, listen, loop, tasks, poolStopped, ctl⟩ := s
  obtain ⟨e1, e2, e3, e4, e5, e6, e7, e8, e9, e10, e11⟩ := h2
  dsimp only at e1 e2 e3 e4 e5 e6 e7 e8 e9 e10 e11
  subst e1 e2 e3 e4 e5 e6 e7 e8 e9 e10 e11
  have h3 : (⟨.multiThread, tls', fileLog', workers', types', sessions, true, true, ioFlag, true, .top, idleTasks workers', false, .idle⟩ : MtSys).run
      [.loop {}, .loop { fd := (workers' : Int) + 5 }, .loop {}] =
      some ⟨.multiThread, tls', fileLog', workers', types', sessions, true, true, ioFlag, true, .top,
        idleTasks workers' ++ [((workers' : Int) + 5, .queued)], false, .idle⟩ := by
    have hfd : ¬ ((workers' : Int) + 5 < 0) := by omega
    simp only [run, step, loopNext, addTask, if_true, if_neg hfd]
  have hi : ∀ i < workers', (idleTasks workers' ++ [((workers' : Int) + 5, TaskPc.queued)])[i]? = some ((i : Int) + 5, .peek) := by
    intro i hi
    rw [List.getElem?_append_left (by rw [idleTasks_length]; exact hi), idle_get hi]
  have hq : WaitsForWorker ⟨.multiThread, tls', fileLog', workers', types', sessions, true, true, ioFlag, true, .top,
      idleTasks workers' ++ [((workers' : Int) + 5, .queued)], false, .idle⟩ workers' := by
    refine ⟨(workers' : Int) + 5, ?_⟩
    rw [List.getElem?_append_right (by rw [idleTasks_length]; exact Nat.le_refl _), idleTasks_length]
    simp
  refine ⟨tr ++ [.loop {}, .loop { fd := (workers' : Int) + 5 }, .loop {}], _, run_append_run h1 h3, by simp [hstop],
    fun i h => ⟨_, hi i h⟩, hq, fun tr' s' hr hst => ?_⟩
  exact all_held rfl hr (fun i h => ⟨_, _, hi i h, rfl⟩) hst hq

theorem held_stop {s s' : MtSys} {tr : List MtLabel} (hm : s.mode = .multiThread) (hl : s.loop = .stopPool) (h : s.run tr = some s')
    {i : Nat} {fd : Int} {pc : TaskPc} (hi : s.tasks[i]? = some (fd, pc)) (hp : staying pc = true) (hst : Stays i tr) :
    s'.loop = .stopPool := by
  induction tr generalizing s pc with
  | nil => cases h; exact hl
  | cons l tr ih =>
    simp only [run] at h
    split at h
    · cases h
    · rename_i s1 h1
      obtain ⟨pc', hi', hp'⟩ := step_staying hm h1 hi hp hst
      refine ih ((step_const h1).1.trans hm) ?_ h hi' hp' (stays_tail hst)
      cases l with
      | loop a =>
        simp only [step, hl, loopNext] at h1
        have : (s.tasks.any fun t => active t.2) = true :=
          List.any_eq_true.2 ⟨_, List.mem_of_getElem? hi, staying_active hp⟩
        rw [if_pos this] at h1
        cases h1
      | start =>
        simp only [step] at h1
        split at h1
        · cases h1
        · split at h1 <;> cases h1
          exact hl
      | task k a =>
        simp only [step] at h1
        split at h1
        · cases h1
        · split at h1
          · cases h1
          · rename_i hn
            cases h1
            rw [(taskNext_facts hn).1]
            exact hl
      | ctl ok => rw [(ctlNext_facts h1).2.2.2.2.2.1]; exact hl
      | callStop => simp only [step] at h1; split at h1 <;> cases h1; exact hl
      | callDtor => simp only [step] at h1; split at h1 <;> cases h1; exact hl

/-- **C177 is false** for `Run`, in the multi-thread mode: one client is connected and idle, `Stop` was called and has returned, and the
listening socket is closed.  `Run` does not return for as long as this client stays. -/
theorem C177_run_refuted (tls fileLog : Bool) (workers : Nat) (hw : 0 < workers) (types : UMap) : ∃ tr s,
    (startedServer .multiThread tls fileLog workers types).run tr = some s ∧ .callStop ∈ tr ∧ s.ctl = .idle ∧ s.listen = false ∧
    WaitsForClient s 0 ∧
    ∀ tr' s', s.run tr' = some s' → Stays 0 tr' → ∀ rc, s'.loop ≠ .returned rc := by
  obtain ⟨tr, s, h1, hstop, h2⟩ := idle_reach tls fileLog workers types 1 hw
  obtain ⟨mode, tls', fileLog', workers', types', sessions, cont, loopFlag, ioFlag, listen, loop, tasks, poolStopped, ctl⟩ := s
  obtain ⟨e1, e2, e3, e4, e5, e6, e7, e8, e9, e10, e11⟩ := h2
  dsimp only at e1 e2 e3 e4 e5 e6 e7 e8 e9 e10 e11
  subst e1 e2 e3 e4 e5 e6 e7 e8 e9 e10 e11
  have h3 : (⟨.multiThread, tls', fileLog', workers', types', sessions, true, true, ioFlag, true, .top, idleTasks 1, false, .idle⟩ : MtSys).run
      ([.loop {}, .callStop] ++ List.replicate 6 (.ctl true) ++ [.loop { fd := 9 }, .loop {}, .ctl true, .ctl true]) =
      some ⟨.multiThread, tls', fileLog', workers', types', sessions, false, false, ioFlag, false, .stopPool, idleTasks 1, false, .idle⟩ := rfl
  refine ⟨_, _, run_append_run h1 h3, by simp, rfl, rfl, ⟨5, rfl⟩, fun tr' s' hr hst rc => ?_⟩
  have := held_stop rfl rfl hr (i := 0) (fd := 5) (pc := .peek) rfl rfl hst
  rw [this]
  simp

/-! ### What holds -/

/-- The first tasks have begun, the others wait. -/
def InOrder (s : MtSys) : Prop := ∀ (i j : Nat) (ti tj : Int × TaskPc), i < j → s.tasks[i]? = some ti → s.tasks[j]? = some tj →
  tj.2 ≠ .queued → ti.2 ≠ .queued

theorem taskNext_not_queued {s s' : MtSys} {fd : Int} {a : TAns} {pc pc' : TaskPc} (hp : ∀ k, pc = .say k → k ≠ .queued)
    (h : s.taskNext fd a pc = some (pc', s')) : pc' ≠ .queued := by
  cases pc with
  | handler hh =>
    cases hh <;> simp only [taskNext, Option.some.injEq, Prod.mk.injEq] at h <;> (obtain ⟨rfl, _⟩ := h; simp)
  | say k => simp only [taskNext, Option.some.injEq, Prod.mk.injEq] at h; obtain ⟨rfl, _⟩ := h; exact hp k rfl
  | _ =>
    simp only [taskNext, afterRead, startRead] at h
    repeat' split at h
    all_goals first
      | (cases h; done)
      | (simp only [Option.some.injEq, Prod.mk.injEq] at h; obtain ⟨rfl, _⟩ := h; simp)

/-- A task at a call of the logger goes on to a location of its work. -/
def sayPlain : TaskPc → Bool
  | .say .queued | .say (.say _) => false
  | _ => true

theorem taskNext_plain {s s' : MtSys} {fd : Int} {a : TAns} {pc pc' : TaskPc} (hp : sayPlain pc = true)
    (h : s.taskNext fd a pc = some (pc', s')) : sayPlain pc' = true ∧ pc' ≠ .queued := by
  refine ⟨?_, taskNext_not_queued (fun k e => by rintro rfl; rw [e] at hp; cases hp) h⟩
  cases pc with
  | handler hh =>
    cases hh <;> simp only [taskNext, Option.some.injEq, Prod.mk.injEq] at h <;> (obtain ⟨rfl, _⟩ := h; rfl)
  | say k =>
    simp only [taskNext, Option.some.injEq, Prod.mk.injEq] at h; obtain ⟨rfl, _⟩ := h
    cases k <;> first | rfl | cases hp
  | _ =>
    simp only [taskNext, afterRead, startRead] at h
    repeat' split at h
    all_goals first
      | (cases h; done)
      | (simp only [Option.some.injEq, Prod.mk.injEq] at h; obtain ⟨rfl, _⟩ := h; rfl)

/-- What holds of the tasks in every state of a run. -/
structure TaskInv (s : MtSys) : Prop where
  plain : ∀ t ∈ s.tasks, sayPlain t.2 = true
  order : InOrder s
  bound : (s.tasks.filter fun t => active t.2).length ≤ s.workers

theorem modify_set {α : Type} (l : List α) (k : Nat) (hk : k < l.length) (f : α → α) : l.modify k f = l.set k (f l[k]) := by
  apply List.ext_getElem?
  intro i
  rw [List.getElem?_modify, List.getElem?_set]
  by_cases h : k = i
  · subst h; simp [hk]
  · simp [h]

theorem startTask_facts (s : MtSys) : sayPlain s.startTask = true ∧ s.startTask ≠ .queued ∧ active s.startTask = true := by
  unfold startTask startRead
  split
  · exact ⟨rfl, by simp, rfl⟩
  · split <;> exact ⟨rfl, by simp, rfl⟩

theorem taskInv {s0 : MtSys} (h0 : s0.tasks = []) : ∀ tr s, s0.run tr = some s → TaskInv s := by
  refine run_ind (P := fun _ s => TaskInv s) ⟨by simp [h0], fun i j ti tj _ h => by simp [h0] at h, by simp [h0]⟩ ?_
  intro tr l s s' _ hi h
  have hsame : s'.tasks = s.tasks → TaskInv s' := fun e =>
    ⟨by rw [e]; exact hi.plain, fun i j ti tj hij h1 h2 => by rw [e] at h1 h2; exact hi.order i j ti tj hij h1 h2,
      by rw [e, (step_const h).2.2.2]; exact hi.bound⟩
  have hw := (step_const h).2.2.2
  cases l with
  | loop a =>
    rcases (loopNext_facts h).2 with e | ⟨f, e⟩
    · exact hsame e
    · refine ⟨?_, ?_, ?_⟩
      · intro t ht
        rw [e, List.mem_append, List.mem_singleton] at ht
        rcases ht with ht | rfl
        · exact hi.plain t ht
        · rfl
      · intro i j ti tj hij h1 h2 hq
        rw [e] at h1 h2
        by_cases hj : j < s.tasks.length
        · rw [List.getElem?_append_left hj] at h2
          rw [List.getElem?_append_left (by omega)] at h1
          exact hi.order i j ti tj hij h1 h2 hq
        · rw [List.getElem?_append_right (by omega)] at h2
          have := List.mem_of_getElem? h2
          rw [List.mem_singleton] at this
          rw [this] at hq
          exact absurd rfl hq
      · rw [hw, e, List.filter_append, List.length_append]
        have := hi.bound
        simpa [active] using this
  | start =>
    simp only [step] at h
    split at h
    · cases h
    · rename_i k hk
      split at h
      · cases h
      · rename_i hc
        simp only [Option.some.injEq] at h
        subst h
        obtain ⟨hlt, hq, hfirst⟩ := List.findIdx?_eq_some_iff_getElem.1 hk
        obtain ⟨f1, f2, f3⟩ := startTask_facts s
        have hset : (s.tasks.modify k fun t => (t.1, s.startTask)) = s.tasks.set k ((s.tasks[k]).1, s.startTask) :=
          modify_set s.tasks k hlt _
        refine ⟨?_, ?_, ?_⟩
        · intro t ht
          dsimp only at ht
          rw [hset] at ht
          rcases List.mem_or_eq_of_mem_set ht with ht | rfl
          · exact hi.plain t ht
          · exact f1
        · intro i j ti tj hij h1 h2 hnq
          dsimp only at h1 h2
          rw [hset] at h1 h2
          by_cases hik : k = i
          · subst hik
            simp only [List.getElem?_set_self hlt, Option.some.injEq] at h1
            rw [← h1]
            exact f2
          · rw [List.getElem?_set_ne hik] at h1
            by_cases hjk : k = j
            · subst hjk
              obtain ⟨hil, he⟩ := List.getElem?_eq_some_iff.1 h1
              have := hfirst i hij
              rw [he] at this
              simpa using this
            · rw [List.getElem?_set_ne hjk] at h2
              exact hi.order i j ti tj hij h1 h2 hnq
        · dsimp only
          rw [hset, ← List.countP_eq_length_filter, List.countP_set hlt]
          rw [List.countP_eq_length_filter, if_pos f3]
          split <;> omega
  | task k a =>
    simp only [step] at h
    split at h
    · cases h
    · rename_i f p hk
      split at h
      · cases h
      · rename_i p' s1 hn
        simp only [Option.some.injEq] at h
        subst h
        obtain ⟨hlt, he⟩ := List.getElem?_eq_some_iff.1 hk
        obtain ⟨g1, g2⟩ := taskNext_plain (hi.plain _ (List.mem_of_getElem? hk)) hn
        have ha := taskNext_active hn
        refine ⟨?_, ?_, ?_⟩
        · intro t ht
          rcases List.mem_or_eq_of_mem_set ht with ht | rfl
          · exact hi.plain t ht
          · exact g1
        · intro i j ti tj hij h1 h2 hnq
          dsimp only at h1 h2
          by_cases hik : k = i
          · subst hik
            simp only [List.getElem?_set_self hlt, Option.some.injEq] at h1
            rw [← h1]
            exact g2
          · rw [List.getElem?_set_ne hik] at h1
            by_cases hjk : k = j
            · subst hjk
              refine hi.order i k ti (f, p) hij h1 hk ?_
              rintro rfl
              cases ha
            · rw [List.getElem?_set_ne hjk] at h2
              exact hi.order i j ti tj hij h1 h2 hnq
        · rw [hw]
          dsimp only
          rw [← List.countP_eq_length_filter, List.countP_set hlt, List.countP_eq_length_filter, he]
          dsimp only
          have := hi.bound
          have hpos : 0 < (s.tasks.filter fun t => active t.2).length := by
            rw [List.length_pos_iff]
            intro e
            have : ((f, p) : Int × TaskPc) ∈ s.tasks.filter (fun t => active t.2) :=
              List.mem_filter.2 ⟨List.mem_of_getElem? hk, ha⟩
            rw [e] at this
            cases this
          rw [if_pos ha]
          split <;> omega
  | ctl ok => exact hsame (ctlNext_facts h).2.2.2.2.2.2
  | callStop => simp only [step] at h; split at h <;> cases h; exact hsame rfl
  | callDtor => simp only [step] at h; split at h <;> cases h; exact hsame rfl

theorem busy_eq (s : MtSys) : busy s = (s.tasks.filter fun t => active t.2).length := by
  unfold busy
  congr 1
  apply List.filter_congr
  intro t _
  rw [Bool.eq_iff_iff]
  simp only [active_iff, decide_eq_true_eq]

/-- **C177** (what holds): the connections (or, in the mixed mode, the reports) are begun in the order in which they were accepted, and never
more of them at a time than there are workers. -/
theorem C177_order_partial (mode : MtMode) (tls fileLog : Bool) (workers : Nat) (types : UMap) (tr : List MtLabel) (s : MtSys)
    (h : (startedServer mode tls fileLog workers types).run tr = some s) :
    busy s ≤ workers ∧ ∀ i j fd, i < j → s.tasks[j]? = some fd → WaitsForWorker s i → WaitsForWorker s j := by
  have hi := taskInv (s0 := startedServer mode tls fileLog workers types) rfl tr s h
  have hw := (mtInv (s0 := startedServer mode tls fileLog workers types) rfl tr s h).workers
  refine ⟨by rw [busy_eq]; have := hi.bound; rw [hw] at this; exact this, fun i j t hij hj ⟨fd, hq⟩ => ?_⟩
  by_cases hn : t.2 = .queued
  · exact ⟨t.1, by rw [hj, ← hn]⟩
  · exact absurd rfl (hi.order i j _ t hij hq hj hn)

/-- **C177** (what holds): whenever fewer tasks are at work than there are workers and the server was not stopped, a connection that waits
can be begun at once. -/
theorem C177_free_partial (mode : MtMode) (tls fileLog : Bool) (workers : Nat) (types : UMap) (tr : List MtLabel) (s : MtSys)
    (h : (startedServer mode tls fileLog workers types).run tr = some s) (hb : busy s < workers) (hp : s.poolStopped = false) (j : Nat)
    (hj : WaitsForWorker s j) (hfirst : ∀ k < j, ¬ WaitsForWorker s k) :
    ∃ s', s.step .start = some s' ∧ ¬ WaitsForWorker s' j ∧ busy s' = busy s + 1 := by
  have hw : s.workers = workers := (mtInv (s0 := startedServer mode tls fileLog workers types) rfl tr s h).workers
  obtain ⟨fd, hj⟩ := hj
  obtain ⟨hlt, he⟩ := List.getElem?_eq_some_iff.1 hj
  have hk : s.tasks.findIdx? (fun t => t.2 = .queued) = some j := by
    rw [List.findIdx?_eq_some_iff_getElem]
    refine ⟨hlt, by simp [he], fun k hk hq => ?_⟩
    have hkl : k < s.tasks.length := by omega
    refine hfirst k hk ⟨(s.tasks[k]).1, ?_⟩
    rw [List.getElem?_eq_getElem hkl]
    simp only [decide_eq_true_eq] at hq
    rw [← hq]
  have hc : ¬ (s.poolStopped = true ∨ s.workers ≤ (s.tasks.filter fun t => active t.2).length) := by
    rw [← busy_eq, hp, hw]
    simp
    omega
  obtain ⟨_, f2, f3⟩ := startTask_facts s
  have hset : (s.tasks.modify j fun t => (t.1, s.startTask)) = s.tasks.set j (fd, s.startTask) := by
    rw [modify_set s.tasks j hlt, he]
  refine ⟨{ s with tasks := s.tasks.set j (fd, s.startTask) }, ?_, ?_, ?_⟩
  · simp only [step, hk, if_neg hc, hset]
  · rintro ⟨f, hf⟩
    simp only [List.getElem?_set_self hlt, Option.some.injEq, Prod.mk.injEq] at hf
    exact f2 hf.2
  · rw [busy_eq, busy_eq]
    dsimp only
    rw [← List.countP_eq_length_filter, List.countP_set hlt, he, List.countP_eq_length_filter, if_pos f3]
    simp [active]

theorem task_step {s s1 : MtSys} {i : Nat} {fd : Int} {a : TAns} {pc pc' : TaskPc} (hi : s.tasks[i]? = some (fd, pc))
    (hn : s.taskNext fd a pc = some (pc', s1)) : s.step (.task i a) = some { s1 with tasks := s.tasks.set i (fd, pc') } := by
  simp only [step, hi, hn]

/-- When its client has left, a task ends by its own steps. -/
theorem leave_run {s : MtSys} {i : Nat} {fd : Int} (hi : s.tasks[i]? = some (fd, .peek)) :
    ∃ tr s', s.run tr = some s' ∧ (∀ l ∈ tr, ∃ a, l = .task i a) ∧ s'.tasks = s.tasks.set i (fd, .done) ∧ s'.poolStopped = s.poolStopped := by
  have hlt := (List.getElem?_eq_some_iff.1 hi).1
  have h1 : s.step (.task i { ok := false }) = some { s with tasks := s.tasks.set i (fd, .bye) } := task_step hi rfl
  cases ht : s.tls with
  | false =>
    refine ⟨[.task i { ok := false }, .task i {}, .task i {}], { s with tasks := s.tasks.set i (fd, .done) }, ?_, ?_, rfl, rfl⟩
    · have h2 : MtSys.step { s with tasks := s.tasks.set i (fd, .bye) } (.task i {}) =
          some { s with tasks := s.tasks.set i (fd, .say .done) } := by
        rw [task_step (pc := .bye) (pc' := .say .done) (s1 := { s with tasks := s.tasks.set i (fd, .bye) }) (fd := fd)]
        · simp
        · simp [hlt]
        · simp [taskNext, ht]
      have h3 : MtSys.step { s with tasks := s.tasks.set i (fd, .say .done) } (.task i {}) =
          some { s with tasks := s.tasks.set i (fd, .done) } := by
        rw [task_step (pc := .say .done) (pc' := .done) (s1 := { s with tasks := s.tasks.set i (fd, .say .done) }) (fd := fd)]
        · simp
        · simp [hlt]
        · rfl
      simp only [run, h1, h2, h3]
    · intro l hl
      simp only [List.mem_cons, List.not_mem_nil, or_false] at hl
      rcases hl with rfl | rfl | rfl <;> exact ⟨_, rfl⟩
  | true =>
    have h2 : MtSys.step { s with tasks := s.tasks.set i (fd, .bye) } (.task i {}) =
        some { s with tasks := s.tasks.set i (fd, .say .byeFind) } := by
      rw [task_step (pc := .bye) (pc' := .say .byeFind) (s1 := { s with tasks := s.tasks.set i (fd, .bye) }) (fd := fd)]
      · simp
      · simp [hlt]
      · simp [taskNext, ht]
    have h3 : MtSys.step { s with tasks := s.tasks.set i (fd, .say .byeFind) } (.task i {}) =
        some { s with tasks := s.tasks.set i (fd, .byeFind) } := by
      rw [task_step (pc := .say .byeFind) (pc' := .byeFind) (s1 := { s with tasks := s.tasks.set i (fd, .say .byeFind) }) (fd := fd)]
      · simp
      · simp [hlt]
      · rfl
    by_cases hf : fd ∈ s.sessions
    · refine ⟨[.task i { ok := false }, .task i {}, .task i {}, .task i {}, .task i {}],
        { s with tasks := s.tasks.set i (fd, .done), sessions := s.sessions.filter (· ≠ fd) }, ?_, ?_, rfl, rfl⟩
      · have h4 : MtSys.step { s with tasks := s.tasks.set i (fd, .byeFind) } (.task i {}) =
            some { s with tasks := s.tasks.set i (fd, .byeErase) } := by
          rw [task_step (pc := .byeFind) (pc' := .byeErase) (s1 := { s with tasks := s.tasks.set i (fd, .byeFind) }) (fd := fd)]
          · simp
          · simp [hlt]
          · simp [taskNext, hf]
        have h5 : MtSys.step { s with tasks := s.tasks.set i (fd, .byeErase) } (.task i {}) =
            some { s with tasks := s.tasks.set i (fd, .done), sessions := s.sessions.filter (· ≠ fd) } := by
          rw [task_step (pc := .byeErase) (pc' := .done)
            (s1 := { s with tasks := s.tasks.set i (fd, .byeErase), sessions := s.sessions.filter (· ≠ fd) }) (fd := fd)]
          · simp
          · simp [hlt]
          · rfl
        simp only [run, h1, h2, h3, h4, h5]
      · intro l hl
        simp only [List.mem_cons, List.not_mem_nil, or_false] at hl
        rcases hl with rfl | rfl | rfl | rfl | rfl <;> exact ⟨_, rfl⟩
    · refine ⟨[.task i { ok := false }, .task i {}, .task i {}, .task i {}],
        { s with tasks := s.tasks.set i (fd, .done) }, ?_, ?_, rfl, rfl⟩
      · have h4 : MtSys.step { s with tasks := s.tasks.set i (fd, .byeFind) } (.task i {}) =
            some { s with tasks := s.tasks.set i (fd, .done) } := by
          rw [task_step (pc := .byeFind) (pc' := .done) (s1 := { s with tasks := s.tasks.set i (fd, .byeFind) }) (fd := fd)]
          · simp
          · simp [hlt]
          · simp [taskNext, hf]
        simp only [run, h1, h2, h3, h4]
      · intro l hl
        simp only [List.mem_cons, List.not_mem_nil, or_false] at hl
        rcases hl with rfl | rfl | rfl | rfl <;> exact ⟨_, rfl⟩

/-- **C177** (what holds): when one of the idle clients leaves, the connection that has waited longest is begun, by steps of the task of
the client that left and of its worker alone. -/
theorem C177_leaves_partial (tls fileLog : Bool) (workers : Nat) (types : UMap) (tr : List MtLabel) (s : MtSys)
    (h : (startedServer .multiThread tls fileLog workers types).run tr = some s) (hp : s.poolStopped = false) (i j : Nat)
    (hi : WaitsForClient s i) (hj : WaitsForWorker s j) (hfirst : ∀ k < j, ¬ WaitsForWorker s k) :
    ∃ tr' s', s.run tr' = some s' ∧ (∀ l ∈ tr', l = .start ∨ ∃ a, l = .task i a) ∧ ¬ WaitsForWorker s' j := by
  obtain ⟨fd, hi⟩ := hi
  obtain ⟨hlt, he⟩ := List.getElem?_eq_some_iff.1 hi
  obtain ⟨tr1, s1, r1, l1, t1, p1⟩ := leave_run hi
  have hinv := taskInv (s0 := startedServer .multiThread tls fileLog workers types) rfl tr s h
  have hw : s.workers = workers := (mtInv (s0 := startedServer .multiThread tls fileLog workers types) rfl tr s h).workers
  have hsame : ∀ k, WaitsForWorker s1 k ↔ WaitsForWorker s k := by
    intro k
    unfold WaitsForWorker
    rw [t1]
    by_cases hk : i = k
    · subst hk
      rw [hi]
      simp [hlt]
    · rw [List.getElem?_set_ne hk]
  have hb : busy s1 < workers := by
    have hbd := hinv.bound
    rw [busy_eq, t1, ← List.countP_eq_length_filter, List.countP_set hlt, he, List.countP_eq_length_filter]
    have hpos : 0 < (s.tasks.filter fun t => active t.2).length := by
      rw [List.length_pos_iff]
      intro e
      have : ((fd, .peek) : Int × TaskPc) ∈ s.tasks.filter (fun t => active t.2) := List.mem_filter.2 ⟨List.mem_of_getElem? hi, rfl⟩
      rw [e] at this
      cases this
    rw [if_pos (show active .peek = true from rfl), if_neg (show ¬ active .done = true by decide)]
    omega
  obtain ⟨s2, h2, h3, _⟩ := C177_free_partial .multiThread tls fileLog workers types (tr ++ tr1) s1 (run_append_run h r1) hb
    (p1.trans hp) j ((hsame j).2 hj) (fun k hk hq => hfirst k hk ((hsame k).1 hq))
  refine ⟨tr1 ++ [.start], s2, run_append.2 ⟨s1, r1, h2⟩, fun l hl => ?_, h3⟩
  rw [List.mem_append, List.mem_singleton] at hl
  exact hl.elim (fun hl => .inr (l1 l hl)) .inl

/-- The actions of `Run` in the mixed mode. -/
def mixedPc : RunPc → Bool
  | .accept | .check _ => false
  | .say k | .failMsg k => mixedPc k
  | _ => true

theorem mixed_loop {s s' : MtSys} {a : LAns} {pc : RunPc} (hm : s.mode = .mixed) (hp : mixedPc pc = true) (h : s.loopNext a pc = some s') :
    mixedPc s'.loop = true ∧ (s'.tasks = s.tasks ∨ ∃ fd, a.event = some (.read fd) ∧ s'.tasks = s.tasks ++ [(fd, .queued)]) := by
  cases pc with
  | say k => simp only [loopNext, Option.some.injEq] at h; subst h; exact ⟨hp, .inl rfl⟩
  | failMsg k => simp only [loopNext, Option.some.injEq] at h; subst h; exact ⟨hp, .inl rfl⟩
  | accept => cases hp
  | check fd => cases hp
  | batch =>
    simp only [loopNext, addTask] at h
    split at h
    case h_5 fd he =>
      simp only [Option.some.injEq] at h
      subst h
      exact ⟨rfl, .inr ⟨fd, he, rfl⟩⟩
    all_goals
      simp only [Option.some.injEq] at h
      subst h
      exact ⟨rfl, .inl rfl⟩
  | _ =>
    simp only [loopNext, hm] at h
    try split at h
    all_goals
      first
      | (cases h; done)
      | (simp only [Option.some.injEq] at h; subst h; refine ⟨?_, .inl rfl⟩; dsimp only; (repeat' split) <;> rfl)

/-- **C177** (what holds in the mixed mode): a client that sends nothing costs no worker: there are tasks only for connections that were
reported as readable. -/
theorem C177_mixed_partial (tls fileLog : Bool) (workers : Nat) (types : UMap) (tr : List MtLabel) (s : MtSys)
    (h : (startedServer .mixed tls fileLog workers types).run tr = some s) :
    ∀ t ∈ s.tasks, ∃ a, .loop a ∈ tr ∧ a.event = some (.read t.1) := by
  refine (run_ind (s0 := startedServer .mixed tls fileLog workers types)
    (P := fun tr s => s.mode = .mixed ∧ mixedPc s.loop = true ∧
      ∀ t ∈ s.tasks, ∃ a, .loop a ∈ tr ∧ a.event = some (.read t.1)) ?_ ?_ tr s h).2.2
  · exact ⟨rfl, rfl, by simp [startedServer]⟩
  · intro tr l s s' _ ⟨hm, hc, hi⟩ h
    refine ⟨(step_const h).1.trans hm, ?_⟩
    have hold : ∀ t ∈ s.tasks, ∃ a, .loop a ∈ tr ++ [l] ∧ a.event = some (.read t.1) := fun t ht =>
      let ⟨a, h1, h2⟩ := hi t ht
      ⟨a, List.mem_append_left _ h1, h2⟩
    cases l with
    | loop a =>
      obtain ⟨h1, h2⟩ := mixed_loop hm hc h
      refine ⟨h1, fun t ht => ?_⟩
      rcases h2 with e | ⟨fd, e1, e2⟩
      · rw [e] at ht; exact hold t ht
      · rw [e2, List.mem_append, List.mem_singleton] at ht
        rcases ht with ht | rfl
        · exact hold t ht
        · exact ⟨a, by simp, e1⟩
    | start =>
      simp only [step] at h
      split at h
      · cases h
      · rename_i k hk
        split at h
        · cases h
        · simp only [Option.some.injEq] at h
          subst h
          obtain ⟨hlt, _, _⟩ := List.findIdx?_eq_some_iff_getElem.1 hk
          refine ⟨hc, fun t ht => ?_⟩
          dsimp only at ht
          rw [modify_set s.tasks k hlt] at ht
          rcases List.mem_or_eq_of_mem_set ht with ht | rfl
          · exact hold t ht
          · exact hold (s.tasks[k]) (List.getElem_mem hlt)
    | task k a =>
      simp only [step] at h
      split at h
      · cases h
      · rename_i f p hk
        split at h
        · cases h
        · rename_i p' s1 hn
          simp only [Option.some.injEq] at h
          subst h
          refine ⟨by dsimp only; rw [(taskNext_facts hn).1]; exact hc, fun t ht => ?_⟩
          rcases List.mem_or_eq_of_mem_set ht with ht | rfl
          · exact hold t ht
          · exact hold (f, p) (List.mem_of_getElem? hk)
    | ctl ok =>
      obtain ⟨_, _, _, _, _, e1, e2⟩ := ctlNext_facts h
      rw [e1, e2]
      exact ⟨hc, hold⟩
    | callStop => simp only [step] at h; split at h <;> cases h; exact ⟨hc, hold⟩
    | callDtor => simp only [step] at h; split at h <;> cases h; exact ⟨hc, hold⟩

/-- The loop was told to end. -/
def Told (s : MtSys) : Prop := s.loopFlag = false ∧ (s.mode = .mixed → s.ioFlag = false)

/-- What `Stop` has done so far. -/
def ctlDone (s : MtSys) : Prop :=
  match s.ctl with
  | .idle | .askCont _ => s.cont = false → Told s
  | .clearCont _ | .askListen _ | .clearLoop _ => True
  | .clearIo _ => s.loopFlag = false
  | _ => Told s

theorem stop_told {s0 : MtSys} (h0 : s0.cont = true) (h1 : s0.listen = true) (h2 : s0.ctl = .idle) : ∀ tr s, s0.run tr = some s →
    ctlDone s ∧ (s.listen = false → Told s) ∧
      (.callStop ∈ tr → s.cont = false ∨ (∃ d, s.ctl = .askCont d) ∨ ∃ d, s.ctl = .clearCont d) := by
  refine run_ind ⟨by simp [ctlDone, h0, h2], by simp [h1], by simp⟩ ?_
  intro tr l s s' _ ⟨i1, i2, i3⟩ h
  have hsame : s'.mode = s.mode → s'.ctl = s.ctl → s'.cont = s.cont → s'.listen = s.listen → s'.loopFlag = s.loopFlag →
      s'.ioFlag = s.ioFlag → l ≠ .callStop → ctlDone s' ∧ (s'.listen = false → Told s') ∧
      (.callStop ∈ tr ++ [l] → s'.cont = false ∨ (∃ d, s'.ctl = .askCont d) ∨ ∃ d, s'.ctl = .clearCont d) := by
    intro e0 e1 e2 e3 e4 e5 hl
    have ht : Told s' ↔ Told s := by unfold Told; rw [e0, e4, e5]
    refine ⟨?_, by rw [e3, ht]; exact i2, fun hm => ?_⟩
    · unfold ctlDone at i1 ⊢
      rw [e1, e2, e4, ht]
      exact i1
    · rw [e1, e2]
      refine i3 ?_
      rcases List.mem_append.1 hm with hm | hm
      · exact hm
      · rw [List.mem_singleton] at hm; exact absurd hm.symm hl
  cases l with
  | loop a => have e := (loopNext_facts h).1; exact hsame (by rw [e]) (by rw [e]) (by rw [e]) (by rw [e]) (by rw [e]) (by rw [e]) (by simp)
  | start =>
    simp only [step] at h
    split at h
    · cases h
    · split at h <;> cases h
      exact hsame rfl rfl rfl rfl rfl rfl (by simp)
  | task k a =>
    simp only [step] at h
    split at h
    · cases h
    · split at h
      · cases h
      · rename_i hn
        cases h
        have e := (taskNext_facts hn).1
        exact hsame (by dsimp only; rw [e]) (by dsimp only; rw [e]) (by dsimp only; rw [e]) (by dsimp only; rw [e])
          (by dsimp only; rw [e]) (by dsimp only; rw [e]) (by simp)
  | callStop =>
    simp only [step] at h
    split at h <;> cases h
    rename_i hc
    refine ⟨?_, i2, fun _ => .inr (.inl ⟨_, rfl⟩)⟩
    unfold ctlDone at i1 ⊢
    rw [hc] at i1
    exact i1
  | callDtor =>
    simp only [step] at h
    split at h <;> cases h
    rename_i hc
    refine ⟨?_, i2, fun _ => .inr (.inl ⟨_, rfl⟩)⟩
    unfold ctlDone at i1 ⊢
    rw [hc.1] at i1
    exact i1
  | ctl ok =>
    have i3' : .callStop ∈ tr ++ [MtLabel.ctl ok] → s.cont = false ∨ (∃ d, s.ctl = .askCont d) ∨ ∃ d, s.ctl = .clearCont d := by
      intro hm
      refine i3 ?_
      rcases List.mem_append.1 hm with hm | hm
      · exact hm
      · simp at hm
    simp only [step] at h
    unfold ctlDone at i1
    revert i3'
    cases hc : s.ctl <;> rw [hc] at h i1 <;> simp only [ctlNext] at h <;> intro i3'
    all_goals (repeat' split at h)
    all_goals
      first
      | (cases h; done)
      | (simp only [Option.some.injEq] at h; subst h; simp_all [ctlDone, Told])

/-- `Run` ends by its own steps. -/
def EndsAlone (s : MtSys) : Prop :=
  ∃ tr s', s.run tr = some s' ∧ (∀ l ∈ tr, ∃ a, l = .loop a) ∧ hasReturned s'.loop = true

theorem ends_step {s s1 : MtSys} {a : LAns} (h : s.step (.loop a) = some s1) (he : EndsAlone s1) : EndsAlone s := by
  obtain ⟨tr, s', h1, h2, h3⟩ := he
  refine ⟨.loop a :: tr, s', by simp only [run, h, h1], fun l hl => ?_, h3⟩
  rcases List.mem_cons.1 hl with rfl | hl
  · exact ⟨a, rfl⟩
  · exact h2 l hl

/-- Once the loop was told to end and no task is at work, `Run` ends by its own steps. -/
theorem loop_ends {s : MtSys} (ht : Told s) (hn : (s.tasks.any fun t => active t.2) = false) : EndsAlone s := by
  have hret : ∀ (s' : MtSys) rc, s'.loop = .returned rc → EndsAlone s' := fun s' rc e => ⟨[], s', rfl, by simp, by rw [e]; rfl⟩
  have hstop : EndsAlone { s with loop := .stopPool } :=
    ends_step (a := {}) (s1 := { s with poolStopped := true, loop := .returned kSuccess }) (by simp [step, loopNext, hn]) (hret _ _ rfl)
  have htop : EndsAlone { s with loop := .top } := by
    refine ends_step (a := {}) (s1 := { s with loop := .stopPool }) ?_ hstop
    simp only [step, loopNext]
    obtain ⟨t1, t2⟩ := ht
    cases hm : s.mode with
    | multiThread => simp [t1]
    | mixed => simp [t2 hm]
  have hrt : ∀ rc, EndsAlone { s with loop := .ret rc } := fun rc =>
    ends_step (a := {}) (s1 := { s with loop := .returned rc }) rfl (hret _ _ rfl)
  have hbatch : EndsAlone { s with loop := .batch } := ends_step (a := {}) (s1 := { s with loop := .top }) rfl htop
  have hremove : EndsAlone { s with loop := .remove } := ends_step (a := {}) (s1 := { s with loop := .batch }) rfl hbatch
  have hsay : ∀ k, EndsAlone { s with loop := k } → EndsAlone { s with loop := .say k } := fun k hk =>
    ends_step (a := {}) (s1 := { s with loop := k }) rfl hk
  have hfm : ∀ k, EndsAlone { s with loop := k } → EndsAlone { s with loop := .failMsg k } := fun k hk =>
    ends_step (a := {}) (s1 := { s with loop := .say k }) rfl (hsay k hk)
  have hio : EndsAlone { s with loop := .ioFailed } :=
    ends_step (a := {}) (s1 := { s with loop := .failMsg .batch }) rfl (hfm _ hbatch)
  have hcheck : ∀ fd, EndsAlone { s with loop := .check fd } := fun fd =>
    ends_step (a := {}) (s1 := { s with loop := .stopPool }) (by simp [step, loopNext, ht.1]) hstop
  have henter : EndsAlone { s with loop := .enter } := by
    cases hl : s.listen
    · exact ends_step (a := {}) (s1 := { s with loop := .ret kLogicErr }) (by simp [step, loopNext, hl]) (hrt _)
    · exact ends_step (a := {}) (s1 := { s with loop := .top }) (by simp [step, loopNext, hl]) htop
  have hall : ∀ pc, EndsAlone { s with loop := pc } := by
    intro pc
    induction pc with
    | say k ih => exact hsay k ih
    | failMsg k ih => exact hfm k ih
    | run =>
      cases hl : s.cont
      · exact ends_step (a := {}) (s1 := { s with loop := .returned kLogicErr }) (by simp [step, loopNext, hl]) (hret _ _ rfl)
      · exact ends_step (a := {}) (s1 := { s with loop := .say .enter }) (by simp [step, loopNext, hl]) (hsay _ henter)
    | enter => exact henter
    | top => exact htop
    | accept => exact ends_step (a := {}) (s1 := { s with loop := .check (if s.listen then ({} : LAns).fd else -1) }) rfl (hcheck _)
    | check fd => exact hcheck fd
    | failed => exact ends_step (a := {}) (s1 := { s with loop := .failMsg (.ret kSysErr) }) rfl (hfm _ (hrt _))
    | ret rc => exact hrt rc
    | wait => exact ends_step (a := { ok := true }) (s1 := { s with loop := .batch }) rfl hbatch
    | waitFailed => exact ends_step (a := {}) (s1 := { s with loop := .ret kSysErr }) rfl (hrt _)
    | batch => exact hbatch
    | ioAccept => exact ends_step (a := { fd := -1 }) (s1 := { s with loop := .ioFailed }) (by simp [step, loopNext]) hio
    | monitor => exact ends_step (a := { ok := false }) (s1 := { s with loop := .ioFailed }) rfl hio
    | hello => exact ends_step (a := { ok := true }) (s1 := { s with loop := .say .batch }) rfl (hsay _ hbatch)
    | bye => exact ends_step (a := {}) (s1 := { s with loop := .say .remove }) rfl (hsay _ hremove)
    | ioFailed => exact hio
    | remove => exact hremove
    | stopPool => exact hstop
    | returned rc => exact hret _ rc rfl
  exact hall s.loop

/-- **C177** (what holds of `Run`): once a call of `Stop` has returned and no worker is busy, `Run` needs nobody else to return: neither a
client, a worker nor another call of `Stop`.  (It may wait in `accept` when the connection of `Stop` to itself failed: see C25.) -/
theorem C177_returns_partial (mode : MtMode) (tls fileLog : Bool) (workers : Nat) (types : UMap) (tr : List MtLabel) (s : MtSys)
    (h : (startedServer mode tls fileLog workers types).run tr = some s) (hs : .callStop ∈ tr) (hc : s.ctl = .idle) (hb : busy s = 0) :
    ∃ tr' s' rc, s.run tr' = some s' ∧ (∀ l ∈ tr', ∃ a, l = .loop a) ∧ s'.loop = .returned rc := by
  obtain ⟨h1, _, h3⟩ := stop_told (s0 := startedServer mode tls fileLog workers types) rfl rfl rfl tr s h
  have hcont : s.cont = false := by
    rcases h3 hs with e | ⟨d, e⟩ | ⟨d, e⟩
    · exact e
    · rw [hc] at e; cases e
    · rw [hc] at e; cases e
  have ht : Told s := by
    unfold ctlDone at h1
    rw [hc] at h1
    exact h1 hcont
  have hn : (s.tasks.any fun t => active t.2) = false := by
    rw [busy_eq, List.length_eq_zero_iff, List.filter_eq_nil_iff] at hb
    rw [List.any_eq_false]
    exact hb
  obtain ⟨tr', s', r1, r2, r3⟩ := loop_ends ht hn
  cases hl : s'.loop <;> rw [hl] at r3 <;> cases r3
  exact ⟨tr', s', _, r1, r2, hl⟩

/-! ### The hypotheses can be met: one worker, two connections -/

/-- One client is idle, a second connection waits; then `Stop` is called and returns, the first client leaves and both connections are
served (the second client leaves at once), after which no worker is busy. -/
def twoIdle : List MtLabel :=
  toTop ++ [.loop {}, .loop { fd := 5 }, .loop {}, .start, .task 0 {}, .task 0 {}, .loop {}, .loop { fd := 6 }, .loop {}]

def twoIdleLeave : List MtLabel :=
  [.loop {}, .callStop] ++ List.replicate 6 (.ctl true) ++ [.loop { fd := 9 }, .loop {}, .ctl true, .ctl true,
    .task 0 { ok := false }, .task 0 {}, .task 0 {}, .start, .task 1 {}, .task 1 {}, .task 1 { ok := false }, .task 1 {}, .task 1 {}]

/-- `C177_order_partial`, `C177_leaves_partial`: task 0 waits for its client, task 1 for the worker. -/
example : ((startedServer .multiThread false false 1 UMap.empty).run twoIdle).map (fun s => (s.tasks, s.poolStopped)) =
    some ([(5, .peek), (6, .queued)], false) := by decide +kernel
/-- `C177_free_partial`: the worker is free and the connection waits. -/
example : ((startedServer .multiThread false false 1 UMap.empty).run (toTop ++ [.loop {}, .loop { fd := 5 }, .loop {}])).map
    (fun s => (s.tasks, s.poolStopped)) = some ([(5, .queued)], false) := by decide +kernel
/-- `C177_mixed_partial`: a connection is reported as readable. -/
example : ((startedServer .mixed false false 1 UMap.empty).run (toTop ++ [.loop {}, .loop {}, .loop { event := some (.read 5) }])).map
    (fun s => s.tasks) = some [(5, .queued)] := by decide +kernel
/-- `C177_returns_partial`: `Stop` has returned, no worker is busy and `Run` has not returned. -/
example : ((startedServer .multiThread false false 1 UMap.empty).run (twoIdle ++ twoIdleLeave)).map
    (fun s => (s.tasks, s.ctl, s.loop)) = some ([(5, .done), (6, .done)], .idle, .stopPool) := by decide +kernel

end Cppnet
