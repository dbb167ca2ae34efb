import Verif.Spec.Race
import Mathlib.Data.List.Induction

/-!
# Lemmas about the threads of a server
-/

namespace Cppnet
open Spec MtSys

/-- Locations that only a TLS server has. -/
def usesTls : TaskPc → Bool
  | .say k => usesTls k
  | .secure | .secErr | .secMsg | .insert | .find | .byeFind | .byeErase => true
  | _ => false

/-- Locations that only a task of the multi-thread mode has. -/
def onlyMulti : TaskPc → Bool
  | .say k => onlyMulti k
  | .greet | .secure | .secErr | .secMsg | .insert | .peek | .bye | .byeFind | .byeErase => true
  | _ => false

theorem taskNext_multi {s : MtSys} {fd : Int} {a : TAns} {pc pc' : TaskPc} {s' : MtSys} (h : s.taskNext fd a pc = some (pc', s')) :
    (onlyMulti pc = true → s.mode = .multiThread) → onlyMulti pc' = true → s.mode = .multiThread := by
  cases pc with
  | handler hh => cases hh <;> simp only [taskNext, Option.some.injEq, Prod.mk.injEq] at h <;>
      (obtain ⟨rfl, rfl⟩ := h; simp [onlyMulti])
  | _ =>
    simp only [taskNext, afterRead, startRead] at h
    repeat' split at h
    all_goals
      first
      | cases h; done
      | (simp only [Option.some.injEq, Prod.mk.injEq] at h; obtain ⟨rfl, rfl⟩ := h; simp_all [onlyMulti])

theorem taskNext_facts {s : MtSys} {fd : Int} {a : TAns} {pc pc' : TaskPc} {s' : MtSys} (h : s.taskNext fd a pc = some (pc', s')) :
    s' = { s with types := s'.types, sessions := s'.sessions } ∧
      ((usesTls pc = true → s.tls = true) → usesTls pc' = true → s.tls = true) := by
  cases pc with
  | handler hh => cases hh <;> simp only [taskNext, Option.some.injEq, Prod.mk.injEq] at h <;>
      (obtain ⟨rfl, rfl⟩ := h; simp [usesTls])
  | find =>
    simp only [taskNext] at h
    split at h <;> (simp only [Option.some.injEq, Prod.mk.injEq] at h; obtain ⟨rfl, rfl⟩ := h; simp [usesTls])
  | byeFind =>
    simp only [taskNext] at h
    split at h <;> (simp only [Option.some.injEq, Prod.mk.injEq] at h; obtain ⟨rfl, rfl⟩ := h; simp [usesTls])
  | search =>
    simp only [taskNext] at h
    split at h <;> (simp only [Option.some.injEq, Prod.mk.injEq] at h; obtain ⟨rfl, rfl⟩ := h; simp [usesTls])
  | _ =>
    simp only [taskNext, afterRead, startRead] at h
    repeat' split at h
    all_goals
      first
      | cases h; done
      | (simp only [Option.some.injEq, Prod.mk.injEq] at h; obtain ⟨rfl, rfl⟩ := h; exact ⟨rfl, by simp_all [usesTls]⟩)

theorem loopNext_facts {s s' : MtSys} {a : LAns} {pc : RunPc} (h : s.loopNext a pc = some s') :
    s' = { s with loop := s'.loop, tasks := s'.tasks, poolStopped := s'.poolStopped } ∧
      (s'.tasks = s.tasks ∨ ∃ fd, s'.tasks = s.tasks ++ [(fd, .queued)]) := by
  cases pc with
  | say k => simp only [loopNext, Option.some.injEq] at h; subst h; simp
  | _ =>
    simp only [loopNext, addTask] at h
    repeat' split at h
    all_goals
      first
      | cases h; done
      | (simp only [Option.some.injEq] at h; subst h; simp)

theorem ctlNext_facts {s s' : MtSys} {ok : Bool} {pc : CtlPc} (h : s.ctlNext ok pc = some s') :
    s'.mode = s.mode ∧ s'.tls = s.tls ∧ s'.fileLog = s.fileLog ∧ s'.workers = s.workers ∧ s'.types = s.types ∧
      s'.loop = s.loop ∧ s'.tasks = s.tasks := by
  cases pc <;> simp only [ctlNext] at h
  all_goals (repeat' split at h)
  all_goals
    first
    | cases h; done
    | (simp only [Option.some.injEq] at h; subst h; simp)

/-- What no action changes. -/
theorem step_const {s s' : MtSys} {l : MtLabel} (h : s.step l = some s') :
    s'.mode = s.mode ∧ s'.tls = s.tls ∧ s'.fileLog = s.fileLog ∧ s'.workers = s.workers := by
  cases l with
  | loop a => have := (loopNext_facts h).1; rw [this]; simp
  | ctl ok => obtain ⟨h1, h2, h3, h4, _⟩ := ctlNext_facts h; exact ⟨h1, h2, h3, h4⟩
  | callStop => simp only [step] at h; split at h <;> cases h; simp
  | callDtor => simp only [step] at h; split at h <;> cases h; simp
  | start =>
    simp only [step] at h
    split at h
    · cases h
    · split at h <;> cases h; simp
  | task i a =>
    simp only [step] at h
    split at h
    · cases h
    · split at h
      · cases h
      · rename_i h1
        cases h
        have := (taskNext_facts h1).1
        rw [this]; simp

/-- Where the tasks can be after an action. -/
theorem step_tasks {s s' : MtSys} {l : MtLabel} (h : s.step l = some s') :
    ∀ t ∈ s'.tasks, t ∈ s.tasks ∨ t.2 = .queued ∨ (l = .start ∧ t.2 = s.startTask) ∨
      ∃ i a pc s'', l = .task i a ∧ s.tasks[i]? = some (t.1, pc) ∧ s.taskNext t.1 a pc = some (t.2, s'') := by
  intro t ht
  cases l with
  | loop a =>
    rcases (loopNext_facts h).2 with h1 | ⟨fd, h1⟩
    · rw [h1] at ht; exact .inl ht
    · rw [h1, List.mem_append] at ht
      rcases ht with ht | ht
      · exact .inl ht
      · simp at ht; exact .inr (.inl (by rw [ht]))
  | ctl ok => rw [(ctlNext_facts h).2.2.2.2.2.2] at ht; exact .inl ht
  | callStop => simp only [step] at h; split at h <;> cases h; exact .inl ht
  | callDtor => simp only [step] at h; split at h <;> cases h; exact .inl ht
  | start =>
    simp only [step] at h
    split at h
    · cases h
    · rename_i i hi
      split at h <;> cases h
      obtain ⟨j, hj⟩ := List.mem_iff_getElem?.1 ht
      rw [List.getElem?_modify] at hj
      split at hj
      · cases hk : s.tasks[j]? with
        | none => rw [hk] at hj; cases hj
        | some x =>
          rw [hk] at hj
          simp at hj
          exact .inr (.inr (.inl ⟨rfl, by rw [← hj]⟩))
      · simp at hj
        exact .inl (List.mem_iff_getElem?.2 ⟨j, hj⟩)
  | task i a =>
    simp only [step] at h
    split at h
    · cases h
    · rename_i fd pc hi
      split at h
      · cases h
      · rename_i pc' s'' h1
        cases h
        rcases List.mem_or_eq_of_mem_set ht with ht | ht
        · exact .inl ht
        · subst ht
          exact .inr (.inr (.inr ⟨i, a, pc, s'', rfl, hi, h1⟩))

theorem run_append {s s' : MtSys} {tr : List MtLabel} {l : MtLabel} :
    s.run (tr ++ [l]) = some s' ↔ ∃ s1, s.run tr = some s1 ∧ s1.step l = some s' := by
  induction tr generalizing s with
  | nil =>
    simp only [List.nil_append, run]
    cases h : s.step l <;> simp [h]
  | cons l1 tr ih =>
    simp only [List.cons_append, run]
    cases s.step l1 with
    | none => simp
    | some s1 => exact ih

/-- Induction over the actions of a run. -/
theorem run_ind {P : List MtLabel → MtSys → Prop} {s0 : MtSys} (h0 : P [] s0)
    (hs : ∀ tr l s s', s0.run tr = some s → P tr s → s.step l = some s' → P (tr ++ [l]) s') :
    ∀ tr s, s0.run tr = some s → P tr s := by
  intro tr
  induction tr using List.reverseRecOn with
  | nil => intro s h; cases h; exact h0
  | append_singleton tr l ih =>
    intro s h
    obtain ⟨s1, h1, h2⟩ := run_append.1 h
    exact hs tr l s1 s h1 (ih s1 h1) h2

/-- In every run from a started server. -/
structure MtInv (s0 s : MtSys) : Prop where
  mode : s.mode = s0.mode
  tls : s.tls = s0.tls
  fileLog : s.fileLog = s0.fileLog
  workers : s.workers = s0.workers
  tasks : ∀ t ∈ s.tasks, usesTls t.2 = true → s.tls = true
  multi : ∀ t ∈ s.tasks, onlyMulti t.2 = true → s.mode = .multiThread

theorem mtInv {s0 : MtSys} (h0 : s0.tasks = []) : ∀ tr s, s0.run tr = some s → MtInv s0 s := by
  refine run_ind (P := fun _ s => MtInv s0 s) ⟨rfl, rfl, rfl, rfl, by simp [h0], by simp [h0]⟩ ?_
  intro tr l s s' _ hi h
  obtain ⟨c1, c2, c3, c4⟩ := step_const h
  refine ⟨c1.trans hi.mode, c2.trans hi.tls, c3.trans hi.fileLog, c4.trans hi.workers, ?_, ?_⟩
  rotate_left
  · intro t ht hu
    rw [c1]
    rcases step_tasks h t ht with h1 | h1 | ⟨_, h1⟩ | ⟨i, a, pc, s'', _, h1, h2⟩
    · exact hi.multi t h1 hu
    · rw [h1] at hu; simp [onlyMulti] at hu
    · rw [h1] at hu
      unfold startTask startRead at hu
      split at hu
      · assumption
      · split at hu <;> simp [onlyMulti] at hu
    · exact taskNext_multi h2 (hi.multi (t.1, pc) (List.mem_of_getElem? h1)) hu
  intro t ht hu
  rw [c2]
  rcases step_tasks h t ht with h1 | h1 | ⟨_, h1⟩ | ⟨i, a, pc, s'', _, h1, h2⟩
  · exact hi.tasks t h1 hu
  · rw [h1] at hu; simp [usesTls] at hu
  · rw [h1] at hu
    unfold startTask startRead at hu
    split at hu
    · simp [usesTls] at hu
    · split at hu
      · assumption
      · simp [usesTls] at hu
  · exact (taskNext_facts h2).2 (hi.tasks (t.1, pc) (List.mem_of_getElem? h1)) hu

/-- The controlling thread is in the destructor. -/
def inDtor : CtlPc → Bool
  | .askCont d | .clearCont d | .askListen d | .clearLoop d | .clearIo d | .wakeUp d | .connect d | .wakeErr d | .clean d | .cleanIo d => d
  | .freeTrie | .join | .freeSessions | .gone => true
  | .idle => false

theorem ctlNext_dtor {s s' : MtSys} {ok : Bool} {pc : CtlPc} (h : s.ctlNext ok pc = some s') (hp : inDtor pc = false) :
    inDtor s'.ctl = false := by
  cases pc <;> simp only [ctlNext] at h
  all_goals (repeat' split at h)
  all_goals
    first
    | cases h; done
    | (simp only [Option.some.injEq] at h; subst h; simp_all [inDtor])
  all_goals (repeat' split)
  all_goals simp_all [inDtor]

theorem not_inDtor {s0 : MtSys} (h0 : s0.ctl = .idle) :
    ∀ tr s, s0.run tr = some s → .callDtor ∉ tr → inDtor s.ctl = false := by
  refine run_ind (P := fun tr s => .callDtor ∉ tr → inDtor s.ctl = false) (fun _ => by rw [h0]; rfl) ?_
  intro tr l s s' _ ih h hd
  simp only [List.mem_append, List.mem_singleton, not_or] at hd
  have hc := ih hd.1
  cases l with
  | loop a => have := (loopNext_facts h).1; rw [this]; exact hc
  | ctl ok => exact ctlNext_dtor h hc
  | callStop => simp only [step] at h; split at h <;> cases h; rfl
  | callDtor => exact absurd rfl hd.2
  | start =>
    simp only [step] at h
    split at h
    · cases h
    · split at h <;> cases h; exact hc
  | task i a =>
    simp only [step] at h
    split at h
    · cases h
    · split at h
      · cases h
      · rename_i h1
        cases h
        have := (taskNext_facts h1).1
        rw [this]; exact hc

/-- Nobody has called `Stop` or the destructor. -/
theorem ctl_idle {s0 : MtSys} (h0 : s0.ctl = .idle) :
    ∀ tr s, s0.run tr = some s → .callStop ∉ tr → .callDtor ∉ tr → s.ctl = .idle := by
  refine run_ind (P := fun tr s => .callStop ∉ tr → .callDtor ∉ tr → s.ctl = .idle) (fun _ _ => h0) ?_
  intro tr l s s' _ ih h hs hd
  simp only [List.mem_append, List.mem_singleton, not_or] at hs hd
  have hc := ih hs.1 hd.1
  cases l with
  | loop a => have := (loopNext_facts h).1; rw [this]; exact hc
  | ctl ok => simp only [step, hc, ctlNext] at h; cases h
  | callStop => exact absurd rfl hs.2
  | callDtor => exact absurd rfl hd.2
  | start =>
    simp only [step] at h
    split at h
    · cases h
    · split at h <;> cases h; exact hc
  | task i a =>
    simp only [step] at h
    split at h
    · cases h
    · split at h
      · cases h
      · rename_i h1
        cases h
        have := (taskNext_facts h1).1
        rw [this]; exact hc

/-! ### Who touches what -/

theorem task_writes {s : MtSys} {pc : TaskPc} {v : SVar} (h : .write v ∈ s.taskAcc pc) :
    (v = .sessions ∧ usesTls pc = true) ∨ (v = .ctxErr ∧ usesTls pc = true) ∨
      (v = .types ∧ ∃ suffix, pc = .handler (.dir suffix) ∧ .write .types ∈ s.handlerAcc (.dir suffix)) ∨
      (v = .log ∧ s.fileLog = true) ∨ (v = .addrLen ∧ onlyMulti pc = true) := by
  cases pc with
  | say k => simp only [taskAcc, logAcc] at h; split at h <;> simp_all
  | drop => simp only [taskAcc] at h; split at h <;> simp_all
  | handler hh =>
    cases hh with
    | user => simp [taskAcc, handlerAcc] at h
    | refuse => simp [taskAcc, handlerAcc] at h
    | file x => simp only [taskAcc, handlerAcc] at h; split at h <;> simp at h
    | dir x =>
      have hv : v = .types := by
        simp only [taskAcc, handlerAcc] at h
        split at h
        · split at h <;> simp at h
          exact h
        · simp at h
      subst hv
      exact .inr (.inr (.inl ⟨rfl, x, rfl, h⟩))
  | _ => simp [taskAcc] at h <;> simp [h, usesTls, onlyMulti]

theorem task_touches {s : MtSys} {pc : TaskPc} {v : SVar} (h : .write v ∈ s.taskAcc pc ∨ .read v ∈ s.taskAcc pc) :
    (v = .sessions ∧ usesTls pc = true) ∨ (v = .ctxErr ∧ usesTls pc = true) ∨ v = .types ∨ (v = .log ∧ s.fileLog = true) ∨
      v = .cont ∨ v = .poll ∨ v = .trie ∨ (v = .addrLen ∧ onlyMulti pc = true) := by
  rcases h with h | h
  · rcases task_writes h with h | h | h | h | h
    · exact .inl h
    · exact .inr (.inl h)
    · exact .inr (.inr (.inl h.1))
    · exact .inr (.inr (.inr (.inl h)))
    · exact .inr (.inr (.inr (.inr (.inr (.inr (.inr h))))))
  · cases pc with
    | say k => simp only [taskAcc, logAcc] at h; split at h <;> simp_all
    | drop => simp only [taskAcc] at h; split at h <;> simp_all
    | handler hh =>
      cases hh <;> simp only [taskAcc, handlerAcc] at h
      all_goals (repeat' split at h)
      all_goals simp_all
    | _ => simp [taskAcc] at h <;> simp [h, usesTls]

theorem loop_writes {s : MtSys} {pc : RunPc} {v : SVar} (h : .write v ∈ s.loopAcc pc) :
    v = .srvErr ∨ v = .httpErr ∨ (v = .log ∧ s.fileLog = true) ∨ v = .addrLen := by
  cases pc <;> simp only [loopAcc, logAcc] at h
  all_goals (repeat' split at h)
  all_goals simp_all

theorem loop_touches {s : MtSys} {pc : RunPc} {v : SVar} (h : .write v ∈ s.loopAcc pc ∨ .read v ∈ s.loopAcc pc) :
    v = .srvErr ∨ v = .httpErr ∨ (v = .log ∧ s.fileLog = true) ∨ v = .cont ∨ v = .loopFlag ∨ v = .ioFlag ∨ v = .listen ∨
      v = .poll ∨ v = .addrLen := by
  rcases h with h | h
  · rcases loop_writes h with h | h | h | h
    · exact .inl h
    · exact .inr (.inl h)
    · exact .inr (.inr (.inl h))
    · simp [h]
  · cases pc <;> simp only [loopAcc, logAcc] at h
    all_goals (repeat' split at h)
    all_goals simp_all

theorem ctl_touches {s : MtSys} {pc : CtlPc} {v : SVar} (h : .write v ∈ s.ctlAcc pc ∨ .read v ∈ s.ctlAcc pc) :
    pc ≠ .idle ∧ (v = .cont ∨ v = .loopFlag ∨ v = .ioFlag ∨ v = .srvErr ∨ v = .listen ∨ v = .poll ∨
      (v = .trie ∧ pc = .freeTrie) ∨ (v = .sessions ∧ pc = .freeSessions) ∨ v = .addrLen) := by
  rcases h with h | h
  all_goals
    cases pc <;> simp only [ctlAcc] at h
    all_goals (repeat' split at h)
    all_goals simp_all

theorem taskNext_active {s s' : MtSys} {fd : Int} {a : TAns} {pc pc' : TaskPc} (h : s.taskNext fd a pc = some (pc', s')) :
    active pc = true := by
  cases pc <;> first | rfl | (simp [taskNext] at h)

theorem active_iff {pc : TaskPc} : active pc = true ↔ pc ≠ .queued ∧ pc ≠ .done := by
  cases pc <;> simp [active]

theorem run_append_run {s0 s s' : MtSys} {tr tr' : List MtLabel} (h : s0.run tr = some s) (h' : s.run tr' = some s') :
    s0.run (tr ++ tr') = some s' := by
  induction tr generalizing s0 with
  | nil => cases h; exact h'
  | cons l tr ih =>
    simp only [run] at h
    simp only [List.cons_append, run]
    cases hs : s0.step l with
    | none => rw [hs] at h; cases h
    | some s1 => rw [hs] at h; exact ih h

/-- `Run` begins. -/
def toTop : List MtLabel := [.loop {}, .loop {}, .loop {}]

end Cppnet
