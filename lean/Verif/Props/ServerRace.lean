import Verif.Proofs.ServerThreads

/-!
# C138 and C139: the threads of a server
-/

namespace Cppnet
open Spec MtSys

/-- A race names two threads; one of them is not the controlling one, and if it is the thread in `Run` the other is a task or
the controlling thread. -/
theorem race_cases {s : MtSys} {v : SVar} (h : ServerRace s v) :
    (∃ (i j : Nat) (ti tj : Int × TaskPc), i ≠ j ∧ s.tasks[i]? = some ti ∧ s.tasks[j]? = some tj ∧ .write v ∈ s.taskAcc ti.2 ∧
        (.write v ∈ s.taskAcc tj.2 ∨ .read v ∈ s.taskAcc tj.2)) ∨
      (∃ (i : Nat) (ti : Int × TaskPc), s.tasks[i]? = some ti ∧ (.write v ∈ s.taskAcc ti.2 ∨ .read v ∈ s.taskAcc ti.2) ∧
        (.write v ∈ s.loopAcc s.loop ∨ .read v ∈ s.loopAcc s.loop) ∧
        (.write v ∈ s.taskAcc ti.2 ∨ .write v ∈ s.loopAcc s.loop)) ∨
      ((.write v ∈ s.ctlAcc s.ctl ∨ .read v ∈ s.ctlAcc s.ctl) ∧
        ((.write v ∈ s.loopAcc s.loop ∨ .read v ∈ s.loopAcc s.loop) ∨
          ∃ (i : Nat) (ti : Int × TaskPc), s.tasks[i]? = some ti ∧ (.write v ∈ s.taskAcc ti.2 ∨ .read v ∈ s.taskAcc ti.2) ∧
            (.write v ∈ s.taskAcc ti.2 ∨ .write v ∈ s.ctlAcc s.ctl))) := by
  have ht : ∀ {i : Nat} {x : SAccess}, x ∈ s.acc (.task i) → ∃ ti, s.tasks[i]? = some ti ∧ x ∈ s.taskAcc ti.2 := by
    intro i x hx
    simp only [acc] at hx
    split at hx
    · rename_i fd pc hi
      exact ⟨_, hi, hx⟩
    · cases hx
  obtain ⟨a, b, hab, hw, ho⟩ := h
  cases a with
  | loop =>
    cases b with
    | loop => exact absurd rfl hab
    | ctl => exact .inr (.inr ⟨ho, .inl (.inl hw)⟩)
    | task j =>
      refine .inr (.inl ?_)
      rcases ho with ho | ho
      · obtain ⟨t, h1, h2⟩ := ht ho
        exact ⟨j, t, h1, .inl h2, .inl hw, .inr hw⟩
      · obtain ⟨t, h1, h2⟩ := ht ho
        exact ⟨j, t, h1, .inr h2, .inl hw, .inr hw⟩
  | ctl =>
    cases b with
    | loop => exact .inr (.inr ⟨.inl hw, .inl ho⟩)
    | ctl => exact absurd rfl hab
    | task j =>
      refine .inr (.inr ⟨.inl hw, .inr ?_⟩)
      rcases ho with ho | ho
      · obtain ⟨t, h1, h2⟩ := ht ho
        exact ⟨j, t, h1, .inl h2, .inr hw⟩
      · obtain ⟨t, h1, h2⟩ := ht ho
        exact ⟨j, t, h1, .inr h2, .inr hw⟩
  | task i =>
    obtain ⟨t, h1, h2⟩ := ht hw
    cases b with
    | loop => exact .inr (.inl ⟨i, t, h1, .inl h2, ho, .inl h2⟩)
    | ctl => exact .inr (.inr ⟨ho, .inr ⟨i, t, h1, .inl h2, .inl h2⟩⟩)
    | task j =>
      refine .inl ?_
      have hij : i ≠ j := fun e => hab (by rw [e])
      rcases ho with ho | ho
      · obtain ⟨t', h1', h2'⟩ := ht ho
        exact ⟨i, j, t, t', hij, h1, h1', h2, .inl h2'⟩
      · obtain ⟨t', h1', h2'⟩ := ht ho
        exact ⟨i, j, t, t', hij, h1, h1', h2, .inr h2'⟩

/-- **C138** (what can race at all).  While a server runs in several threads, the only variables that can race are: the table of
the custom content types; with TLS the map of the sessions and the context's error text; with a `FileLogger` its buffers; and, if
`Stop` is called, the flags, the error text and the descriptors of the server; and, in the multi-thread mode or if `Stop` is
called, the variable in which `Address` hands the length of an address to the system.  In particular the routes never race. -/
theorem C138_only_partial (mode : MtMode) (tls fileLog : Bool) (workers : Nat) (types : UMap) (tr : List MtLabel) (s : MtSys)
    (h : (startedServer mode tls fileLog workers types).run tr = some s) (hd : .callDtor ∉ tr) (v : SVar) (hr : ServerRace s v) :
    v = .types ∨ (tls = true ∧ mode = .multiThread ∧ (v = .sessions ∨ v = .ctxErr)) ∨ (fileLog = true ∧ v = .log) ∨
      (.callStop ∈ tr ∧ (v = .cont ∨ v = .loopFlag ∨ v = .ioFlag ∨ v = .srvErr ∨ v = .listen ∨ v = .poll)) ∨
      ((mode = .multiThread ∨ .callStop ∈ tr) ∧ v = .addrLen) := by
  have hi := mtInv (s0 := startedServer mode tls fileLog workers types) rfl tr s h
  have hdt := not_inDtor (s0 := startedServer mode tls fileLog workers types) rfl tr s h hd
  have hmode : s.mode = mode := hi.mode
  have hfl : s.fileLog = true → fileLog = true := fun e => by rw [hi.fileLog] at e; exact e
  have htls : s.tls = true → tls = true ∧ mode = .multiThread := by
    intro e
    rw [hi.tls] at e
    simpa [startedServer] using e
  have hstop : s.ctl ≠ .idle → .callStop ∈ tr := fun e => by
    by_contra hn
    exact e (ctl_idle (s0 := startedServer mode tls fileLog workers types) rfl tr s h hn hd)
  rcases race_cases hr with ⟨i, j, ti, tj, _, h1, _, hw, _⟩ | ⟨i, ti, h1, ht, hl, hw⟩ | ⟨hc, ho⟩
  · have hu := hi.tasks ti (List.mem_of_getElem? h1)
    rcases task_writes hw with ⟨e, hh⟩ | ⟨e, hh⟩ | e | ⟨e, hh⟩ | ⟨e, hh⟩
    · obtain ⟨h2, h3⟩ := htls (hu hh); exact .inr (.inl ⟨h2, h3, .inl e⟩)
    · obtain ⟨h2, h3⟩ := htls (hu hh); exact .inr (.inl ⟨h2, h3, .inr e⟩)
    · exact .inl e.1
    · exact .inr (.inr (.inl ⟨hfl hh, e⟩))
    · exact .inr (.inr (.inr (.inr ⟨.inl (hmode ▸ hi.multi ti (List.mem_of_getElem? h1) hh), e⟩)))
  · have hl' := loop_touches hl
    rcases hw with hw | hw
    · rcases task_writes hw with ⟨e, hh⟩ | ⟨e, hh⟩ | e | ⟨e, hh⟩ | ⟨e, hh⟩
      · subst e; simp at hl'
      · subst e; simp at hl'
      · exact .inl e.1
      · exact .inr (.inr (.inl ⟨hfl hh, e⟩))
      · exact .inr (.inr (.inr (.inr ⟨.inl (hmode ▸ hi.multi ti (List.mem_of_getElem? h1) hh), e⟩)))
    · have ht' := task_touches ht
      rcases loop_writes hw with e | e | ⟨e, hh⟩ | e
      · subst e; simp at ht'
      · subst e; simp at ht'
      · exact .inr (.inr (.inl ⟨hfl hh, e⟩))
      · subst e
        have hm : onlyMulti ti.2 = true := by simpa using ht'
        exact .inr (.inr (.inr (.inr ⟨.inl (hmode ▸ hi.multi ti (List.mem_of_getElem? h1) hm), rfl⟩)))
  · obtain ⟨hne, hv⟩ := ctl_touches hc
    have hs := hstop hne
    rcases hv with e | e | e | e | e | e | ⟨_, e⟩ | ⟨_, e⟩ | e
    · exact .inr (.inr (.inr (.inl ⟨hs, by simp [e]⟩)))
    · exact .inr (.inr (.inr (.inl ⟨hs, by simp [e]⟩)))
    · exact .inr (.inr (.inr (.inl ⟨hs, by simp [e]⟩)))
    · exact .inr (.inr (.inr (.inl ⟨hs, by simp [e]⟩)))
    · exact .inr (.inr (.inr (.inl ⟨hs, by simp [e]⟩)))
    · exact .inr (.inr (.inr (.inl ⟨hs, by simp [e]⟩)))
    · rw [e] at hdt; cases hdt
    · rw [e] at hdt; cases hdt
    · exact .inr (.inr (.inr (.inr ⟨.inr hs, e⟩)))

/-! ### The table of the custom content types -/

theorem custom_looks {types : UMap} {suffix : Str} :
    CustomSuffix types suffix ↔ looksUpTypes suffix = true ∧ (types.get suffix).isSome = true := by
  unfold CustomSuffix looksUpTypes contentTypeOfFile
  repeat' split
  all_goals simp_all [UMap.empty, UMap.get]

/-- The type of a file is looked up; the table changes only when `StaticDir` serves a file of a custom type. -/
theorem taskNext_types {s s' : MtSys} {fd : Int} {a : TAns} {pc pc' : TaskPc} (h : s.taskNext fd a pc = some (pc', s')) :
    s'.types = s.types ∨
      ∃ suffix, pc = .handler (.dir suffix) ∧ CustomSuffix s.types suffix ∧ s.types.get [] = none ∧ s'.types = s.types.set [] [] := by
  have hfile : ∀ suffix, (contentTypeToStr s.types (contentTypeOfFile s.types suffix) suffix).2 = s.types := by
    intro suffix
    by_cases hc : CustomSuffix s.types suffix
    · have h2 := (custom_looks.1 hc).2
      unfold CustomSuffix at hc
      rw [hc]
      unfold contentTypeToStr
      cases hg : s.types.get suffix with
      | none => rw [hg] at h2; cases h2
      | some v => rfl
    · unfold contentTypeToStr
      unfold CustomSuffix at hc
      split <;> first | rfl | contradiction
  have hdir : ∀ suffix, (contentTypeToStr s.types (contentTypeOfFile s.types suffix) []).2 = s.types ∨
      (CustomSuffix s.types suffix ∧ s.types.get [] = none ∧
        (contentTypeToStr s.types (contentTypeOfFile s.types suffix) []).2 = s.types.set [] []) := by
    intro suffix
    by_cases hc : CustomSuffix s.types suffix
    · have hc' := hc
      unfold CustomSuffix at hc'
      rw [hc']
      unfold contentTypeToStr
      cases hg : s.types.get [] with
      | none => exact .inr ⟨hc, rfl, rfl⟩
      | some v => exact .inl rfl
    · left
      unfold contentTypeToStr
      unfold CustomSuffix at hc
      split <;> first | rfl | contradiction
  cases pc with
  | handler hh =>
    cases hh <;> simp only [taskNext, Option.some.injEq, Prod.mk.injEq] at h <;> obtain ⟨_, rfl⟩ := h
    · exact .inl rfl
    · exact .inl rfl
    · rename_i suffix _
      rcases hdir suffix with h1 | ⟨h1, h2, h3⟩
      · exact .inl h1
      · exact .inr ⟨suffix, rfl, h1, h2, h3⟩
    · rename_i suffix _
      exact .inl (hfile suffix)
  | search =>
    simp only [taskNext] at h
    split at h <;> (simp only [Option.some.injEq, Prod.mk.injEq] at h; obtain ⟨_, rfl⟩ := h; exact .inl rfl)
  | _ =>
    simp only [taskNext] at h
    repeat' split at h
    all_goals
      first
      | cases h; done
      | (simp only [Option.some.injEq, Prod.mk.injEq] at h; obtain ⟨_, rfl⟩ := h; exact .inl rfl)

/-- The suffix of the file that `StaticDir` is about to serve. -/
def dirOf : TaskPc → Option Str
  | .say k => dirOf k
  | .handler (.dir suffix) => some suffix
  | _ => none

theorem taskNext_dir {s s' : MtSys} {fd : Int} {a : TAns} {pc pc' : TaskPc} (h : s.taskNext fd a pc = some (pc', s'))
    {suffix : Str} (hd : dirOf pc' = some suffix) : dirOf pc = some suffix ∨ a.next = some (.dir suffix) := by
  cases pc with
  | handler hh =>
    cases hh <;> simp only [taskNext, Option.some.injEq, Prod.mk.injEq] at h <;> obtain ⟨rfl, _⟩ := h <;> simp [dirOf] at hd
  | search =>
    simp only [taskNext] at h
    split at h
    · rename_i hh hn
      simp only [Option.some.injEq, Prod.mk.injEq] at h
      obtain ⟨rfl, _⟩ := h
      cases hh <;> simp [dirOf] at hd
      subst hd
      exact .inr hn
    · simp only [Option.some.injEq, Prod.mk.injEq] at h
      obtain ⟨rfl, _⟩ := h
      simp [dirOf] at hd
  | say k =>
    simp only [taskNext, Option.some.injEq, Prod.mk.injEq] at h
    obtain ⟨rfl, _⟩ := h
    exact .inl hd
  | _ =>
    simp only [taskNext, afterRead, startRead] at h
    repeat' split at h
    all_goals
      first
      | cases h; done
      | (simp only [Option.some.injEq, Prod.mk.injEq] at h
         obtain ⟨rfl, _⟩ := h
         simp [dirOf] at hd)

/-- Who has an entry without a suffix in the table keeps it, and nobody writes there. -/
theorem step_types {s s' : MtSys} {l : MtLabel} (h : s.step l = some s') :
    s'.types = s.types ∨ ∃ i a fd suffix, l = .task i a ∧ s.tasks[i]? = some (fd, .handler (.dir suffix)) ∧
      CustomSuffix s.types suffix ∧ s.types.get [] = none := by
  cases l with
  | loop a => have := (loopNext_facts h).1; rw [this]; exact .inl rfl
  | ctl ok => exact .inl (ctlNext_facts h).2.2.2.2.1
  | callStop => simp only [step] at h; split at h <;> cases h; exact .inl rfl
  | callDtor => simp only [step] at h; split at h <;> cases h; exact .inl rfl
  | start =>
    simp only [step] at h
    split at h
    · cases h
    · split at h <;> cases h; exact .inl rfl
  | task i a =>
    simp only [step] at h
    split at h
    · cases h
    · rename_i fd pc hi
      split at h
      · cases h
      · rename_i h1
        cases h
        rcases taskNext_types h1 with h2 | ⟨suffix, h2, h3, h4, _⟩
        · exact .inl h2
        · subst h2
          exact .inr ⟨i, a, fd, suffix, rfl, hi, h3, h4⟩

theorem types_quiet {s0 : MtSys} (h0 : s0.tasks = []) : ∀ tr s, s0.run tr = some s → TypesQuiet s0.types tr →
    s.types = s0.types ∧ ((s0.types.get []).isSome = true ∨
      ∀ t ∈ s.tasks, ∀ suffix, dirOf t.2 = some suffix → ¬ CustomSuffix s0.types suffix) := by
  refine run_ind (P := fun tr s => TypesQuiet s0.types tr → s.types = s0.types ∧ ((s0.types.get []).isSome = true ∨
      ∀ t ∈ s.tasks, ∀ suffix, dirOf t.2 = some suffix → ¬ CustomSuffix s0.types suffix))
    (fun _ => ⟨rfl, .inr (by simp [h0])⟩) ?_
  intro tr l s s' _ ih h hq
  have hq' : TypesQuiet s0.types tr := by
    rcases hq with hq | hq
    · exact .inl hq
    · exact .inr fun i a x hm => hq i a x (List.mem_append_left _ hm)
  obtain ⟨h1, h2⟩ := ih hq'
  refine ⟨?_, ?_⟩
  · rcases step_types h with h3 | ⟨i, a, fd, suffix, _, h4, h5, h6⟩
    · exact h3.trans h1
    · exfalso
      rw [h1] at h5 h6
      rcases h2 with h2 | h2
      · rw [h6] at h2; cases h2
      · exact h2 _ (List.mem_of_getElem? h4) suffix rfl h5
  · rcases h2 with h2 | h2
    · exact .inl h2
    · rcases hq with hq | hq
      · exact .inl hq
      · right
        intro t ht suffix hs
        rcases step_tasks h t ht with h3 | h3 | ⟨_, h3⟩ | ⟨i, a, pc, s'', hl, h3, h4⟩
        · exact h2 t h3 suffix hs
        · rw [h3] at hs; cases hs
        · rw [h3] at hs
          unfold startTask startRead at hs
          repeat' split at hs
          all_goals cases hs
        · rcases taskNext_dir h4 hs with h5 | h5
          · exact h2 _ (List.mem_of_getElem? h3) suffix h5
          · exact hq i a suffix (by simp [hl]) h5

/-- **C138** (what holds).  A plain server with the default logger, with any number of workers and whatever the requests, while
nobody calls `Stop` or destroys it and `StaticDir` serves no file of a custom content type, has no data race at all in the mixed
mode, and in the multi-thread mode none but on the length of an address (see `C138_length_refuted`). -/
theorem C138_plain_partial (mode : MtMode) (workers : Nat) (types : UMap) (tr : List MtLabel) (s : MtSys)
    (h : (startedServer mode false false workers types).run tr = some s) (hs : .callStop ∉ tr) (hd : .callDtor ∉ tr)
    (hq : TypesQuiet types tr) (v : SVar) (hr : ServerRace s v) : mode = .multiThread ∧ v = .addrLen := by
  rcases C138_only_partial mode false false workers types tr s h hd v hr with e | e | e | e | e
  · exfalso
    subst e
    obtain ⟨h1, h2⟩ := types_quiet (s0 := startedServer mode false false workers types) rfl tr s h hq
    have hnw : ∀ t ∈ s.tasks, .write .types ∉ s.taskAcc t.2 := by
      intro t ht hw
      rcases task_writes hw with ⟨e, _⟩ | ⟨e, _⟩ | ⟨_, suffix, he, hw'⟩ | ⟨e, _⟩ | ⟨e, _⟩
      · cases e
      · cases e
      · simp only [handlerAcc] at hw'
        split at hw'
        · split at hw'
          · rename_i hl hc
            rw [h1] at hc
            rcases h2 with h2 | h2
            · have h3 := hc.2
              simp only [Option.isNone_iff_eq_none] at h3
              rw [h3] at h2
              cases h2
            · exact h2 t ht suffix (by rw [he]; rfl) (custom_looks.2 ⟨hl, hc.1⟩)
          · simp at hw'
        · simp at hw'
      · cases e
      · cases e
    rcases race_cases hr with ⟨i, j, ti, tj, _, hi, _, hw, _⟩ | ⟨i, ti, hi, _, hl, hw⟩ | ⟨hc, _⟩
    · exact hnw ti (List.mem_of_getElem? hi) hw
    · rcases loop_touches hl with e | e | ⟨e, _⟩ | e | e | e | e | e | e <;> cases e
    · rcases (ctl_touches hc).2 with e | e | e | e | e | e | ⟨e, _⟩ | ⟨e, _⟩ | e <;> cases e
  · cases e.1
  · cases e.1
  · exact absurd e.1 hs
  · exact ⟨e.1.resolve_right hs, e.2⟩

/-- **C138** (the accesses are complete).  An action changes none of the server's variables without being said to write it. -/
theorem C138_changes_partial (s s' : MtSys) (l : MtLabel) (h : s.step l = some s') :
    (s'.cont ≠ s.cont → .write .cont ∈ s.acc l.actor) ∧ (s'.loopFlag ≠ s.loopFlag → .write .loopFlag ∈ s.acc l.actor) ∧
      (s'.ioFlag ≠ s.ioFlag → .write .ioFlag ∈ s.acc l.actor) ∧ (s'.listen ≠ s.listen → .write .listen ∈ s.acc l.actor) ∧
      (s'.sessions ≠ s.sessions → .write .sessions ∈ s.acc l.actor) ∧ (s'.types ≠ s.types → .write .types ∈ s.acc l.actor) := by
  cases l with
  | loop a => have := (loopNext_facts h).1; rw [this]; simp
  | callStop => simp only [step] at h; split at h <;> cases h; simp
  | callDtor => simp only [step] at h; split at h <;> cases h; simp
  | start =>
    simp only [step] at h
    split at h
    · cases h
    · split at h <;> cases h; simp
  | ctl ok =>
    have hex : ∀ v, .write v ∈ s.ctlAcc s.ctl → .write v ∈ s.acc .ctl := fun v hv => hv
    simp only [step] at h
    cases hc : s.ctl <;> rw [hc] at h <;> simp only [ctlNext] at h
    all_goals (repeat' split at h)
    all_goals
      first
      | cases h; done
      | (simp only [Option.some.injEq] at h; subst h; simp; done)
      | (simp only [Option.some.injEq] at h
         subst h
         refine ⟨fun hn => ?_, fun hn => ?_, fun hn => ?_, fun hn => ?_, fun hn => ?_, fun hn => ?_⟩ <;>
           first
           | exact absurd rfl hn
           | (refine hex _ ?_; rw [hc]; simp_all [ctlAcc]))
  | task i a =>
    simp only [step] at h
    split at h
    · cases h
    · rename_i fd pc hi
      split at h
      · cases h
      · rename_i pc' s'' h1
        cases h
        have hex : ∀ v, .write v ∈ s.taskAcc pc → .write v ∈ s.acc (.task i) := fun v hv => by simp only [acc, hi]; exact hv
        have hf := (taskNext_facts h1).1
        have e1 : s''.cont = s.cont := by rw [hf]
        have e2 : s''.loopFlag = s.loopFlag := by rw [hf]
        have e3 : s''.ioFlag = s.ioFlag := by rw [hf]
        have e4 : s''.listen = s.listen := by rw [hf]
        refine ⟨fun hn => absurd e1 hn, fun hn => absurd e2 hn, fun hn => absurd e3 hn, fun hn => absurd e4 hn, fun hn => hex _ ?_,
          fun hn => hex _ ?_⟩
        · cases pc with
          | insert => simp [taskAcc]
          | byeErase => simp [taskAcc]
          | handler hh =>
            cases hh <;> simp only [taskNext, Option.some.injEq, Prod.mk.injEq] at h1 <;> obtain ⟨_, rfl⟩ := h1 <;>
              exact absurd rfl hn
          | search =>
            simp only [taskNext] at h1
            split at h1 <;> (simp only [Option.some.injEq, Prod.mk.injEq] at h1; obtain ⟨_, rfl⟩ := h1; exact absurd rfl hn)
          | _ =>
            simp only [taskNext] at h1
            repeat' split at h1
            all_goals
              first
              | cases h1; done
              | (simp only [Option.some.injEq, Prod.mk.injEq] at h1; obtain ⟨_, rfl⟩ := h1; exact absurd rfl hn)
        · rcases taskNext_types h1 with h2 | ⟨suffix, h2, h3, h4, _⟩
          · exact absurd h2 hn
          · subst h2
            obtain ⟨h5, h6⟩ := custom_looks.1 h3
            simp [taskAcc, handlerAcc, h5, h6, h4]

/-- **C138** (one at a time).  With the default logger, and while nobody calls `Stop` or destroys the server, nothing races as long
as only one connection is being served, with TLS or without, but for the length of an address in the multi-thread mode. -/
theorem C138_one_partial (mode : MtMode) (tls : Bool) (workers : Nat) (types : UMap) (tr : List MtLabel) (s : MtSys)
    (h : (startedServer mode tls false workers types).run tr = some s) (hs : .callStop ∉ tr) (hd : .callDtor ∉ tr)
    (hone : ∀ (i j : Nat) (ti tj : Int × TaskPc), s.tasks[i]? = some ti → s.tasks[j]? = some tj → i ≠ j →
      (ti.2 = .queued ∨ ti.2 = .done) ∨ (tj.2 = .queued ∨ tj.2 = .done)) (v : SVar) (hr : ServerRace s v) :
    mode = .multiThread ∧ v = .addrLen := by
  have hi := mtInv (s0 := startedServer mode tls false workers types) rfl tr s h
  have hc := ctl_idle (s0 := startedServer mode tls false workers types) rfl tr s h hs hd
  have hfl : s.fileLog = false := hi.fileLog
  have hmode : s.mode = mode := hi.mode
  rcases race_cases hr with ⟨i, j, ti, tj, hij, h1, h2, hw, ho⟩ | ⟨i, ti, h1, ht, hl, hw⟩ | ⟨hc', _⟩
  · exfalso
    rcases hone i j ti tj h1 h2 hij with (e | e) | (e | e)
    · rw [e] at hw; simp [taskAcc] at hw
    · rw [e] at hw; simp [taskAcc] at hw
    · rw [e] at ho; simp [taskAcc] at ho
    · rw [e] at ho; simp [taskAcc] at ho
  · have ht' := task_touches ht
    have hl' := loop_touches hl
    rcases hw with hw | hw
    · rcases task_writes hw with ⟨e, _⟩ | ⟨e, _⟩ | ⟨e, _⟩ | ⟨_, e⟩ | ⟨e, hh⟩
      · subst e; simp at hl'
      · subst e; simp at hl'
      · subst e; simp at hl'
      · rw [hfl] at e; cases e
      · exact ⟨hmode ▸ hi.multi ti (List.mem_of_getElem? h1) hh, e⟩
    · rcases loop_writes hw with e | e | ⟨_, e⟩ | e
      · subst e; simp at ht'
      · subst e; simp at ht'
      · rw [hfl] at e; cases e
      · subst e
        have hm : onlyMulti ti.2 = true := by simpa using ht'
        exact ⟨hmode ▸ hi.multi ti (List.mem_of_getElem? h1) hm, rfl⟩
  · exact absurd hc (ctl_touches hc').1

/-! ### What races -/

/-- Whether two threads race for `v`; for examples. -/
def racesNow (v : SVar) (a b : MtThread) (s : MtSys) : Bool :=
  a != b && (s.acc a).contains (.write v) && ((s.acc b).contains (.write v) || (s.acc b).contains (.read v))

theorem race_of_run {s0 : MtSys} {tr : List MtLabel} {v : SVar} {a b : MtThread} {P : MtSys → Bool}
    (h : (s0.run tr).any (fun s => racesNow v a b s && P s) = true) : ∃ s, s0.run tr = some s ∧ ServerRace s v ∧ P s = true := by
  cases hs : s0.run tr with
  | none => rw [hs] at h; cases h
  | some s =>
    rw [hs] at h
    simp only [Option.any_some, racesNow, Bool.and_eq_true, Bool.or_eq_true, List.contains_iff_mem, bne_iff_ne] at h
    exact ⟨s, rfl, ⟨a, b, h.1.1.1, h.1.1.2, h.1.2⟩, h.2⟩

/-- A connection is accepted in the multi-thread mode and a worker takes its task. -/
def accept1 (fd : Int) : List MtLabel := [.loop {}, .loop { fd }, .loop {}, .start]

/-- A task does `n` actions, all of which succeed. -/
def goOn (i n : Nat) : List MtLabel := List.replicate n (.task i {})

/-- **C138 is false** for a TLS server in the multi-thread mode: two connections whose handshakes end at the same time write the
map of the sessions at the same time; and a connection with a session that sends a request looks its session up while the
session of another connection is put into the map. -/
theorem C138_tls_refuted : (∃ tr s, (startedServer .multiThread true false 10 .empty).run tr = some s ∧
      .callStop ∉ tr ∧ .callDtor ∉ tr ∧ ServerRace s .sessions) ∧
    ∃ s, (startedServer .multiThread true false 10 .empty).run (toTop ++ accept1 5 ++ accept1 6 ++ goOn 1 3 ++ goOn 0 5) = some s ∧
      s.sessions = [5] ∧ .read .sessions ∈ s.acc (.task 0) ∧ .write .sessions ∈ s.acc (.task 1) := by
  obtain ⟨s, h1, h2, _⟩ := race_of_run (s0 := startedServer .multiThread true false 10 .empty)
    (tr := toTop ++ accept1 5 ++ accept1 6 ++ goOn 0 3 ++ goOn 1 3) (v := .sessions) (a := .task 0) (b := .task 1)
    (P := fun _ => true) (by decide +kernel)
  refine ⟨⟨_, s, h1, by decide, by decide, h2⟩, ?_⟩
  have h : ((startedServer .multiThread true false 10 .empty).run
      (toTop ++ accept1 5 ++ accept1 6 ++ goOn 1 3 ++ goOn 0 5)).any (fun s => s.sessions == [5] &&
        (s.acc (.task 0)).contains (.read .sessions) && (s.acc (.task 1)).contains (.write .sessions)) = true := by decide +kernel
  revert h
  cases (startedServer .multiThread true false 10 .empty).run (toTop ++ accept1 5 ++ accept1 6 ++ goOn 1 3 ++ goOn 0 5) with
  | none => intro h; cases h
  | some s =>
    intro h
    simp only [Option.any_some, Bool.and_eq_true, beq_iff_eq, List.contains_iff_mem] at h
    exact ⟨s, rfl, h.1.1, h.1.2, h.2⟩

/-- **C138 is false** for a plain server: after `SetCustomContentType`, two requests for files of that type that a `StaticDir`
serves write the table of the custom content types at the same time. -/
theorem C138_types_refuted : ∃ tr s,
    (startedServer .multiThread false false 10 (setCustomContentType .empty b!"mp4" b!"video/mp4")).run tr = some s ∧
    .callStop ∉ tr ∧ .callDtor ∉ tr ∧ ServerRace s .types := by
  obtain ⟨s, h1, h2, _⟩ := race_of_run
    (s0 := startedServer .multiThread false false 10 (setCustomContentType .empty b!"mp4" b!"video/mp4"))
    (tr := toTop ++ accept1 5 ++ accept1 6 ++ goOn 0 5 ++ goOn 1 5 ++
      [.task 0 { next := some (.dir b!"mp4") }, .task 1 { next := some (.dir b!"mp4") }])
    (v := .types) (a := .task 0) (b := .task 1) (P := fun _ => true) (by decide +kernel)
  exact ⟨_, s, h1, by decide, by decide, h2⟩

/-- **C138 is false** for a server that logs to a file: two connections are greeted in the log at the same time. -/
theorem C138_log_refuted : ∃ tr s, (startedServer .multiThread false true 10 .empty).run tr = some s ∧
    .callStop ∉ tr ∧ .callDtor ∉ tr ∧ ServerRace s .log := by
  obtain ⟨s, h1, h2, _⟩ := race_of_run (s0 := startedServer .multiThread false true 10 .empty)
    (tr := toTop ++ accept1 5 ++ accept1 6 ++ goOn 0 1 ++ goOn 1 1) (v := .log) (a := .task 0) (b := .task 1)
    (P := fun _ => true) (by decide +kernel)
  exact ⟨_, s, h1, by decide, by decide, h2⟩

/-- **C138 is false** for `Stop`: it writes the flag that the thread in `Run` is reading, and the one that is read after every
handler. -/
theorem C138_stop_refuted :
    (∃ tr s, (startedServer .multiThread false false 10 .empty).run tr = some s ∧ ServerRace s .loopFlag) ∧
      (∃ tr s, (startedServer .mixed false false 10 .empty).run tr = some s ∧ ServerRace s .ioFlag) ∧
      ∃ tr s, (startedServer .multiThread false false 10 .empty).run tr = some s ∧ ServerRace s .cont := by
  refine ⟨?_, ?_, ?_⟩
  · obtain ⟨s, h1, h2, _⟩ := race_of_run (s0 := startedServer .multiThread false false 10 .empty)
      (tr := toTop ++ [.callStop, .ctl true, .ctl true, .ctl true]) (v := .loopFlag) (a := .ctl) (b := .loop)
      (P := fun _ => true) (by decide +kernel)
    exact ⟨_, s, h1, h2⟩
  · obtain ⟨s, h1, h2, _⟩ := race_of_run (s0 := startedServer .mixed false false 10 .empty)
      (tr := toTop ++ [.callStop, .ctl true, .ctl true, .ctl true, .ctl true]) (v := .ioFlag) (a := .ctl) (b := .loop)
      (P := fun _ => true) (by decide +kernel)
    exact ⟨_, s, h1, h2⟩
  · obtain ⟨s, h1, h2, _⟩ := race_of_run (s0 := startedServer .multiThread false false 10 .empty)
      (tr := toTop ++ accept1 5 ++ goOn 0 5 ++ [.task 0 { next := some .user }, .task 0 {}, .callStop, .ctl true])
      (v := .cont) (a := .ctl) (b := .task 0) (P := fun _ => true) (by decide +kernel)
    exact ⟨_, s, h1, h2⟩

/-- **C138 is false** for every server in the multi-thread mode, whatever its settings and with one worker already: while the
address of a new connection is asked for, the thread in `Run` accepts the next connection, and both write the length of an
address. -/
theorem C138_length_refuted (tls fileLog : Bool) (workers : Nat) (hw : 0 < workers) (types : UMap) :
    ∃ tr s, (startedServer .multiThread tls fileLog workers types).run tr = some s ∧ .callStop ∉ tr ∧ .callDtor ∉ tr ∧
      ServerRace s .addrLen := by
  have hn : ¬ workers ≤ 0 := by omega
  let s : MtSys := { startedServer .multiThread tls fileLog workers types with loop := .accept, tasks := [(5, .greet)] }
  have h : (startedServer .multiThread tls fileLog workers types).run (toTop ++ accept1 5 ++ [.loop {}]) = some s := by
    simp [toTop, accept1, run, step, loopNext, startedServer, addTask, active, hn, startTask, s]
  refine ⟨toTop ++ accept1 5 ++ [.loop {}], s, h, by decide, by decide, .loop, .task 0, by decide, ?_, .inl ?_⟩
  · simp [acc, loopAcc, s]
  · simp [acc, taskAcc, s]

/-- The hypotheses of the positive theorems hold in runs with two connections in a handler at the same time. -/
example : ((startedServer .multiThread false false 10 (setCustomContentType .empty b!"mp4" b!"video/mp4")).run
    (toTop ++ accept1 5 ++ accept1 6 ++ goOn 0 5 ++ goOn 1 5 ++
      [.task 0 { next := some (.dir b!"html") }, .task 1 { next := some (.file b!"mp4") }])).map (·.tasks) =
      some [(5, .handler (.dir b!"html")), (6, .handler (.file b!"mp4"))] := by decide +kernel

example : ((startedServer .mixed false false 10 .empty).run
    (toTop ++ [.loop {}, .loop {}, .loop { event := some .accept }, .loop { fd := 5 }, .loop { fd := 5 }, .loop {}, .loop {},
      .loop { event := some (.read 5) }, .start] ++ goOn 0 2 ++ [.task 0 { next := some .user }])).map (·.tasks) =
      some [(5, .handler .user)] := by decide +kernel

/-! ### C139 -/

/-- Locations from which `Run` does not return success without having stopped the pool. -/
def retOk : RunPc → Bool
  | .say k | .failMsg k => retOk k
  | .ret rc | .returned rc => rc != kSuccess
  | _ => true

theorem loopNext_ret {s s' : MtSys} {a : LAns} (h : s.loopNext a s.loop = some s') (hr : retOk s.loop = true) :
    (retOk s'.loop = true ∧ s'.poolStopped = s.poolStopped) ∨
      (s'.loop = .returned kSuccess ∧ s'.poolStopped = true ∧ s'.tasks = s.tasks ∧ ∀ t ∈ s.tasks, active t.2 = false) := by
  cases hl : s.loop with
  | stopPool =>
    rw [hl] at h
    simp only [loopNext] at h
    split at h
    · cases h
    · rename_i hn
      cases h
      refine .inr ⟨rfl, rfl, rfl, ?_⟩
      intro t ht
      by_contra hc
      exact hn (List.any_eq_true.2 ⟨t, ht, by simpa using hc⟩)
  | returned rc => rw [hl] at h; cases h
  | say k => rw [hl] at h hr; simp only [loopNext, Option.some.injEq] at h; subst h; exact .inl ⟨hr, rfl⟩
  | failMsg k => rw [hl] at h hr; simp only [loopNext, Option.some.injEq] at h; subst h; exact .inl ⟨hr, rfl⟩
  | ret rc => rw [hl] at h hr; simp only [loopNext, Option.some.injEq] at h; subst h; exact .inl ⟨hr, rfl⟩
  | _ =>
    rw [hl] at h
    simp only [loopNext, addTask] at h
    repeat' split at h
    all_goals
      first
      | cases h; done
      | (simp only [Option.some.injEq] at h
         subst h
         refine .inl ⟨?_, rfl⟩
         (repeat' split) <;> simp [retOk, kSuccess, kSysErr, kLogicErr])

/-- When the pool was stopped no task is at work, and `Run` returns success only then. -/
theorem stopped_quiet {s0 : MtSys} (h0 : s0.poolStopped = false) (h1 : s0.loop = .run) : ∀ tr s, s0.run tr = some s →
    (s.poolStopped = true → ∀ t ∈ s.tasks, active t.2 = false) ∧
      (retOk s.loop = true ∨ (s.loop = .returned kSuccess ∧ s.poolStopped = true)) := by
  refine run_ind (P := fun _ s => (s.poolStopped = true → ∀ t ∈ s.tasks, active t.2 = false) ∧
      (retOk s.loop = true ∨ (s.loop = .returned kSuccess ∧ s.poolStopped = true)))
    ⟨(fun e => absurd (h0.symm.trans e) (by decide)), .inl (by rw [h1]; rfl)⟩ ?_
  rintro tr l s s' _ ⟨ih1, ih2⟩ h
  cases l with
  | loop a =>
    rcases ih2 with ih2 | ⟨ih2, _⟩
    · rcases loopNext_ret h ih2 with ⟨h2, h3⟩ | ⟨h2, h3, h4, h5⟩
      · refine ⟨?_, .inl h2⟩
        intro hp t ht
        rw [h3] at hp
        rcases (loopNext_facts h).2 with h4 | ⟨fd, h4⟩
        · rw [h4] at ht; exact ih1 hp t ht
        · rw [h4, List.mem_append] at ht
          rcases ht with ht | ht
          · exact ih1 hp t ht
          · simp at ht; rw [ht]; rfl
      · exact ⟨fun _ t ht => h5 t (by rw [← h4]; exact ht), .inr ⟨h2, h3⟩⟩
    · simp only [step, ih2, loopNext] at h; cases h
  | ctl ok =>
    have hl := (ctlNext_facts h).2.2.2.2.2.1
    have ht := (ctlNext_facts h).2.2.2.2.2.2
    have hp : s'.poolStopped = s.poolStopped ∨ (s'.poolStopped = true ∧ ∀ t ∈ s.tasks, active t.2 = false) := by
      simp only [step] at h
      cases hc : s.ctl <;> rw [hc] at h <;> simp only [ctlNext] at h
      all_goals (repeat' split at h)
      all_goals
        first
        | cases h; done
        | (simp only [Option.some.injEq] at h; subst h; exact .inl rfl)
        | skip
      rename_i hn
      cases h
      refine .inr ⟨rfl, ?_⟩
      intro t ht
      by_contra hc
      exact hn (List.any_eq_true.2 ⟨t, ht, by simpa using hc⟩)
    rw [hl, ht]
    rcases hp with hp | ⟨hp, ha⟩
    · rw [hp]; exact ⟨ih1, ih2⟩
    · rw [hp]
      refine ⟨fun _ => ha, ?_⟩
      rcases ih2 with ih2 | ⟨ih2, _⟩
      · exact .inl ih2
      · exact .inr ⟨ih2, rfl⟩
  | callStop => simp only [step] at h; split at h <;> cases h; exact ⟨ih1, ih2⟩
  | callDtor => simp only [step] at h; split at h <;> cases h; exact ⟨ih1, ih2⟩
  | start =>
    simp only [step] at h
    split at h
    · cases h
    · split at h <;> cases h
      rename_i hn
      simp only [not_or] at hn
      exact ⟨fun e => absurd e hn.1, ih2⟩
  | task i a =>
    simp only [step] at h
    split at h
    · cases h
    · rename_i fd pc hi
      split at h
      · cases h
      · rename_i pc' s'' h1
        cases h
        have hf := (taskNext_facts h1).1
        have hp : s''.poolStopped = s.poolStopped := by rw [hf]
        have hl : s''.loop = s.loop := by rw [hf]
        refine ⟨?_, ?_⟩
        · intro hp'
          have := ih1 (hp ▸ hp') _ (List.mem_of_getElem? hi)
          rw [taskNext_active h1] at this
          cases this
        · simp only [hp, hl]; exact ih2

/-- Once the pool was stopped it stays so. -/
theorem stopped_stays {s s' : MtSys} {tr : List MtLabel} (h : s.run tr = some s') (hp : s.poolStopped = true) :
    s'.poolStopped = true := by
  induction tr generalizing s with
  | nil => cases h; exact hp
  | cons l tr ih =>
    simp only [run] at h
    cases hs : s.step l with
    | none => rw [hs] at h; cases h
    | some s1 =>
      rw [hs] at h
      refine ih h ?_
      cases l with
      | loop a =>
        simp only [step] at hs
        cases hl : s.loop <;> rw [hl] at hs <;> simp only [loopNext, addTask] at hs
        all_goals (repeat' split at hs)
        all_goals
          first
          | cases hs; done
          | (simp only [Option.some.injEq] at hs; subst hs; first | exact hp | rfl)
      | ctl ok =>
        simp only [step] at hs
        cases hl : s.ctl <;> rw [hl] at hs <;> simp only [ctlNext] at hs
        all_goals (repeat' split at hs)
        all_goals
          first
          | cases hs; done
          | (simp only [Option.some.injEq] at hs; subst hs; first | exact hp | rfl)
      | callStop => simp only [step] at hs; split at hs <;> cases hs; exact hp
      | callDtor => simp only [step] at hs; split at hs <;> cases hs; exact hp
      | start =>
        simp only [step] at hs
        split at hs
        · cases hs
        · split at hs <;> cases hs; exact hp
      | task i a =>
        simp only [step] at hs
        split at hs
        · cases hs
        · split at hs
          · cases hs
          · rename_i h1
            cases hs
            have := (taskNext_facts h1).1
            rw [this]; exact hp

/-- **C139** (what holds).  When `Run` has returned success, no handler is running, none will run any more whatever happens next,
and the destructor frees nothing that is in use. -/
theorem C139_success_partial (mode : MtMode) (tls fileLog : Bool) (workers : Nat) (types : UMap) (tr tr' : List MtLabel)
    (s s' : MtSys) (h : (startedServer mode tls fileLog workers types).run tr = some s) (hr : s.loop = .returned kSuccess)
    (h' : s.run tr' = some s') : ¬ TaskRuns s' ∧ ¬ ServerRace s' .trie ∧ ¬ ServerRace s' .sessions := by
  have hq := stopped_quiet (s0 := startedServer mode tls fileLog workers types) rfl rfl tr s h
  have hp : s.poolStopped = true := by
    rcases hq.2 with h1 | h1
    · rw [hr] at h1; simp [retOk] at h1
    · exact h1.2
  have hq' := (stopped_quiet (s0 := startedServer mode tls fileLog workers types) rfl rfl (tr ++ tr') s'
    (run_append_run h h')).1 (stopped_stays h' hp)
  have hn : ¬ TaskRuns s' := by
    rintro ⟨t, ht, h1, h2⟩
    have := hq' t ht
    rw [active_iff.2 ⟨h1, h2⟩] at this
    cases this
  have hacc : ∀ t ∈ s'.tasks, s'.taskAcc t.2 = [] := by
    intro t ht
    by_cases h1 : t.2 = .queued
    · rw [h1]; rfl
    · by_cases h2 : t.2 = .done
      · rw [h2]; rfl
      · exact absurd ⟨t, ht, h1, h2⟩ hn
  have hrace : ∀ v, v = .trie ∨ v = .sessions → ¬ ServerRace s' v := by
    intro v hv hr'
    rcases race_cases hr' with ⟨i, j, ti, tj, _, hi, _, hw, _⟩ | ⟨i, ti, hi, ht, _, _⟩ | ⟨hc, ho⟩
    · rw [hacc ti (List.mem_of_getElem? hi)] at hw; cases hw
    · rw [hacc ti (List.mem_of_getElem? hi)] at ht; simp at ht
    · rcases ho with ho | ⟨i, ti, hi, ht, _⟩
      · have := loop_touches ho
        rcases hv with e | e <;> subst e <;> simp at this
      · rw [hacc ti (List.mem_of_getElem? hi)] at ht; simp at ht
  exact ⟨hn, hrace _ (.inl rfl), hrace _ (.inr rfl)⟩

/-- **C139 is false** when an `accept` fails: `Run` returns the error while a handler of an earlier connection goes on, and a
destructor that is called then frees the routes that the handler's request is still being looked up in. -/
theorem C139_failure_refuted :
    (∃ tr s, (startedServer .multiThread false false 10 .empty).run tr = some s ∧ s.loop = .returned kSysErr ∧ TaskRuns s) ∧
      ∃ tr s, (startedServer .multiThread false false 10 .empty).run tr = some s ∧ ServerRace s .trie := by
  refine ⟨?_, ?_⟩
  · have h : ((startedServer .multiThread false false 10 .empty).run (toTop ++ accept1 5 ++ goOn 0 5 ++
        [.task 0 { next := some .user }] ++ List.replicate 7 (.loop {}))).map (fun s => (s.loop, s.tasks)) =
        some (.returned kSysErr, [(5, .handler .user)]) := by decide +kernel
    rw [Option.map_eq_some_iff] at h
    obtain ⟨s, h1, h2⟩ := h
    simp only [Prod.mk.injEq] at h2
    exact ⟨_, s, h1, h2.1, (5, .handler .user), by rw [h2.2]; simp, by decide, by decide⟩
  · obtain ⟨s, h1, h2, _⟩ := race_of_run (s0 := startedServer .multiThread false false 10 .empty)
      (tr := toTop ++ accept1 5 ++ goOn 0 5 ++ List.replicate 7 (.loop {}) ++ [.callDtor] ++ List.replicate 8 (.ctl true))
      (v := .trie) (a := .ctl) (b := .task 0) (P := fun _ => true) (by decide +kernel)
    exact ⟨_, s, h1, h2⟩

/-- A run in which `Run` returns success after two connections were served: the hypotheses of `C139_success_partial`. -/
example : ((startedServer .multiThread false false 10 .empty).run (toTop ++ accept1 5 ++ accept1 6 ++
    [.task 0 {}, .task 0 {}, .task 0 { ok := false }, .task 0 {}, .task 0 {}, .task 1 {}, .task 1 {}, .task 1 { ok := false }, .task 1 {}, .task 1 {},
      .callStop] ++ List.replicate 7 (.ctl true) ++ List.replicate 2 (.loop {}) ++ [.ctl true])).map
        (fun s => (s.loop, s.tasks.map (·.2), s.ctl)) = some (.returned kSuccess, [.done, .done], .idle) := by decide +kernel

end Cppnet
