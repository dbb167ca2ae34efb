import Verif.Spec.RunErr

/-!
# C176: what a running server says about a failure is about that failure
-/

namespace Cppnet
open Spec

theorem callsIn_append (t u : List NetEv) : callsIn (t ++ u) = callsIn t ++ callsIn u := List.filterMap_append ..

theorem epMonitor_calls (e : Ep) (fd nb res : Int) : callsIn (epMonitor e fd nb res).2 = [] := by
  unfold epMonitor
  split
  · split <;> rfl
  · rfl

theorem tcpRemove_calls (s : TcpSrv) (fd res : Int) : callsIn (tcpRemove s fd res).2 = [] := by
  unfold tcpRemove
  split <;> rfl

theorem tcpStop_listen {s s' : TcpSrv} (h : tcpStop s = .ok s') : s'.listen = s.listen := by
  unfold tcpStop at h
  split at h
  · cases h; rfl
  · dsimp only at h
    split at h
    · split at h
      · cases h
      · cases h; rfl
    · split at h
      · cases h
      · cases h; rfl
    · cases h; rfl

theorem cbAct_frame {s s' : TcpSrv} {a : CbAct} {t : List NetEv} (h : cbAct s a = .ok (s', t)) :
    s'.listen = s.listen ∧ callsIn t = [] := by
  cases a with
  | remove fd res =>
    simp only [cbAct, Except.ok.injEq, Prod.mk.injEq] at h
    exact ⟨by rw [← h.1], by rw [← h.2]; exact tcpRemove_calls s fd res⟩
  | add fd nb res =>
    simp only [cbAct, tcpAdd] at h
    split at h
    · cases h
    · simp only [Except.map, Except.ok.injEq, Prod.mk.injEq] at h
      exact ⟨by rw [← h.1], by rw [← h.2]; exact epMonitor_calls ..⟩
  | close fd => cases h; exact ⟨rfl, rfl⟩
  | stop =>
    simp only [cbAct] at h
    cases hs : tcpStop s with
    | error e => rw [hs] at h; cases h
    | ok s1 =>
      rw [hs] at h
      cases h
      exact ⟨tcpStop_listen hs, rfl⟩
  | register n => cases h; exact ⟨rfl, rfl⟩

theorem cbActs_frame : ∀ {as : List CbAct} {s s' : TcpSrv} {t : List NetEv}, cbActs s as = .ok (s', t) →
    s'.listen = s.listen ∧ callsIn t = [] := by
  intro as
  induction as with
  | nil => intro s s' t h; cases h; exact ⟨rfl, rfl⟩
  | cons a as ih =>
    intro s s' t h
    simp only [cbActs, bind, Except.bind] at h
    split at h
    · cases h
    · rename_i x hx
      obtain ⟨s1, t1⟩ := x
      dsimp only at h
      split at h
      · cases h
      · rename_i y hy
        obtain ⟨s2, t2⟩ := y
        cases h
        obtain ⟨h1, h2⟩ := cbAct_frame hx
        obtain ⟨h3, h4⟩ := ih hy
        exact ⟨h3.trans h1, by rw [callsIn_append, h2, h4]; rfl⟩

theorem callCb_frame {s s' : TcpSrv} {ev : SrvEvent} {fd : Int} {acts : List CbAct} {t : List NetEv}
    (h : callCb s ev fd acts = .ok (s', t)) : s'.listen = s.listen ∧ callsIn t = [(ev, fd)] := by
  unfold callCb at h
  split at h
  · cases h
  · cases h; exact ⟨rfl, rfl⟩
  · simp only [bind, Except.bind] at h
    split at h
    · cases h
    · rename_i x hx
      obtain ⟨s1, t1⟩ := x
      cases h
      obtain ⟨h1, h2⟩ := cbActs_frame hx
      refine ⟨h1, ?_⟩
      show (ev, fd) :: callsIn t1 = _
      rw [h2]

/-- Every callback that the handling of a report makes: which event, and with what message. -/
theorem ioEvent_calls {s s' : TcpSrv} {fd : Int} {ev : SrvEvent} {a : EvAns} {t : List NetEv} (h : ioEvent s fd ev a = .ok (s', t)) :
    s'.listen = s.listen ∧ ∀ c ∈ callsIn t, c.1 = .error →
      (fd = s.listen.fd ∧ (s.listen.status ≠ .init ∨ a.accept < 0)) ∨
      (fd = s.listen.fd ∧ s.listen.status = .init ∧ 0 ≤ a.accept ∧ ∃ e, s.io = some e ∧ (epMonitor e a.accept a.noBlock a.add).1 < 0) ∨
      (fd ≠ s.listen.fd ∧ ev = .error) := by
  unfold ioEvent at h
  split at h
  · rename_i hfd
    unfold handleAccept at h
    split at h
    · rename_i hl
      obtain ⟨h1, h2⟩ := callCb_frame h
      exact ⟨h1, fun c _ _ => .inl ⟨hfd, .inl hl⟩⟩
    · rename_i hl
      split at h
      · rename_i ha
        simp only [bind, Except.bind] at h
        split at h
        · cases h
        · rename_i x hx
          obtain ⟨s1, t1⟩ := x
          obtain ⟨h1, h2⟩ := callCb_frame hx
          cases h
          exact ⟨h1, fun c _ _ => .inl ⟨hfd, .inr ha⟩⟩
      · rename_i ha
        split at h
        · cases h
        · rename_i e he
          dsimp only at h
          split at h
          · rename_i hrc
            simp only [bind, Except.bind] at h
            split at h
            · cases h
            · rename_i x hx
              obtain ⟨s1, t1⟩ := x
              obtain ⟨h1, h2⟩ := callCb_frame hx
              cases h
              exact ⟨h1, fun c _ _ => .inr (.inl ⟨hfd, by simpa using hl, by omega, e, he, hrc⟩)⟩
          · simp only [bind, Except.bind] at h
            split at h
            · cases h
            · rename_i x hx
              obtain ⟨s1, t1⟩ := x
              obtain ⟨h1, h2⟩ := callCb_frame hx
              simp only [Except.ok.injEq, Prod.mk.injEq] at h
              obtain ⟨rfl, rfl⟩ := h
              refine ⟨h1, fun c hc he' => ?_⟩
              have : callsIn (.accept s.listen.fd a.accept :: (epMonitor e a.accept a.noBlock a.add).2 ++ t1) = [(.accept, a.accept)] := by
                show callsIn ((epMonitor e a.accept a.noBlock a.add).2 ++ t1) = _
                rw [callsIn_append, epMonitor_calls, h2]
                rfl
              rw [this] at hc
              simp only [List.mem_singleton] at hc
              rw [hc] at he'
              cases he'
  · rename_i hfd
    split at h
    · unfold handleGone at h
      simp only [bind, Except.bind] at h
      split at h
      · cases h
      · rename_i x hx
        obtain ⟨s1, t1⟩ := x
        obtain ⟨h1, h2⟩ := callCb_frame hx
        cases h
        refine ⟨h1, fun c hc he => ?_⟩
        simp only [callsIn_append, h2, tcpRemove_calls] at hc
        simp only [callsIn, List.filterMap_cons, List.filterMap_nil, List.append_nil, List.mem_singleton] at hc
        rw [hc] at he
        cases he
    · split at h
      · simp only [bind, Except.bind] at h
        split at h
        · cases h
        · cases h
          exact ⟨rfl, fun c hc => by simp [callsIn] at hc⟩
      · obtain ⟨h1, h2⟩ := callCb_frame h
        refine ⟨h1, fun c hc he => ?_⟩
        rw [h2, List.mem_singleton] at hc
        rw [hc] at he
        cases he
    · unfold handleGone at h
      simp only [bind, Except.bind] at h
      split at h
      · cases h
      · rename_i x hx
        obtain ⟨s1, t1⟩ := x
        obtain ⟨h1, h2⟩ := callCb_frame hx
        cases h
        exact ⟨h1, fun c _ _ => .inr (.inr ⟨hfd, rfl⟩)⟩
    · cases h
      exact ⟨rfl, fun c hc => by simp [callsIn] at hc⟩

/-- The loop with messages makes the callbacks of the loop without, in the same order, and ends as it does. -/
theorem batchMsgs_plain {io : Str} : ∀ {evs : List MsgEv} {s s' : TcpSrv} {m m' : Str} {l : List ((SrvEvent × Int) × Str)},
    batchMsgs io s evs m = .ok (s', l, m') →
    ∃ t, ioBatch s (evs.map fun v => (v.fd, v.bits, v.ans)) = .ok (s', t) ∧ callsIn t = l.map (·.1) := by
  intro evs
  induction evs with
  | nil => intro s s' m m' l h; cases h; exact ⟨[], rfl, rfl⟩
  | cons v rest ih =>
    intro s s' m m' l h
    unfold batchMsgs at h
    simp only [List.map_cons, ioBatch]
    split at h
    · rename_i hb
      rw [hb]
      exact ih h
    · rename_i ev hb
      rw [hb]
      simp only [bind, Except.bind] at h ⊢
      split at h
      · cases h
      · rename_i x hx
        obtain ⟨s1, t1⟩ := x
        dsimp only at h ⊢
        split at h
        · cases h
        · rename_i y hy
          obtain ⟨s2, l2, m2⟩ := y
          obtain ⟨t2, h2, h3⟩ := ih hy
          cases h
          rw [h2]
          refine ⟨t1 ++ t2, rfl, ?_⟩
          rw [callsIn_append, h3, List.map_append, List.map_map]
          congr 1
          exact (List.map_id _).symm

/-- **C176** (which callbacks the messages belong to): the loop with messages makes the callbacks of the loop without, in the same order,
and ends as it does. -/
theorem C176_callbacks_partial {io : Str} : ∀ {rounds : List MsgRound} {s : TcpSrv} {m m' : Str} {l : List ((SrvEvent × Int) × Str)}
    {o : LoopEnd}, loopMsgs io s rounds m = .ok (l, m', o) →
    ∃ s' t, ioLoop s (rounds.map MsgRound.plain) = .ok (s', t, o) ∧ callsIn t = l.map (·.1) := by
  intro rounds
  induction rounds with
  | nil =>
    intro s m m' l o h
    unfold loopMsgs at h
    simp only [List.map_nil, ioLoop]
    split at h
    · cases h
    · rename_i e he
      rw [he]
      cases h
      exact ⟨s, [], rfl, rfl⟩
  | cons r rs ih =>
    intro s m m' l o h
    unfold loopMsgs at h
    simp only [List.map_cons, ioLoop]
    split at h
    · cases h
    · rename_i e he
      rw [he]
      dsimp only
      split at h
      · rename_i hl
        rw [if_pos hl]
        split at h
        · rename_i hr
          simp only [MsgRound.plain, hr]
          simp only [bind, Except.bind] at h ⊢
          split at h
          · cases h
          · rename_i s1 hs
            cases h
            exact ⟨s1, [], rfl, rfl⟩
        · rename_i hr
          simp only [bind, Except.bind] at h
          have hp : r.plain.res = .intr := by simp only [MsgRound.plain, hr]
          rw [hp]
          simp only [bind, Except.bind]
          split at h
          · cases h
          · rename_i s1 hs
            have hs' : stopIf r.plain.stopped s = .ok s1 := hs
            obtain ⟨s', t, h1, h2⟩ := ih h
            rw [hs']
            dsimp only
            rw [h1]
            exact ⟨s', _, rfl, h2⟩
        · rename_i sys hr
          have hp : r.plain.res = .fail := by simp only [MsgRound.plain, hr]
          rw [hp]
          cases h
          exact ⟨s, _, rfl, rfl⟩
        · rename_i evs hr
          have hp : r.plain.res = .events (evs.map fun v => (v.fd, v.bits, v.ans)) := by simp only [MsgRound.plain, hr]
          rw [hp]
          simp only [bind, Except.bind] at h ⊢
          split at h
          · cases h
          · rename_i x hx
            obtain ⟨s1, l1, m1⟩ := x
            obtain ⟨t1, ht1, hc1⟩ := batchMsgs_plain hx
            rw [ht1]
            dsimp only at h ⊢
            split at h
            · cases h
            · rename_i s2 hs
              have hs' : stopIf r.plain.stopped s1 = .ok s2 := hs
              rw [hs']
              dsimp only at h ⊢
              split at h
              · cases h
              · rename_i y hy
                obtain ⟨l2, m2, o2⟩ := y
                obtain ⟨s', t, h1, h2⟩ := ih hy
                cases h
                rw [h1]
                refine ⟨s', _, rfl, ?_⟩
                show callsIn (t1 ++ t) = _
                rw [callsIn_append, hc1, h2, List.map_append]
      · rename_i hl
        rw [if_neg hl]
        cases h
        exact ⟨s, [], rfl, rfl⟩

theorem stopIf_listen {b : Bool} {s s' : TcpSrv} (h : stopIf b s = .ok s') : s'.listen = s.listen := by
  unfold stopIf at h
  split at h
  · exact tcpStop_listen h
  · cases h; rfl

theorem monitor_ok {e : Ep} {fd nb res : Int} (h : (epMonitor e fd nb res).1 < 0) : res < 0 := by
  simpa [epMonitor, epollTrigger] using h

theorem batchMsgs_accept {io : Str} : ∀ {evs : List MsgEv} {s s' : TcpSrv} {m m' : Str} {l : List ((SrvEvent × Int) × Str)},
    batchMsgs io s evs m = .ok (s', l, m') → (∀ v ∈ evs, OnlyAcceptFails s.listen.fd v) →
    s'.listen = s.listen ∧ ∀ c ∈ l, c.1.1 = .error → ∃ v ∈ evs, v.fd = s.listen.fd ∧ c.2 = failureText v := by
  intro evs
  induction evs with
  | nil => intro s s' m m' l h _; cases h; exact ⟨rfl, fun c hc => by cases hc⟩
  | cons v rest ih =>
    intro s s' m m' l h hv
    unfold batchMsgs at h
    split at h
    · obtain ⟨h1, h2⟩ := ih h (fun w hw => hv w (List.mem_cons_of_mem _ hw))
      exact ⟨h1, fun c hc he => by obtain ⟨w, hw, h3⟩ := h2 c hc he; exact ⟨w, List.mem_cons_of_mem _ hw, h3⟩⟩
    · rename_i ev hb
      simp only [bind, Except.bind] at h
      split at h
      · cases h
      · rename_i x hx
        obtain ⟨s1, t1⟩ := x
        obtain ⟨hl1, hc1⟩ := ioEvent_calls hx
        dsimp only at h
        split at h
        · cases h
        · rename_i y hy
          obtain ⟨s2, l2, m2⟩ := y
          obtain ⟨h1, h2⟩ := ih hy (fun w hw => by rw [hl1]; exact hv w (List.mem_cons_of_mem _ hw))
          cases h
          refine ⟨h1.trans hl1, fun c hc he => ?_⟩
          rw [List.mem_append] at hc
          rcases hc with hc | hc
          · rw [List.mem_map] at hc
            obtain ⟨c', hc', rfl⟩ := hc
            have ho := hv v List.mem_cons_self
            rcases hc1 c' hc' he with ⟨hf, ha⟩ | ⟨hf, _, _, e, _, hm⟩ | ⟨hf, hev⟩
            · refine ⟨v, List.mem_cons_self, hf, ?_⟩
              simp only [eventErr, hf, if_true, failureText]
              by_cases hs : s.listen.status ≠ .init
              · rw [if_pos hs]
              · rw [if_neg hs, if_pos (ha.resolve_left hs)]
            · have := monitor_ok hm
              have := ho.1 hf
              omega
            · rw [hev] at hb
              exact absurd hb (ho.2 hf)
          · obtain ⟨w, hw, h3, h4⟩ := h2 c hc he
            exact ⟨w, List.mem_cons_of_mem _ hw, by rw [← hl1]; exact h3, h4⟩

/-- **C176** (connections that cannot be accepted): if the acceptance of connections is all that fails while the loop runs, then every
callback with an error event finds the message of the failure that it is called for. -/
theorem C176_accept_partial (io : Str) (s : TcpSrv) (rounds : List MsgRound) (m m' : Str) (l : List ((SrvEvent × Int) × Str)) (o : LoopEnd)
    (h : loopMsgs io s rounds m = .ok (l, m', o)) (hv : ∀ v ∈ msgReports rounds, OnlyAcceptFails s.listen.fd v) :
    ∀ c ∈ l, c.1.1 = .error → ∃ v ∈ msgReports rounds, v.fd = s.listen.fd ∧ c.2 = failureText v := by
  induction rounds generalizing s m l with
  | nil =>
    unfold loopMsgs at h
    split at h
    · cases h
    · cases h
      intro c hc
      cases hc
  | cons r rs ih =>
    unfold loopMsgs at h
    have hrs : ∀ v ∈ msgReports rs, v ∈ msgReports (r :: rs) := by
      intro v hv
      simp only [msgReports, List.flatMap_cons, List.mem_append]
      exact .inr hv
    split at h
    · cases h
    · split at h
      · split at h
        · simp only [bind, Except.bind] at h
          split at h
          · cases h
          · cases h
            intro c hc
            cases hc
        · simp only [bind, Except.bind] at h
          split at h
          · cases h
          · rename_i s1 hs
            have hl := stopIf_listen hs
            intro c hc he
            obtain ⟨v, h1, h2, h3⟩ := ih s1 _ _ h (fun v hw => by rw [hl]; exact hv v (hrs v hw)) c hc he
            exact ⟨v, hrs v h1, by rw [← hl]; exact h2, h3⟩
        · cases h
          intro c hc
          cases hc
        · rename_i evs hr
          have hevs : ∀ v ∈ evs, v ∈ msgReports (r :: rs) := by
            intro v hv
            simp only [msgReports, List.flatMap_cons, List.mem_append, hr]
            exact .inl hv
          simp only [bind, Except.bind] at h
          split at h
          · cases h
          · rename_i x hx
            obtain ⟨s1, l1, m1⟩ := x
            obtain ⟨hl1, hb⟩ := batchMsgs_accept hx (fun v hw => hv v (hevs v hw))
            dsimp only at h
            split at h
            · cases h
            · rename_i s2 hs
              have hl := (stopIf_listen hs).trans hl1
              split at h
              · cases h
              · rename_i y hy
                obtain ⟨l2, m2, o2⟩ := y
                cases h
                intro c hc he
                rw [List.mem_append] at hc
                rcases hc with hc | hc
                · obtain ⟨v, h1, h2⟩ := hb c hc he
                  exact ⟨v, hevs v h1, h2⟩
                · obtain ⟨v, h1, h2, h3⟩ := ih s2 _ _ hy (fun v hw => by rw [hl]; exact hv v (hrs v hw)) c hc he
                  exact ⟨v, hrs v h1, by rw [← hl]; exact h2, h3⟩
      · cases h
        intro c hc
        cases hc

/-- **C176** (a loop that fails): when the loop returns an error, the message is the system's text for the wait that failed. -/
theorem C176_loop_partial (io : Str) (s : TcpSrv) (rounds : List MsgRound) (m m' : Str) (l : List ((SrvEvent × Int) × Str)) (rc : Int)
    (h : loopMsgs io s rounds m = .ok (l, m', .returned rc)) (hrc : rc ≠ 0) :
    ∃ r ∈ rounds, ∃ sys, r.res = .fail sys ∧ m' = b!"[syserr]:" ++ sys := by
  induction rounds generalizing s m l with
  | nil =>
    unfold loopMsgs at h
    split at h
    · cases h
    · simp only [Except.ok.injEq, Prod.mk.injEq] at h
      split at h
      · cases h.2.2
      · exact absurd (by simpa [kSuccess] using h.2.2.symm) hrc
  | cons r rs ih =>
    unfold loopMsgs at h
    split at h
    · cases h
    · split at h
      · split at h
        · simp only [bind, Except.bind] at h
          split at h
          · cases h
          · cases h
        · simp only [bind, Except.bind] at h
          split at h
          · cases h
          · obtain ⟨r', h1, h2⟩ := ih _ _ _ h
            exact ⟨r', List.mem_cons_of_mem _ h1, h2⟩
        · rename_i sys hr
          cases h
          exact ⟨r, List.mem_cons_self, sys, hr, rfl⟩
        · simp only [bind, Except.bind] at h
          split at h
          · cases h
          · split at h
            · cases h
            · split at h
              · cases h
              · rename_i y hy
                obtain ⟨l2, m2, o2⟩ := y
                cases h
                obtain ⟨r', h1, h2⟩ := ih _ _ _ hy
                exact ⟨r', List.mem_cons_of_mem _ h1, h2⟩
      · simp only [Except.ok.injEq, Prod.mk.injEq, LoopEnd.returned.injEq] at h
        exact absurd (by simpa [kSuccess] using h.2.2.symm) hrc

/-- **C176** (a server that listens and has nothing to wait with): `EventLoop` says so and does not begin, except in the mode with one
thread per connection, which needs nothing; a server that has both leaves the message as it was. -/
theorem C176_no_mux_partial (s : TcpSrv) (m : Str) (h : s.listen.status = .init) :
    (s.io = none → s.mode ≠ .multiThread → (∀ rounds mt, eventLoop s rounds mt = .ok (s, [], .returned kLogicErr)) ∧
      eventLoopErr s m = b!"[logicerr]:io multiplexing not init") ∧
    (s.io ≠ none ∨ s.mode = .multiThread → eventLoopErr s m = m) := by
  refine ⟨fun h1 h2 => ⟨fun rounds mt => ?_, ?_⟩, fun h1 => ?_⟩
  · simp [eventLoop, h, h1, h2]
  · simp [eventLoopErr, h, h1, h2]
  · rcases h1 with h1 | h1 <;> simp [eventLoopErr, h, h1]

example : ∃ s : TcpSrv, s.listen.status = .init ∧ s.io = none ∧ s.mode ≠ .multiThread :=
  ⟨{ listen := { fd := 3, status := .init } }, rfl, rfl, by decide⟩

/-- **C176** (calls at the wrong time, and `WakeUp`): a loop that does not begin, and a `WakeUp` that fails, leave the reason in the
message. -/
theorem C176_calls_partial (s : TcpSrv) (m : Str) :
    (s.listen.status ≠ .init → (∀ rounds mt, eventLoop s rounds mt = .ok (s, [], .returned kLogicErr)) ∧
      eventLoopErr s m = b!"[logicerr]:epfd or listenfd not init" ∧ stopErr s m = b!"[logicerr]:epfd or listenfd not init") ∧
    (∀ (soc conn : Int) (x : ErrnoText), (tcpWakeUp s soc conn).1 = kSuccess ∧ wakeUpErr s soc conn x m = m ∨
      s.loop = true ∧ wakeUpErr s soc conn x m = b!"[logicerr]:server is running" ∨
      soc < 0 ∧ wakeUpErr s soc conn x m = b!"[syserr]:" ++ x .socket ∨
      conn < 0 ∧ wakeUpErr s soc conn x m = b!"[syserr]:" ++ x .connect) := by
  refine ⟨fun h => ⟨fun rounds mt => ?_, ?_, ?_⟩, fun soc conn x => ?_⟩
  · unfold eventLoop
    rw [if_pos h]
  · unfold eventLoopErr
    rw [if_pos h]
  · unfold stopErr
    rw [if_pos h]
  · unfold tcpWakeUp wakeUpErr
    by_cases hl : s.loop = true
    · simp only [hl, if_true]
      exact .inr (.inl ⟨trivial, trivial⟩)
    · simp only [hl, Bool.false_eq_true, if_false]
      cases s.mode with
      | io => exact .inl ⟨rfl, rfl⟩
      | other => exact .inl ⟨rfl, rfl⟩
      | multiThread =>
        dsimp only
        by_cases h1 : soc < 0
        · simp only [h1, if_true]
          exact .inr (.inr (.inl ⟨trivial, trivial⟩))
        · by_cases h2 : conn < 0
          · simp only [h1, h2, if_true, if_false]
            exact .inr (.inr (.inr ⟨trivial, trivial⟩))
          · simp only [h1, h2, if_false]
            exact .inl ⟨trivial, trivial⟩
      | mixed =>
        dsimp only
        by_cases h1 : soc < 0
        · simp only [h1, if_true]
          exact .inr (.inr (.inl ⟨trivial, trivial⟩))
        · by_cases h2 : conn < 0
          · simp only [h1, h2, if_true, if_false]
            exact .inr (.inr (.inr ⟨trivial, trivial⟩))
          · simp only [h1, h2, if_false]
            exact .inl ⟨trivial, trivial⟩

/-- **C176 is false** for a connection that fails: whatever has happened to it, the callback finds the message that was there before. -/
theorem C176_connection_refuted (io : Str) (s : TcpSrv) (n : Nat) (hcb : s.cb = .user n) (v : MsgEv) (hfd : v.fd ≠ s.listen.fd)
    (hb : epEvent v.bits = some .error) (ha : v.ans.acts .error v.fd = []) (m : Str) :
    batchMsgs io s [v] m = .ok (s, [((.error, v.fd), m)], v.cbErr m) := by
  have he : ioEvent s v.fd .error v.ans = .ok (s, .call (.user n) .error v.fd :: (tcpRemove s v.fd v.ans.del).2 ++ [.close v.fd]) := by
    unfold ioEvent
    rw [if_neg hfd]
    unfold handleGone callCb
    rw [hcb, ha]
    rfl
  have hm : eventErr s v.fd .error v.ans v.sys io m = m := by
    unfold eventErr
    rw [if_neg hfd]
  unfold batchMsgs
  rw [hb]
  simp only [bind, Except.bind, he, hm, batchMsgs]
  have : callsIn (.call (.user n) .error v.fd :: (tcpRemove s v.fd v.ans.del).2 ++ [.close v.fd]) = [(.error, v.fd)] := by
    show (SrvEvent.error, v.fd) :: callsIn ((tcpRemove s v.fd v.ans.del).2 ++ [.close v.fd]) = _
    rw [callsIn_append, tcpRemove_calls]
    rfl
  rw [this]
  rfl

/-- **C176 is false** for a connection that was accepted but cannot be watched (the limit on watched descriptors is reached): the message
is `[syserr]:` and nothing behind it. -/
theorem C176_watch_refuted (s : TcpSrv) (e : Ep) (n : Nat) (hcb : s.cb = .user n) (hio : s.io = some e) (hl : s.listen.status = .init)
    (v : MsgEv) (hfd : v.fd = s.listen.fd) (hb : epEvent v.bits = some .read) (h1 : 0 ≤ v.ans.accept) (h2 : v.ans.add < 0)
    (ha : v.ans.acts .error v.ans.accept = []) (m : Str) :
    batchMsgs [] s [v] m = .ok (s, [((.error, v.ans.accept), b!"[syserr]:")], v.cbErr b!"[syserr]:") := by
  have hm1 : epMonitor e v.ans.accept v.ans.noBlock v.ans.add =
      (v.ans.add, [.ctlAdd e.fd.fd v.ans.accept v.ans.add false]) := by
    simp [epMonitor, epollTrigger]
  have he : ioEvent s v.fd .read v.ans = .ok (s, [.accept s.listen.fd v.ans.accept, .ctlAdd e.fd.fd v.ans.accept v.ans.add false,
      .call (.user n) .error v.ans.accept, .close v.ans.accept]) := by
    unfold ioEvent
    rw [if_pos hfd]
    unfold handleAccept
    rw [if_neg (by simp [hl]), if_neg (by omega), hio]
    dsimp only
    rw [hm1]
    dsimp only
    rw [if_pos h2]
    unfold callCb
    rw [hcb, ha]
    rfl
  have hm : eventErr s v.fd .read v.ans v.sys [] m = b!"[syserr]:" := by
    unfold eventErr
    rw [if_pos hfd, if_neg (by simp [hl]), if_neg (by omega), hio]
    dsimp only
    rw [hm1, if_pos h2]
    rfl
  unfold batchMsgs
  rw [hb]
  simp only [bind, Except.bind, he, hm, batchMsgs]
  rfl

/-- **C176 is false** of `AddSoc`: when the system refuses, the call fails and the message is the one that was there before. -/
theorem C176_add_refuted (s : TcpSrv) (e : Ep) (hio : s.io = some e) (fd nb res : Int) (h : res < 0) (m : Str) :
    ∃ rc t, tcpAdd s fd nb res = .ok (rc, t) ∧ rc < 0 ∧ addSocErr .init m = m := by
  unfold tcpAdd
  rw [hio]
  exact ⟨res, [.ctlAdd e.fd.fd fd res false], by simp [epMonitor, epollTrigger], h, rfl⟩

/-- A server that listens on descriptor 3 with its epoll on 4. -/
def runSrv : TcpSrv := { listen := { fd := 3, status := .init }, cb := .user 0, io := some { fd := { fd := 4, status := .init } } }

/-- One after the other: a connection cannot be accepted (no descriptor is free), and connection 7 is reset. -/
def runRounds : List MsgRound :=
  [⟨.events [{ fd := 3, bits := { inn := true }, ans := { accept := -1 }, sys := b!"Too many open files" }], false⟩,
   ⟨.events [{ fd := 7, bits := { err := true }, ans := {}, sys := b!"Connection reset by peer" }], false⟩,
   ⟨.fail b!"Bad file descriptor", false⟩]

/-- The first callback finds its reason, the second that of the first, the end of the loop its own. -/
example : loopMsgs [] runSrv runRounds [] = .ok ([((.error, -1), b!"[syserr]:Too many open files"),
    ((.error, 7), b!"[syserr]:Too many open files")], b!"[syserr]:Bad file descriptor", .returned (-1)) := by decide +kernel

/-- The hypotheses of the positive theorem hold when only the first thing happens. -/
example : (loopMsgs [] runSrv (runRounds.take 1) b!"old").map (·.1) = .ok [((.error, -1), b!"[syserr]:Too many open files")] ∧
    ∀ v ∈ msgReports (runRounds.take 1), OnlyAcceptFails runSrv.listen.fd v := by
  refine ⟨by decide +kernel, fun v hv => ?_⟩
  simp only [runRounds, msgReports, List.take, List.flatMap_cons, List.flatMap_nil, List.append_nil, List.mem_singleton] at hv
  rw [hv]
  exact ⟨fun _ => by decide, fun h => absurd rfl h⟩

end Cppnet
