import Verif.Proofs.TcpKeep

/-!
# When no call on the TCP server crashes
-/

namespace Cppnet
open Spec

/-- The pointers and the callback the mode needs are there. -/
structure Sound (m : SrvMode) (s : TcpSrv) : Prop where
  mode : s.mode = m
  cb : s.cb ≠ .null
  io : m ≠ .multiThread → ∃ e, s.io = some e
  pool : m ≠ .io → s.pool = true
  real : m ≠ .other

theorem Sound.kept {m : SrvMode} {s s' : TcpSrv} (h : Sound m s) (k : Kept s s') : Sound m s' where
  mode := k.mode.trans h.mode
  cb := k.cb h.cb
  io hm := by
    obtain ⟨e, he⟩ := h.io hm
    have := k.io
    rw [he] at this
    cases hs : s'.io with
    | none => rw [hs] at this; cases this
    | some e' => exact ⟨e', rfl⟩
  pool hm := k.pool.trans (h.pool hm)
  real := h.real

theorem tcpStop_ok {m : SrvMode} {s : TcpSrv} (h : Sound m s) : ∃ s', tcpStop s = .ok s' := by
  unfold tcpStop
  by_cases hs : s.listen.status ≠ .init
  · exact ⟨_, if_pos hs⟩
  · rw [if_neg hs]
    have := h.io
    rw [← h.mode] at this
    cases hm : s.mode <;> simp only [hm]
    · obtain ⟨e, he⟩ := this (by simp [hm]); simp only [he]; exact ⟨_, rfl⟩
    · exact ⟨_, rfl⟩
    · obtain ⟨e, he⟩ := this (by simp [hm]); simp only [he]; exact ⟨_, rfl⟩
    · exact ⟨_, rfl⟩

/-- Acts that are fine in the mode. -/
def ActsOk (m : SrvMode) (acts : List CbAct) : Prop := m = .multiThread → ∀ f nb res, .add f nb res ∉ acts

theorem cbAct_ok {m : SrvMode} {s : TcpSrv} {a : CbAct} (h : Sound m s) (ha : ActsOk m [a]) :
    ∃ s' t, cbAct s a = .ok (s', t) := by
  cases a with
  | remove fd res => exact ⟨_, _, rfl⟩
  | close fd => exact ⟨_, _, rfl⟩
  | register n => exact ⟨_, _, rfl⟩
  | stop =>
    obtain ⟨s', hs⟩ := tcpStop_ok h
    exact ⟨s', [], by simp only [cbAct, hs]; rfl⟩
  | add fd nb res =>
    obtain ⟨e, he⟩ := h.io (fun hm => ha hm fd nb res (by simp))
    exact ⟨_, _, by simp only [cbAct, tcpAdd, he]; rfl⟩

theorem cbActs_ok {m : SrvMode} {as : List CbAct} : ∀ {s : TcpSrv}, Sound m s → ActsOk m as →
    ∃ s' t, cbActs s as = .ok (s', t) := by
  induction as with
  | nil => intro s _ _; exact ⟨_, _, rfl⟩
  | cons a as ih =>
    intro s h ha
    obtain ⟨s1, t1, e1⟩ := cbAct_ok h (a := a) (fun hm f nb res hx => by
      simp only [List.mem_singleton] at hx
      exact ha hm f nb res (by simp [hx]))
    obtain ⟨s2, t2, e2⟩ := ih (h.kept (cbAct_kept e1).1) (fun hm f nb res hx => ha hm f nb res (by simp [hx]))
    exact ⟨s2, t1 ++ t2, by simp only [cbActs, e1, e2, bind, Except.bind]⟩

theorem callCb_ok {m : SrvMode} {s : TcpSrv} {acts : List CbAct} (h : Sound m s) (ha : ActsOk m acts) (ev : SrvEvent)
    (fd : Int) : ∃ s' t, callCb s ev fd acts = .ok (s', t) := by
  unfold callCb
  cases hc : s.cb with
  | null => exact absurd hc h.cb
  | quiet => exact ⟨_, _, rfl⟩
  | user n =>
    obtain ⟨s', t, e⟩ := cbActs_ok h ha
    exact ⟨s', .call (.user n) ev fd :: t, by simp only [e, bind, Except.bind]⟩

theorem needPool_ok {m : SrvMode} {s : TcpSrv} (h : Sound m s) (hm : m ≠ .io) : needPool s = .ok () := by
  unfold needPool; rw [if_pos (h.pool hm)]

theorem handleAccept_ok {m : SrvMode} {s : TcpSrv} {a : EvAns} (h : Sound m s) (hm : m ≠ .multiThread)
    (ha : ∀ ev fd, ActsOk m (a.acts ev fd)) : ∃ s' t, handleAccept s a = .ok (s', t) := by
  unfold handleAccept
  by_cases h1 : s.listen.status ≠ .init
  · rw [if_pos h1]; exact callCb_ok h (ha _ _) _ _
  · rw [if_neg h1]
    by_cases h2 : a.accept < 0
    · rw [if_pos h2]
      obtain ⟨s', t, e⟩ := callCb_ok h (ha .error a.accept) .error a.accept
      exact ⟨_, _, by simp only [e, bind, Except.bind]; rfl⟩
    · rw [if_neg h2]
      obtain ⟨e, he⟩ := h.io hm
      simp only [he]
      by_cases h3 : (epMonitor e a.accept a.noBlock a.add).1 < 0
      · rw [if_pos h3]
        obtain ⟨s', t, e⟩ := callCb_ok h (ha .error a.accept) .error a.accept
        exact ⟨_, _, by simp only [e, bind, Except.bind]; rfl⟩
      · rw [if_neg h3]
        obtain ⟨s', t, e⟩ := callCb_ok h (ha .accept a.accept) .accept a.accept
        exact ⟨_, _, by simp only [e, bind, Except.bind]; rfl⟩

theorem handleGone_ok {m : SrvMode} {s : TcpSrv} {a : EvAns} (h : Sound m s) (ev : SrvEvent) (fd : Int)
    (ha : ∀ ev fd, ActsOk m (a.acts ev fd)) : ∃ s' t, handleGone s ev fd a = .ok (s', t) := by
  obtain ⟨s', t, e⟩ := callCb_ok h (ha ev fd) ev fd
  exact ⟨_, _, by simp only [handleGone, e, bind, Except.bind]; rfl⟩

theorem ioEvent_ok {m : SrvMode} {s : TcpSrv} {a : EvAns} (h : Sound m s) (hm : m ≠ .multiThread)
    (ha : ∀ ev fd, ActsOk m (a.acts ev fd)) (fd : Int) (ev : SrvEvent) : ∃ s' t, ioEvent s fd ev a = .ok (s', t) := by
  unfold ioEvent
  by_cases hf : fd = s.listen.fd
  · rw [if_pos hf]; exact handleAccept_ok h hm ha
  · rw [if_neg hf]
    cases ev with
    | accept => exact ⟨_, _, rfl⟩
    | leave => exact handleGone_ok h .leave fd ha
    | error => exact handleGone_ok h .error fd ha
    | read =>
      by_cases hx : s.mode = .mixed
      · simp only [if_pos hx, needPool_ok h (by rw [← h.mode, hx]; simp), bind, Except.bind]
        exact ⟨_, _, rfl⟩
      · simp only [if_neg hx]; exact callCb_ok h (ha _ _) _ _

theorem ioBatch_ok {m : SrvMode} {evs : List (Int × EpBits × EvAns)} : ∀ {s : TcpSrv}, Sound m s → m ≠ .multiThread →
    (∀ x ∈ evs, ∀ ev fd, ActsOk m (x.2.2.acts ev fd)) → ∃ s' t, ioBatch s evs = .ok (s', t) := by
  induction evs with
  | nil => intro s _ _ _; exact ⟨_, _, rfl⟩
  | cons x evs ih =>
    obtain ⟨fd, b, a⟩ := x
    intro s h hm ha
    have ha' : ∀ x ∈ evs, ∀ ev fd, ActsOk m (x.2.2.acts ev fd) := fun x hx => ha x (by simp [hx])
    simp only [ioBatch]
    cases hev : epEvent b with
    | none => exact ih h hm ha'
    | some ev =>
      obtain ⟨s1, t1, e1⟩ := ioEvent_ok h hm (ha (fd, b, a) (by simp)) fd ev
      obtain ⟨s2, t2, e2⟩ := ih (h.kept (ioEvent_rel kept_rel (fun _ _ => trivial) e1).1) hm ha'
      exact ⟨s2, t1 ++ t2, by simp only [e1, e2, bind, Except.bind]⟩

theorem stopIf_ok {m : SrvMode} {s : TcpSrv} (h : Sound m s) (b : Bool) : ∃ s', stopIf b s = .ok s' := by
  cases b with
  | false => exact ⟨s, rfl⟩
  | true => exact tcpStop_ok h

theorem ioLoop_ok {m : SrvMode} {rounds : List Round} : ∀ {s : TcpSrv}, Sound m s → m ≠ .multiThread →
    RoundsOk (ActsOk m) rounds → ∃ s' t o, ioLoop s rounds = .ok (s', t, o) := by
  induction rounds with
  | nil =>
    intro s h hm _
    obtain ⟨e, he⟩ := h.io hm
    simp only [ioLoop, he]
    exact ⟨_, _, _, rfl⟩
  | cons r rs ih =>
    intro s h hm hr
    have hr' : RoundsOk (ActsOk m) rs := fun r' h' => hr r' (List.mem_cons_of_mem _ h')
    obtain ⟨e, he⟩ := h.io hm
    simp only [ioLoop, he]
    by_cases hl : e.loop = true
    · rw [if_pos hl]
      cases hres : r.res with
      | never =>
        obtain ⟨s1, e1⟩ := stopIf_ok h r.stopped
        exact ⟨_, _, _, by simp only [e1, bind, Except.bind]; rfl⟩
      | intr =>
        obtain ⟨s1, e1⟩ := stopIf_ok h r.stopped
        obtain ⟨s2, t2, o2, e2⟩ := ih (h.kept (stopIf_kept e1)) hm hr'
        exact ⟨_, _, _, by simp only [e1, e2, bind, Except.bind]; rfl⟩
      | fail => exact ⟨_, _, _, rfl⟩
      | events evs =>
        obtain ⟨s0, t0, e0⟩ := ioBatch_ok h hm (hr r (by simp) evs hres)
        have h0 := h.kept (ioBatch_rel kept_rel (fun _ _ _ _ => trivial) e0).1
        obtain ⟨s1, e1⟩ := stopIf_ok h0 r.stopped
        obtain ⟨s2, t2, o2, e2⟩ := ih (h0.kept (stopIf_kept e1)) hm hr'
        exact ⟨_, _, _, by simp only [e0, e1, e2, bind, Except.bind]; rfl⟩
    · rw [if_neg hl]
      exact ⟨_, _, _, rfl⟩

theorem mtLoop_ok {m : SrvMode} {rounds : List MtRound} : ∀ {s : TcpSrv}, Sound m s → m = .multiThread →
    (∀ r ∈ rounds, ActsOk m r.acts) → ∃ s' t o, mtLoop s rounds = .ok (s', t, o) := by
  induction rounds with
  | nil =>
    intro s h hm _
    simp only [mtLoop]
    by_cases hl : s.loop = true
    · rw [if_pos hl]; exact ⟨_, _, _, rfl⟩
    · rw [if_neg hl]
      simp only [needPool_ok h (by rw [hm]; simp), bind, Except.bind]
      exact ⟨_, _, _, rfl⟩
  | cons r rs ih =>
    intro s h hm hr
    simp only [mtLoop]
    by_cases hl : s.loop = true
    · rw [if_pos hl]
      obtain ⟨s1, e1⟩ := stopIf_ok h r.stopped
      have h1 := h.kept (stopIf_kept e1)
      have hp := needPool_ok h1 (by rw [hm]; simp)
      simp only [e1, bind, Except.bind]
      cases hacc : r.accept with
      | none => exact ⟨_, _, _, rfl⟩
      | some fd =>
        simp only
        by_cases h2 : (!s1.loop) = true
        · rw [if_pos h2]; simp only [hp]; exact ⟨_, _, _, rfl⟩
        · rw [if_neg h2]
          by_cases h3 : fd < 0
          · rw [if_pos h3]
            obtain ⟨s2, t2, e2⟩ := callCb_ok h1 (hr r (by simp)) .error fd
            simp only [e2]
            exact ⟨_, _, _, rfl⟩
          · rw [if_neg h3]
            obtain ⟨s2, t2, o2, e2⟩ := ih h1 hm (fun r' h' => hr r' (by simp [h']))
            simp only [hp, e2]
            exact ⟨_, _, _, rfl⟩
    · rw [if_neg hl]
      simp only [needPool_ok h (by rw [hm]; simp), bind, Except.bind]
      exact ⟨_, _, _, rfl⟩

theorem eventLoop_ok {m : SrvMode} {s : TcpSrv} {rounds : List Round} {mt : List MtRound} (h : Sound m s)
    (ha : m = .multiThread → NoAddSoc rounds mt) : ∃ s' t o, Cppnet.eventLoop s rounds mt = .ok (s', t, o) := by
  unfold Cppnet.eventLoop
  by_cases hs : s.listen.status ≠ .init
  · rw [if_pos hs]; exact ⟨_, _, _, rfl⟩
  · rw [if_neg hs]
    by_cases hi : s.io = none ∧ s.mode ≠ .multiThread
    · rw [if_pos hi]; exact ⟨_, _, _, rfl⟩
    · rw [if_neg hi]
      have hr : RoundsOk (ActsOk m) rounds := fun r hr evs he x hx ev fd hm => (ha hm).1 r hr evs he x hx ev fd
      have hmode := h.mode
      cases hm : s.mode with
      | io => exact ioLoop_ok h (by rw [← hmode, hm]; simp) hr
      | multiThread =>
        exact mtLoop_ok h (by rw [← hmode, hm]) (fun r hr hm => (ha hm).2 r hr)
      | other => exact ⟨_, _, _, rfl⟩
      | mixed =>
        obtain ⟨s', t, o, e⟩ := ioLoop_ok h (by rw [← hmode, hm]; simp) hr
        simp only [e, bind, Except.bind]
        have h' := h.kept (ioLoop_rel kept_rel (roundsAny _) e).1
        by_cases ho : o = .returned kSuccess
        · rw [if_pos ho]; simp only [needPool_ok h' (by rw [← hmode, hm]; simp)]; exact ⟨_, _, _, rfl⟩
        · rw [if_neg ho]; exact ⟨_, _, _, rfl⟩

theorem closeListen_eq (s : TcpSrv) : ∃ l, (closeListen s).1 = { s with listen := l } := by
  unfold closeListen
  split
  · exact ⟨s.listen, rfl⟩
  · exact ⟨_, rfl⟩

theorem initEpoll_eq (s : TcpSrv) (a : InitAns) : ∃ l e, (initEpoll s a).1 = { s with listen := l, io := some e } := by
  unfold initEpoll
  simp only
  split
  · obtain ⟨l, hl⟩ := closeListen_eq { s with io := some (epInit {} a.epoll).1 }
    exact ⟨l, _, hl⟩
  · split
    · obtain ⟨l, hl⟩ := closeListen_eq { s with io := some (epInit {} a.epoll).1 }
      exact ⟨l, _, hl⟩
    · exact ⟨s.listen, _, rfl⟩

/-- Whatever `Init` answers, it takes nothing away. -/
theorem tcpInit_sound {m : SrvMode} {s : TcpSrv} {a : InitAns} (h : Sound m s) : Sound m (tcpInit s a).1 := by
  unfold tcpInit
  simp only
  have hs1 : Sound m { s with loop := true, listen := (createSocket s a).1 } := ⟨h.mode, h.cb, h.io, h.pool, h.real⟩
  split
  · exact hs1
  · split
    · obtain ⟨l, hl⟩ := closeListen_eq { s with loop := true, listen := (createSocket s a).1 }
      rw [hl]
      exact ⟨h.mode, h.cb, h.io, h.pool, h.real⟩
    · unfold initMode
      have hm := h.mode
      cases hmm : s.mode with
      | io =>
        simp only
        obtain ⟨l, e, hl⟩ := initEpoll_eq { s with loop := true, listen := (createSocket s a).1 } a
        rw [hmm] at hl
        split
        · rw [hl]; exact ⟨hmm.symm.trans hm, h.cb, fun _ => ⟨e, rfl⟩, h.pool, h.real⟩
        · rw [hl]; exact ⟨hmm.symm.trans hm, by simp, fun _ => ⟨e, rfl⟩, h.pool, h.real⟩
      | mixed =>
        simp only
        obtain ⟨l, e, hl⟩ := initEpoll_eq { s with loop := true, listen := (createSocket s a).1, pool := true } a
        rw [hmm] at hl
        split
        · rw [hl]; exact ⟨hmm.symm.trans hm, h.cb, fun _ => ⟨e, rfl⟩, fun _ => rfl, h.real⟩
        · rw [hl]; exact ⟨hmm.symm.trans hm, by simp, fun _ => ⟨e, rfl⟩, fun _ => rfl, h.real⟩
      | multiThread => exact ⟨hmm.symm.trans hm, by simp, h.io, fun _ => rfl, h.real⟩
      | other => exact ⟨hmm.symm.trans hm, h.cb, h.io, h.pool, h.real⟩

theorem tcpClean_sound {m : SrvMode} {s : TcpSrv} (h : Sound m s) : Sound m (tcpClean s).1 := by
  obtain ⟨l, hl⟩ := closeListen_eq s
  unfold tcpClean
  simp only [hl]
  cases hio : s.io with
  | none =>
    exact ⟨h.mode, h.cb, (fun hm => by obtain ⟨e, he⟩ := h.io hm; rw [hio] at he; cases he), h.pool, h.real⟩
  | some e => exact ⟨h.mode, h.cb, fun _ => ⟨_, rfl⟩, h.pool, h.real⟩

/-- After a successful `Init` everything the mode needs is there. -/
theorem tcpInit_fresh {m : SrvMode} {s : TcpSrv} {a : InitAns} (hm : s.mode = m) (hr : m ≠ .other)
    (h : (tcpInit s a).2.1 = kSuccess) : Sound m (tcpInit s a).1 := by
  unfold tcpInit at h ⊢
  simp only at h ⊢
  split at h
  · simp [kSysErr, kSuccess] at h
  · rename_i h1
    rw [if_neg h1]
    split at h
    · simp [kSysErr, kSuccess] at h
    · rename_i h2
      rw [if_neg h2]
      unfold initMode at h ⊢
      cases hmm : s.mode with
      | io =>
        simp only [hmm] at h ⊢
        obtain ⟨l, e, hl⟩ := initEpoll_eq { s with loop := true, listen := (createSocket s a).1 } a
        simp only [hmm] at hl
        split at h
        · rename_i h3
          have hh : ∀ {x : Int}, x < 0 → x = kSuccess → False := by intro x; simp only [kSuccess]; omega
          exact absurd h (fun h => hh h3 h)
        · rename_i h3
          rw [if_neg h3, hl]
          exact ⟨hmm.symm.trans hm, by simp, fun _ => ⟨e, rfl⟩, fun hx => absurd (hmm ▸ hm).symm hx, hr⟩
      | mixed =>
        simp only [hmm] at h ⊢
        obtain ⟨l, e, hl⟩ := initEpoll_eq { s with loop := true, listen := (createSocket s a).1, pool := true } a
        simp only [hmm] at hl
        split at h
        · rename_i h3
          have hh : ∀ {x : Int}, x < 0 → x = kSuccess → False := by intro x; simp only [kSuccess]; omega
          exact absurd h (fun h => hh h3 h)
        · rename_i h3
          rw [if_neg h3, hl]
          exact ⟨hmm.symm.trans hm, by simp, fun _ => ⟨e, rfl⟩, fun _ => rfl, hr⟩
      | multiThread =>
        exact ⟨hmm.symm.trans hm, by simp, fun hx => absurd (hmm ▸ hm).symm hx, fun _ => rfl, hr⟩
      | other => exact absurd (hmm ▸ hm).symm hr

theorem apply_ok {m : SrvMode} {s : TcpSrv} {op : SrvOp} (h : Sound m s) (ho : Orderly m op) :
    ∃ s' t o, s.apply op = .ok (s', t, o) ∧ Sound m s' := by
  cases op with
  | init a => exact ⟨_, _, _, rfl, tcpInit_sound h⟩
  | register n => exact ⟨_, _, _, rfl, ⟨h.mode, by simp, h.io, h.pool, h.real⟩⟩
  | eventLoop rounds mt =>
    obtain ⟨s', t, o, e⟩ := eventLoop_ok h ho
    exact ⟨s', t, o, e, h.kept (eventLoop_rel kept_rel (roundsAny _) (fun _ _ => trivial) e).1⟩
  | stop =>
    obtain ⟨s', e⟩ := tcpStop_ok h
    exact ⟨s', [], _, by simp only [TcpSrv.apply, e]; rfl, h.kept (tcpStop_kept e)⟩
  | clean => exact ⟨_, _, _, rfl, tcpClean_sound h⟩
  | wakeUp soc conn => exact ⟨_, _, _, rfl, h⟩
  | removeSoc fd res => exact ⟨_, _, _, rfl, h⟩
  | addSoc fd nb res =>
    obtain ⟨e, he⟩ := h.io ho
    exact ⟨s, _, _, by simp only [TcpSrv.apply, tcpAdd, he]; rfl, h⟩
  | setMode m' => exact absurd ho id
  | setAddr a => exact ⟨_, _, _, rfl, ⟨h.mode, h.cb, h.io, h.pool, h.real⟩⟩
  | setQueue n => exact ⟨_, _, _, rfl, ⟨h.mode, h.cb, h.io, h.pool, h.real⟩⟩
  | setTrigger edge =>
    obtain ⟨e, he⟩ := h.io ho
    refine ⟨{ s with io := some { e with baseTrigger := edge } }, [], .returned kSuccess, ?_,
      ⟨h.mode, h.cb, fun _ => ⟨_, rfl⟩, h.pool, h.real⟩⟩
    simp only [TcpSrv.apply, he]

theorem history_ok {m : SrvMode} {ops : List SrvOp} : ∀ {s : TcpSrv}, Sound m s → (∀ op ∈ ops, Orderly m op) →
    ∃ s' t, s.history ops = .ok (s', t) := by
  induction ops with
  | nil => intro s _ _; exact ⟨_, _, rfl⟩
  | cons op ops ih =>
    intro s h ho
    obtain ⟨s1, t1, o1, e1, h1⟩ := apply_ok h (ho op (by simp))
    simp only [TcpSrv.history, e1, bind, Except.bind]
    by_cases hw : o1 = .waiting
    · rw [if_pos hw]; exact ⟨_, _, rfl⟩
    · rw [if_neg hw]
      obtain ⟨s2, t2, e2⟩ := ih h1 (fun op' h' => ho op' (by simp [h']))
      simp only [e2]
      exact ⟨_, _, rfl⟩

end Cppnet
