import Verif.Spec.HttpLife
import Verif.Props.TcpMore

/-!
# C113–C117: starting, running and stopping an `HttpServer`, its protocol and its timeouts
-/

namespace Cppnet
open Spec

theorem closeListen_status (s : TcpSrv) : (closeListen s).1.listen.status ≠ .init := by
  unfold closeListen
  split
  · assumption
  · simp

theorem initEpoll_result (s : TcpSrv) (a : InitAns) (hs : s.listen.status = .init) :
    (initEpoll s a).1.mode = s.mode ∧ (initEpoll s a).1.cb = s.cb ∧
    (((initEpoll s a).2.1 = kSuccess ∧ (initEpoll s a).1.listen.status = .init) ∨
     ((initEpoll s a).2.1 = kSysErr ∧ (initEpoll s a).1.listen.status ≠ .init)) := by
  obtain ⟨l, e, he⟩ := initEpoll_eq s a
  refine ⟨by rw [he], by rw [he], ?_⟩
  unfold initEpoll
  simp only
  split
  · exact Or.inr ⟨rfl, closeListen_status _⟩
  · split
    · exact Or.inr ⟨rfl, closeListen_status _⟩
    · exact Or.inl ⟨rfl, hs⟩

/-- How `TcpServer::Init` ends. -/
theorem tcpInit_result (s : TcpSrv) (a : InitAns) :
    (tcpInit s a).1.mode = s.mode ∧
    (((tcpInit s a).2.1 = kSuccess ∧ (tcpInit s a).1.listen.status = .init) ∨
     ((tcpInit s a).2.1 = kSysErr ∧ (tcpInit s a).1.listen.status ≠ .init ∧ (tcpInit s a).1.cb = s.cb)) := by
  unfold tcpInit
  simp only
  split
  · rename_i h1
    exact ⟨rfl, Or.inr ⟨rfl, h1, rfl⟩⟩
  · rename_i h1
    split
    · obtain ⟨l, hl⟩ := closeListen_eq { s with loop := true, listen := (createSocket s a).1 }
      have hc := closeListen_status { s with loop := true, listen := (createSocket s a).1 }
      refine ⟨by rw [hl], Or.inr ⟨rfl, hc, by rw [hl]⟩⟩
    · have h1' : (createSocket s a).1.status = .init := Decidable.byContradiction h1
      have hk : ¬ kSuccess < 0 := by decide
      have hk' : kSysErr < 0 := by decide
      unfold initMode
      cases hmm : s.mode with
      | io =>
        simp only
        obtain ⟨e1, e2, e3 | e3⟩ := initEpoll_result { s with loop := true, listen := (createSocket s a).1 } a h1'
        · simp only [hmm] at e1 e2 e3
          rw [if_neg (by rw [e3.1]; exact hk)]
          exact ⟨e1, Or.inl ⟨rfl, e3.2⟩⟩
        · simp only [hmm] at e1 e2 e3
          rw [if_pos (by rw [e3.1]; exact hk')]
          exact ⟨e1, Or.inr ⟨e3.1, e3.2, e2⟩⟩
      | mixed =>
        simp only
        obtain ⟨e1, e2, e3 | e3⟩ := initEpoll_result { s with loop := true, listen := (createSocket s a).1, pool := true }
          a h1'
        · simp only [hmm] at e1 e2 e3
          rw [if_neg (by rw [e3.1]; exact hk)]
          exact ⟨e1, Or.inl ⟨rfl, e3.2⟩⟩
        · simp only [hmm] at e1 e2 e3
          rw [if_pos (by rw [e3.1]; exact hk')]
          exact ⟨e1, Or.inr ⟨e3.1, e3.2, e2⟩⟩
      | multiThread => exact ⟨rfl, Or.inl ⟨rfl, h1'⟩⟩
      | other => exact ⟨rfl, Or.inl ⟨rfl, h1'⟩⟩

/-! ### The state of the server and the calls made -/

/-- What the members say about the calls made so far. -/
structure SrvLife (m : SrvMode) (h : HttpSrv) (b : Bool) : Prop where
  mode : h.srv.mode = m
  cb : h.srv.cb = .null ∨ h.srv.cb = .user httpCb
  up : b = true ↔ h.cont = true ∧ h.srv.listen.status = .init
  down : h.cont = false → h.srv.listen.status ≠ .init
  sound : h.srv.listen.status = .init → Sound m h.srv ∧ h.srv.cb = .user httpCb

theorem httpInit_inv {m : SrvMode} {h : HttpSrv} {b : Bool} (hr : m ≠ .other) (hi : SrvLife m h b) (addr : Address)
    (a : InitAns) : ((httpInit h addr a).2.1 = kSuccess ∧ SrvLife m (httpInit h addr a).1 true) ∨
      ((httpInit h addr a).2.1 = kSysErr ∧ SrvLife m (httpInit h addr a).1 false) := by
  obtain ⟨e1, e2⟩ := tcpInit_result { h.srv with addr := addr } a
  have hf := @tcpInit_fresh m { h.srv with addr := addr } a hi.mode hr
  unfold httpInit
  simp only
  rcases e2 with ⟨e2, e3⟩ | ⟨e2, e3, e4⟩
  · rw [if_neg (by simp [e2])]
    refine Or.inl ⟨rfl, e1.trans hi.mode, Or.inr rfl, by simp [e3], by simp, fun _ => ⟨?_, rfl⟩⟩
    have := hf e2
    exact ⟨this.mode, by simp, this.io, this.pool, this.real⟩
  · rw [if_pos (by rw [e2]; decide)]
    exact Or.inr ⟨e2, e1.trans hi.mode, by simp only [e4]; exact hi.cb, by simp [e3], by simp, fun h => absurd h e3⟩

theorem SrvLife.ssl {m : SrvMode} {h : HttpSrv} {b : Bool} (hi : SrvLife m h b) (c : Option Nat) (x y : Int × Int) :
    SrvLife m { h with ssl := c, readTimeout := x, writeTimeout := y } b :=
  ⟨hi.mode, hi.cb, hi.up, hi.down, hi.sound⟩

theorem tcpClean_status (s : TcpSrv) : (tcpClean s).1.listen.status ≠ .init ∧ (tcpClean s).1.mode = s.mode ∧
    (tcpClean s).1.cb = s.cb := by
  have h := closeListen_status s
  obtain ⟨l, hl⟩ := closeListen_eq s
  unfold tcpClean
  simp only [hl] at h ⊢
  cases hio : s.io with
  | none => exact ⟨h, rfl, rfl⟩
  | some e => exact ⟨h, rfl, rfl⟩

theorem srvLife_apply {m : SrvMode} {h : HttpSrv} {b : Bool} (hr : m ≠ .other) (hi : SrvLife m h b) {op : HttpOp}
    (ho : SameMode op) : ∃ h' t o, h.apply op = .ok (h', t, o) ∧ SrvLife m h' (startedStep b (op, t, o)) := by
  cases op with
  | init addr a =>
    refine ⟨(httpInit h addr a).1, (httpInit h addr a).2.2, .returned (httpInit h addr a).2.1, rfl, ?_⟩
    rcases httpInit_inv hr hi addr a with ⟨h2, h1⟩ | ⟨h2, h1⟩ <;> rw [h2]
    · exact h1
    · exact h1
  | initSSL addr c a =>
    refine ⟨(httpInitSSL h addr c a).1, (httpInitSSL h addr c a).2.2, .returned (httpInitSSL h addr c a).2.1, rfl, ?_⟩
    unfold httpInitSSL
    by_cases hm : h.srv.mode = .mixed
    · rw [if_pos hm]
      exact hi
    · rw [if_neg hm]
      cases c with
      | none => exact hi
      | some c =>
        simp only
        rcases httpInit_inv hr hi addr a with ⟨h2, h1⟩ | ⟨h2, h1⟩
        · rw [if_neg (by simp [h2])]
          exact h1.ssl (some c) _ _
        · rw [if_pos (by rw [h2]; decide), h2]
          exact h1
  | run rounds mt =>
    simp only [HttpSrv.apply, httpRun]
    by_cases hc : h.cont = true
    · rw [if_neg (by simp [hc])]
      by_cases hs : h.srv.listen.status = .init
      · obtain ⟨s', t, o, e⟩ := eventLoop_ok (hi.sound hs).1 (fun _ => ho.2.2)
        have k := (eventLoop_rel kept_rel (roundsAny _) (fun _ _ => trivial) e).1
        have kc : s'.cb = h.srv.cb := (eventLoop_rel sameCb_rel (fun r hr evs he x hx ev fd => ho.1 r hr evs he x hx ev fd)
          ho.2.1 e).1
        refine ⟨_, _, _, by rw [e]; rfl, k.mode.trans hi.mode, by rw [kc]; exact hi.cb, ?_, ?_, ?_⟩
        · show startedStep b (.run rounds mt, t, o) = true ↔ _
          simp only [startedStep, k.listen]
          exact hi.up
        · intro hc'; simp only [k.listen]; exact hi.down hc'
        · intro _
          exact ⟨(hi.sound hs).1.kept k, by rw [kc]; exact (hi.sound hs).2⟩
      · refine ⟨h, [], .returned kLogicErr, ?_, hi⟩
        unfold Cppnet.eventLoop
        rw [if_pos hs]
        rfl
    · simp only [Bool.not_eq_true] at hc
      refine ⟨h, [], .returned kLogicErr, ?_, hi⟩
      rw [if_pos (by simp [hc])]
  | stop soc conn =>
    simp only [HttpSrv.apply, httpStop]
    by_cases hc : h.cont = true
    · rw [if_neg (by simp [hc])]
      have : ∃ s', tcpStop h.srv = .ok s' := by
        by_cases hs : h.srv.listen.status = .init
        · exact tcpStop_ok (hi.sound hs).1
        · exact ⟨_, by unfold tcpStop; rw [if_pos hs]⟩
      obtain ⟨s', e⟩ := this
      have k := tcpStop_kept e
      have kc := tcpStop_cb e
      obtain ⟨c1, c2, c3⟩ := tcpClean_status s'
      refine ⟨_, _, _, by rw [e]; rfl, ?_⟩
      exact ⟨by rw [c2]; exact k.mode.trans hi.mode, by rw [c3, kc]; exact hi.cb, by simp [startedStep], fun _ => c1,
        fun hx => absurd hx c1⟩
    · simp only [Bool.not_eq_true] at hc
      refine ⟨h, [], .returned kSuccess, by rw [if_pos (by simp [hc])]; rfl, ?_⟩
      have hb : b = false := by
        cases hb : b with
        | false => rfl
        | true => have := hi.up.1 hb; exact absurd this.1 (by simp [hc])
      simp only [startedStep]
      rw [← hb]; exact hi
  | setReadTimeout s u => exact ⟨_, _, _, rfl, hi.ssl _ _ _⟩
  | setWriteTimeout s u => exact ⟨_, _, _, rfl, hi.ssl _ _ _⟩
  | setMode m' => exact absurd ho id

theorem srvLife_history {m : SrvMode} (hr : m ≠ .other) {ops : List HttpOp} : ∀ {h : HttpSrv} {b : Bool}, SrvLife m h b →
    (∀ op ∈ ops, SameMode op) → ∃ h' log, h.history ops = .ok (h', log) ∧ SrvLife m h' (log.foldl startedStep b) := by
  induction ops with
  | nil => intro h b hi _; exact ⟨h, [], rfl, hi⟩
  | cons op ops ih =>
    intro h b hi ho
    obtain ⟨h1, t, o, e, i1⟩ := srvLife_apply hr hi (ho op (by simp))
    simp only [HttpSrv.history, e, bind, Except.bind]
    by_cases hw : o = .waiting
    · rw [if_pos hw]; exact ⟨_, _, rfl, i1⟩
    · rw [if_neg hw]
      obtain ⟨h2, log, e2, i2⟩ := ih i1 (fun op' h' => ho op' (by simp [h']))
      rw [e2]
      exact ⟨_, _, rfl, i2⟩

/-- A new server in mode `m`. -/
def newServer (m : SrvMode) : HttpSrv := { srv := { mode := m } }

theorem newServer_inv (m : SrvMode) : SrvLife m (newServer m) false :=
  ⟨rfl, Or.inl rfl, by simp [newServer], fun _ => by simp [newServer], fun h => by simp [newServer] at h⟩

theorem srvLife_new {m : SrvMode} (hr : m ≠ .other) {ops : List HttpOp} (ho : ∀ op ∈ ops, SameMode op) {h : HttpSrv}
    {log : HttpLog} (e : (newServer m).history ops = .ok (h, log)) : SrvLife m h (started log) := by
  obtain ⟨h', log', e', i⟩ := srvLife_history hr (newServer_inv m) ho
  rw [e] at e'
  cases e'
  exact i

theorem ioLoop_rc {rounds : List Round} : ∀ {s s' : TcpSrv} {t : List NetEv} {o : LoopEnd},
    ioLoop s rounds = .ok (s', t, o) → o ≠ .returned kLogicErr := by
  induction rounds with
  | nil =>
    intro s s' t o h
    simp only [ioLoop] at h
    cases hio : s.io with
    | none => rw [hio] at h; cases h
    | some e => rw [hio] at h; cases h; cases e.loop <;> simp [kSuccess, kLogicErr]
  | cons r rs ih =>
    intro s s' t o h
    simp only [ioLoop] at h
    cases hio : s.io with
    | none => rw [hio] at h; cases h
    | some e =>
      rw [hio] at h
      simp only at h
      by_cases hl : e.loop = true
      · rw [if_pos hl] at h
        cases hres : r.res with
        | never =>
          rw [hres] at h
          obtain ⟨_, _, h⟩ := bind_ok h
          cases h; simp
        | intr =>
          rw [hres] at h
          obtain ⟨_, _, h⟩ := bind_ok h
          obtain ⟨⟨s2, t2, o2⟩, e2, h⟩ := bind_ok h
          cases h
          exact ih e2
        | fail => rw [hres] at h; cases h; simp [kSysErr, kLogicErr]
        | events evs =>
          rw [hres] at h
          obtain ⟨_, _, h⟩ := bind_ok h
          obtain ⟨_, _, h⟩ := bind_ok h
          obtain ⟨⟨s2, t2, o2⟩, e2, h⟩ := bind_ok h
          cases h
          exact ih e2
      · rw [if_neg hl] at h; cases h; simp [kSuccess, kLogicErr]

theorem mtLoop_rc {rounds : List MtRound} : ∀ {s s' : TcpSrv} {t : List NetEv} {o : LoopEnd},
    mtLoop s rounds = .ok (s', t, o) → o ≠ .returned kLogicErr := by
  have k1 : LoopEnd.returned kSuccess ≠ .returned kLogicErr := by decide
  have k2 : LoopEnd.returned kSysErr ≠ .returned kLogicErr := by decide
  induction rounds with
  | nil =>
    intro s s' t o h
    simp only [mtLoop] at h
    by_cases hl : s.loop = true
    · rw [if_pos hl] at h; cases h; simp
    · rw [if_neg hl] at h
      obtain ⟨_, _, h⟩ := bind_ok h
      cases h; exact k1
  | cons r rs ih =>
    intro s s' t o h
    simp only [mtLoop] at h
    by_cases hl : s.loop = true
    · rw [if_pos hl] at h
      obtain ⟨s1, e1, h⟩ := bind_ok h
      cases hacc : r.accept with
      | none => rw [hacc] at h; cases h; simp
      | some f =>
        rw [hacc] at h
        simp only at h
        by_cases h2 : (!s1.loop) = true
        · rw [if_pos h2] at h
          obtain ⟨_, _, h⟩ := bind_ok h
          cases h; exact k1
        · rw [if_neg h2] at h
          by_cases h3 : f < 0
          · rw [if_pos h3] at h
            obtain ⟨_, _, h⟩ := bind_ok h
            cases h; exact k2
          · rw [if_neg h3] at h
            obtain ⟨_, _, h⟩ := bind_ok h
            obtain ⟨⟨s2, t2, o2⟩, e2, h⟩ := bind_ok h
            cases h
            exact ih e2
    · rw [if_neg hl] at h
      obtain ⟨_, _, h⟩ := bind_ok h
      cases h; exact k1

theorem eventLoop_rc {m : SrvMode} {s s' : TcpSrv} {rounds : List Round} {mt : List MtRound} {t : List NetEv} {o : LoopEnd}
    (hs : Sound m s) (hl : s.listen.status = .init) (h : Cppnet.eventLoop s rounds mt = .ok (s', t, o)) :
    o ≠ .returned kLogicErr := by
  unfold Cppnet.eventLoop at h
  rw [if_neg (by simp [hl])] at h
  have hio : ¬ (s.io = none ∧ s.mode ≠ .multiThread) := by
    rintro ⟨h1, h2⟩
    obtain ⟨e, he⟩ := hs.io (by rw [← hs.mode]; exact h2)
    rw [he] at h1; cases h1
  rw [if_neg hio] at h
  have hreal := hs.real
  rw [← hs.mode] at hreal
  cases hm : s.mode with
  | io => rw [hm] at h; exact ioLoop_rc h
  | multiThread => rw [hm] at h; exact mtLoop_rc h
  | other => exact absurd hm hreal
  | mixed =>
    rw [hm] at h
    obtain ⟨⟨s1, t1, o1⟩, e1, h⟩ := bind_ok h
    simp only at h
    by_cases ho : o1 = .returned kSuccess
    · rw [if_pos ho] at h
      obtain ⟨_, _, h⟩ := bind_ok h
      cases h
      exact ioLoop_rc e1
    · rw [if_neg ho] at h
      cases h
      exact ioLoop_rc e1

/-! ### C113 -/

/-- C113, first half: on a server that has not been started, or whose last start failed, or that has been stopped since,
`Run` returns a logic error at once, makes no system call and calls nothing, whatever calls were made before. -/
theorem C113_not_started (m : SrvMode) (hr : m ≠ .other) (ops : List HttpOp) (ho : ∀ op ∈ ops, SameMode op) (h : HttpSrv)
    (log : HttpLog) (e : (newServer m).history ops = .ok (h, log)) (hs : started log = false) (rounds : List Round)
    (mt : List MtRound) : h.apply (.run rounds mt) = .ok (h, [], .returned kLogicErr) := by
  have i := srvLife_new hr ho e
  simp only [HttpSrv.apply, httpRun]
  by_cases hc : h.cont = true
  · rw [if_neg (by simp [hc])]
    have : h.srv.listen.status ≠ .init := by
      intro hx
      have := i.up.2 ⟨hc, hx⟩
      rw [hs] at this; cases this
    unfold Cppnet.eventLoop
    rw [if_pos this]
    rfl
  · simp only [Bool.not_eq_true] at hc
    rw [if_pos (by simp [hc])]

/-- C113, second half: on a server that has been started and not stopped since, `Run` is not refused, and every event
that it reports is reported to the callback of `HttpServer`. -/
theorem C113_started (m : SrvMode) (hr : m ≠ .other) (ops : List HttpOp) (ho : ∀ op ∈ ops, SameMode op) (h : HttpSrv)
    (log : HttpLog) (e : (newServer m).history ops = .ok (h, log)) (hs : started log = true) (rounds : List Round)
    (mt : List MtRound) (ha : OwnActs rounds mt) :
    ∃ h' t o, h.apply (.run rounds mt) = .ok (h', t, o) ∧ o ≠ .returned kLogicErr ∧
      ∀ c ev fd, .call c ev fd ∈ t → c = .user httpCb := by
  have i := srvLife_new hr ho e
  obtain ⟨hc, hl⟩ := i.up.1 hs
  obtain ⟨hso, hcb⟩ := i.sound hl
  obtain ⟨s', t, o, el⟩ := eventLoop_ok hso (fun _ => ha.2.2)
  have kc := eventLoop_rel sameCb_rel (fun r hr evs he x hx ev fd => ha.1 r hr evs he x hx ev fd) ha.2.1 el
  refine ⟨{ h with srv := s' }, t, o, ?_, eventLoop_rc hso hl el, ?_⟩
  · simp only [HttpSrv.apply, httpRun]
    rw [if_neg (by simp [hc]), el]
    rfl
  · intro c ev fd hcall
    rw [← hcb]
    exact kc.2 c ev fd hcall

/-- An address, the answers to two `Init`s, and a round in which a connection arrives and sends something. -/
def lifeAddr : Address := (addressInit b!"127.0.0.1" 8080).1
def lifeInit2 : InitAns := { socket := 7, epoll := 8 }
def lifeRound : Round := { res := .events [(3, bitsIn, { accept := 5 })] }
def lifeStop : Round := { res := .events [(5, bitsIn, {})], stopped := true }

/-- What happened in each call, and how it ended. -/
def lifeOf (r : Out (HttpSrv × HttpLog)) : Out (List (List NetEv × LoopEnd)) := r.map fun x => x.2.map (·.2)

example : lifeOf ((newServer .io).history [.run [lifeRound] [], .init lifeAddr { demoInit with bind := -1 },
      .run [lifeRound] [], .init lifeAddr demoInit, .run [lifeRound, lifeStop] [], .stop 9 0, .run [] [], .stop 9 0]) =
    .ok [([], .returned kLogicErr), ([.socket 3, .setReuse 3 0, .bind 3 (-1)], .returned kSysErr),
      ([], .returned kLogicErr),
      ([.socket 3, .setReuse 3 0, .bind 3 0, .listen 3 10 0, .epollCreate 4, .ctlAdd 4 3 0 false], .returned kSuccess),
      ([.wait 4 [(3, bitsIn)], .accept 3 5, .ctlAdd 4 5 0 false, .call (.user 0) .accept 5,
        .wait 4 [(5, bitsIn)], .call (.user 0) .read 5], .returned kSuccess),
      ([.close 3, .close 4], .returned kSuccess), ([], .returned kLogicErr), ([], .returned kSuccess)] := by
  decide +kernel

example : ((newServer .io).history [.init lifeAddr demoInit]).map (fun x => started x.2) = .ok true ∧
    ((newServer .mixed).history [.init lifeAddr demoInit, .initSSL lifeAddr (some 1) lifeInit2]).map
      (fun x => started x.2) = .ok true ∧
    ((newServer .io).history [.init lifeAddr demoInit, .stop 9 0]).map (fun x => started x.2) = .ok false := by
  decide +kernel

example : OwnActs [lifeRound, lifeStop] [] ∧ SameMode (.init lifeAddr demoInit) := by
  refine ⟨⟨?_, by simp, ?_, by simp⟩, trivial⟩ <;>
  · intro r hr evs he x hx
    simp only [List.mem_cons, List.not_mem_nil, or_false] at hr
    rcases hr with rfl | rfl <;>
    · simp only [lifeRound, lifeStop, WaitRes.events.injEq] at he
      subst he
      simp only [List.mem_cons, List.not_mem_nil, or_false] at hx
      subst hx
      simp

/-! ### C114 -/

theorem history_fold {α : Type} (f : α → HttpOp × List NetEv × LoopEnd → α) (g : HttpSrv → α)
    (step : ∀ h op h' t o, h.apply op = .ok (h', t, o) → g h' = f (g h) (op, t, o)) {ops : List HttpOp} :
    ∀ {h h' : HttpSrv} {log : HttpLog}, h.history ops = .ok (h', log) → g h' = log.foldl f (g h) := by
  induction ops with
  | nil => intro h h' log e; cases e; rfl
  | cons op ops ih =>
    intro h h' log e
    simp only [HttpSrv.history] at e
    obtain ⟨⟨h1, t, o⟩, e1, e⟩ := bind_ok e
    have s1 := step _ _ _ _ _ e1
    simp only at e
    by_cases hw : o = .waiting
    · rw [if_pos hw] at e; cases e; simpa using s1
    · rw [if_neg hw] at e
      obtain ⟨⟨h2, l2⟩, e2, e⟩ := bind_ok e
      cases e
      rw [List.foldl_cons, ← s1]
      exact ih e2

theorem httpInit_keeps (h : HttpSrv) (addr : Address) (a : InitAns) :
    (httpInit h addr a).1.ssl = h.ssl ∧ (httpInit h addr a).1.readTimeout = h.readTimeout ∧
    (httpInit h addr a).1.writeTimeout = h.writeTimeout := by
  unfold httpInit
  simp only
  split <;> exact ⟨rfl, rfl, rfl⟩

theorem httpRun_keeps {h h' : HttpSrv} {rounds : List Round} {mt : List MtRound} {t : List NetEv} {o : LoopEnd}
    (e : httpRun h rounds mt = .ok (h', t, o)) :
    h'.ssl = h.ssl ∧ h'.readTimeout = h.readTimeout ∧ h'.writeTimeout = h.writeTimeout := by
  unfold httpRun at e
  split at e
  · cases e; exact ⟨rfl, rfl, rfl⟩
  · obtain ⟨⟨s, t1, o1⟩, _, e⟩ := bind_ok e
    cases e; exact ⟨rfl, rfl, rfl⟩

theorem httpStop_keeps {h h' : HttpSrv} {soc conn : Int} {t : List NetEv} {o : LoopEnd}
    (e : h.apply (.stop soc conn) = .ok (h', t, o)) :
    h'.ssl = h.ssl ∧ h'.readTimeout = h.readTimeout ∧ h'.writeTimeout = h.writeTimeout := by
  simp only [HttpSrv.apply, httpStop] at e
  split at e
  · cases e; exact ⟨rfl, rfl, rfl⟩
  · cases hs : tcpStop h.srv with
    | error x => rw [hs] at e; cases e
    | ok s => rw [hs] at e; cases e; exact ⟨rfl, rfl, rfl⟩

theorem httpInitSSL_keeps (h : HttpSrv) (addr : Address) (c : Option Nat) (a : InitAns) :
    (httpInitSSL h addr c a).1.readTimeout = h.readTimeout ∧ (httpInitSSL h addr c a).1.writeTimeout = h.writeTimeout := by
  have := httpInit_keeps h addr a
  unfold httpInitSSL
  split
  · exact ⟨rfl, rfl⟩
  · cases c with
    | none => exact ⟨rfl, rfl⟩
    | some c => simp only; split <;> exact this.2

/-- The context in use is that of the last `InitSSL` that succeeded. -/
theorem ssl_last {ops : List HttpOp} {h : HttpSrv} {log : HttpLog} {m : SrvMode}
    (e : (newServer m).history ops = .ok (h, log)) : h.ssl = lastContext log := by
  refine history_fold _ (·.ssl) ?_ e
  intro h op h' t o e
  cases op with
  | init addr a => cases e; exact (httpInit_keeps h addr a).1
  | initSSL addr c a =>
    simp only [HttpSrv.apply, Except.ok.injEq, Prod.mk.injEq] at e
    obtain ⟨rfl, rfl, rfl⟩ := e
    by_cases hm : h.srv.mode = .mixed
    · have q : httpInitSSL h addr c a = (h, kNotSupport, []) := by unfold httpInitSSL; rw [if_pos hm]
      rw [q]; cases c <;> simp [kNotSupport, kSuccess]
    · cases c with
      | none =>
        have q : httpInitSSL h addr none a = (h, kLogicErr, []) := by unfold httpInitSSL; rw [if_neg hm]
        rw [q]
      | some c =>
        by_cases h2 : (httpInit h addr a).2.1 = kSuccess
        · have q : httpInitSSL h addr (some c) a =
              ({ (httpInit h addr a).1 with ssl := some c }, kSuccess, (httpInit h addr a).2.2) := by
            unfold httpInitSSL; rw [if_neg hm]; simp only; rw [if_neg (by simp [h2])]
          rw [q]; simp
        · have q : httpInitSSL h addr (some c) a = httpInit h addr a := by
            unfold httpInitSSL; rw [if_neg hm]; simp only; rw [if_pos h2]
          rw [q]; simp [h2, (httpInit_keeps h addr a).1]
  | run rounds mt => exact (httpRun_keeps e).1
  | stop soc conn => exact (httpStop_keeps e).1
  | setReadTimeout s u => cases e; rfl
  | setWriteTimeout s u => cases e; rfl
  | setMode m => cases e; rfl

/-- C114, what holds: after whatever calls, a new connection is served over TLS exactly if some `InitSSL` has succeeded,
with the context of the last one that has; the connection is kept exactly when the handshake completes, and closed
otherwise. -/
theorem C114_protocol_partial (m : SrvMode) (ops : List HttpOp) (h : HttpSrv) (log : HttpLog)
    (e : (newServer m).history ops = .ok (h, log)) (fd : Int) (ok : Bool) :
    (∀ c f b, .handshake c f b ∈ httpAccept h fd kSuccess ok ↔ lastContext log = some c ∧ f = fd ∧ b = ok) ∧
    (.close fd ∈ httpAccept h fd kSuccess ok ↔ lastContext log ≠ none ∧ ok = false) := by
  rw [← ssl_last e]
  have h1 : ∀ (P : Prop) [Decidable P] (s u : Int) (x : AccEv), (∀ s u, x ≠ .setRecv fd s u) →
      x ∉ (if P then [AccEv.setRecv fd s u] else []) := by intro P _ s u x hx; split <;> simp [hx]
  have h2 : ∀ (P : Prop) [Decidable P] (s u : Int) (x : AccEv), (∀ s u, x ≠ .setSend fd s u) →
      x ∉ (if P then [AccEv.setSend fd s u] else []) := by intro P _ s u x hx; split <;> simp [hx]
  unfold httpAccept
  rw [if_neg (by simp)]
  cases hs : h.ssl with
  | none =>
    constructor
    · intro c f b
      simp [h1, h2]
    · simp [h1, h2]
  | some c =>
    constructor
    · intro c' f b
      cases ok <;> simp [h1, h2, eq_comm]
    · cases ok <;> simp [h1, h2]

/-- A refused `InitSSL` (mixed mode, or no context) does nothing and changes nothing. -/
theorem C114_refused_partial (h : HttpSrv) (addr : Address) (c : Option Nat) (a : InitAns)
    (hr : h.srv.mode = .mixed ∨ c = none) : ∃ rc, rc < 0 ∧ h.apply (.initSSL addr c a) = .ok (h, [], .returned rc) := by
  simp only [HttpSrv.apply, httpInitSSL]
  by_cases hm : h.srv.mode = .mixed
  · exact ⟨kNotSupport, by decide, by rw [if_pos hm]⟩
  · rcases hr with hr | rfl
    · exact absurd hr hm
    · exact ⟨kLogicErr, by decide, by rw [if_neg hm]⟩

/-- What `HandleAccept` does with connection 5 after a history. -/
def acceptAfter (r : Out (HttpSrv × HttpLog)) (ok : Bool) : Out (List AccEv) := r.map fun x => httpAccept x.1 5 kSuccess ok

example : acceptAfter ((newServer .io).history [.initSSL lifeAddr (some 1) demoInit]) true =
      .ok [.getAddr 5 0, .handshake 1 5 true, .keep 5] ∧
    acceptAfter ((newServer .io).history [.initSSL lifeAddr (some 1) demoInit]) false =
      .ok [.getAddr 5 0, .handshake 1 5 false, .unwatch 5, .close 5] ∧
    acceptAfter ((newServer .io).history [.init lifeAddr demoInit]) true = .ok [.getAddr 5 0] := by decide +kernel

/-- C114 is false: a server that was started with `InitSSL`, stopped, and started again with `Init` still does TLS, so
clients of plain HTTP are turned away; and in this way TLS is also done in mixed mode, which `InitSSL` refuses. -/
theorem C114_stays_tls_refuted :
    acceptAfter ((newServer .io).history [.initSSL lifeAddr (some 1) demoInit, .stop 9 0, .init lifeAddr lifeInit2]) false =
      .ok [.getAddr 5 0, .handshake 1 5 false, .unwatch 5, .close 5] ∧
    acceptAfter ((newServer .io).history [.initSSL lifeAddr (some 1) demoInit, .stop 9 0, .setMode .mixed,
      .init lifeAddr lifeInit2]) true = .ok [.getAddr 5 0, .handshake 1 5 true, .keep 5] ∧
    ((newServer .io).history [.initSSL lifeAddr (some 1) demoInit, .stop 9 0, .setMode .mixed,
      .init lifeAddr lifeInit2]).map (fun x => (started x.2, x.1.srv.mode)) = .ok (true, .mixed) := by
  decide +kernel

/-! ### C115 -/

theorem readTimeout_last {ops : List HttpOp} {h : HttpSrv} {log : HttpLog} {m : SrvMode}
    (e : (newServer m).history ops = .ok (h, log)) :
    h.readTimeout = httpTimeout (lastReadTimeout log).1 (lastReadTimeout log).2 := by
  have key : ∀ {ops : List HttpOp} {h h' : HttpSrv} {log : HttpLog} (p : Nat × Nat), h.readTimeout = httpTimeout p.1 p.2 →
      h.history ops = .ok (h', log) → ∃ q : Nat × Nat, q = log.foldl (fun c x => match x.1 with
        | .setReadTimeout s u => (s, u) | _ => c) p ∧ h'.readTimeout = httpTimeout q.1 q.2 := by
    intro ops
    induction ops with
    | nil => intro h h' log p hp e; cases e; exact ⟨p, rfl, hp⟩
    | cons op ops ih =>
      intro h h' log p hp e
      simp only [HttpSrv.history] at e
      obtain ⟨⟨h1, t, o⟩, e1, e⟩ := bind_ok e
      have s1 : h1.readTimeout = httpTimeout (match op with | .setReadTimeout s u => (s, u) | _ => p).1
          (match op with | .setReadTimeout s u => (s, u) | _ => p).2 := by
        cases op with
        | init addr a => cases e1; rw [← hp]; exact (httpInit_keeps h addr a).2.1
        | initSSL addr c a => cases e1; rw [← hp]; exact (httpInitSSL_keeps h addr c a).1
        | run rounds mt => rw [← hp]; exact (httpRun_keeps e1).2.1
        | stop soc conn => rw [← hp]; exact (httpStop_keeps e1).2.1
        | setReadTimeout s u => cases e1; rfl
        | setWriteTimeout s u => cases e1; exact hp
        | setMode m => cases e1; exact hp
      simp only at e
      by_cases hw : o = .waiting
      · rw [if_pos hw] at e; cases e; exact ⟨_, rfl, s1⟩
      · rw [if_neg hw] at e
        obtain ⟨⟨h2, l2⟩, e2, e⟩ := bind_ok e
        cases e
        rw [List.foldl_cons]
        exact ih _ s1 e2
  obtain ⟨q, rfl, hq⟩ := key (0, 0) (by rfl) e
  exact hq

theorem writeTimeout_last {ops : List HttpOp} {h : HttpSrv} {log : HttpLog} {m : SrvMode}
    (e : (newServer m).history ops = .ok (h, log)) :
    h.writeTimeout = httpTimeout (lastWriteTimeout log).1 (lastWriteTimeout log).2 := by
  have key : ∀ {ops : List HttpOp} {h h' : HttpSrv} {log : HttpLog} (p : Nat × Nat), h.writeTimeout = httpTimeout p.1 p.2 →
      h.history ops = .ok (h', log) → ∃ q : Nat × Nat, q = log.foldl (fun c x => match x.1 with
        | .setWriteTimeout s u => (s, u) | _ => c) p ∧ h'.writeTimeout = httpTimeout q.1 q.2 := by
    intro ops
    induction ops with
    | nil => intro h h' log p hp e; cases e; exact ⟨p, rfl, hp⟩
    | cons op ops ih =>
      intro h h' log p hp e
      simp only [HttpSrv.history] at e
      obtain ⟨⟨h1, t, o⟩, e1, e⟩ := bind_ok e
      have s1 : h1.writeTimeout = httpTimeout (match op with | .setWriteTimeout s u => (s, u) | _ => p).1
          (match op with | .setWriteTimeout s u => (s, u) | _ => p).2 := by
        cases op with
        | init addr a => cases e1; rw [← hp]; exact (httpInit_keeps h addr a).2.2
        | initSSL addr c a => cases e1; rw [← hp]; exact (httpInitSSL_keeps h addr c a).2
        | run rounds mt => rw [← hp]; exact (httpRun_keeps e1).2.2
        | stop soc conn => rw [← hp]; exact (httpStop_keeps e1).2.2
        | setReadTimeout s u => cases e1; exact hp
        | setWriteTimeout s u => cases e1; rfl
        | setMode m => cases e1; exact hp
      simp only at e
      by_cases hw : o = .waiting
      · rw [if_pos hw] at e; cases e; exact ⟨_, rfl, s1⟩
      · rw [if_neg hw] at e
        obtain ⟨⟨h2, l2⟩, e2, e⟩ := bind_ok e
        cases e
        rw [List.foldl_cons]
        exact ih _ s1 e2
  obtain ⟨q, rfl, hq⟩ := key (0, 0) (by rfl) e
  exact hq

/-- What the system makes of a pair kept by `SetReadTimeout`. -/
theorem timeo_exact (sec usec : Nat) (hs : sec < 2 ^ 32) (hu : usec < 2 ^ 32) :
    (if (httpTimeout sec usec).1 ≠ 0 ∨ (httpTimeout sec usec).2 ≠ 0 then
        setTimeo .forever (httpTimeout sec usec).1 (httpTimeout sec usec).2 else .forever) = wanted (sec, usec) ↔
      sec < 2 ^ 31 ∧ usec < 1000000 := by
  have t : ∀ n : Nat, n < 2 ^ 32 → (n < 2 ^ 31 ∧ toInt32 n = n) ∨ (2 ^ 31 ≤ n ∧ toInt32 n = (n : Int) - 2 ^ 32) := by
    intro n hn
    unfold toInt32
    rw [Nat.mod_eq_of_lt hn]
    by_cases h : n < 2 ^ 31
    · exact Or.inl ⟨h, by simp [h]⟩
    · exact Or.inr ⟨by omega, by simp [h]⟩
  have hp : httpTimeout sec usec = (toInt32 sec, toInt32 usec) := rfl
  rw [hp]
  unfold setTimeo wanted
  rcases t sec hs with ⟨h1, e1⟩ | ⟨h1, e1⟩ <;> rcases t usec hu with ⟨h2, e2⟩ | ⟨h2, e2⟩ <;> rw [e1, e2] <;>
    simp only [Prod.mk.injEq]
  · by_cases h0 : sec = 0 ∧ usec = 0
    · simp [h0.1, h0.2]
    · rw [if_neg h0, if_pos (by omega)]
      by_cases h3 : usec < 1000000
      · rw [if_neg (by omega), if_neg (by omega), if_neg (by omega)]
        refine iff_of_true (congrArg _ (by omega)) ⟨h1, h3⟩
      · rw [if_pos (by omega)]
        simp [h3]
  · rw [if_pos (by omega), if_pos (by omega), if_neg (by omega)]
    refine iff_of_false (by simp) (by omega)
  · rw [if_pos (by omega)]
    by_cases h3 : usec < 1000000
    · rw [if_neg (by omega), if_pos (by omega), if_neg (by omega)]
      refine iff_of_false (by simp) (by omega)
    · rw [if_pos (by omega), if_neg (by omega)]
      refine iff_of_false (by simp) (by omega)
  · rw [if_pos (by omega), if_pos (by omega), if_neg (by omega)]
    refine iff_of_false (by simp) (by omega)

theorem patience_accept (h : HttpSrv) (fd : Int) (ok : Bool) :
    recvPatience (httpAccept h fd kSuccess ok) =
      (if h.readTimeout.1 ≠ 0 ∨ h.readTimeout.2 ≠ 0 then setTimeo .forever h.readTimeout.1 h.readTimeout.2 else .forever) ∧
    sendPatience (httpAccept h fd kSuccess ok) =
      (if h.writeTimeout.1 ≠ 0 ∨ h.writeTimeout.2 ≠ 0 then setTimeo .forever h.writeTimeout.1 h.writeTimeout.2
       else .forever) := by
  unfold httpAccept
  rw [if_neg (by simp)]
  by_cases h1 : h.readTimeout.1 ≠ 0 ∨ h.readTimeout.2 ≠ 0 <;>
  by_cases h2 : h.writeTimeout.1 ≠ 0 ∨ h.writeTimeout.2 ≠ 0 <;>
  rcases h.ssl with _ | c <;> cases ok <;>
  (first | rw [if_pos h1, if_pos h1] | rw [if_neg h1, if_neg h1]) <;>
  (first | rw [if_pos h2, if_pos h2] | rw [if_neg h2, if_neg h2]) <;>
  exact ⟨rfl, rfl⟩

/-- C115, exactly when it holds: after whatever calls, the reads of a new connection wait as long as the last
`SetReadTimeout` says (for ever if it says 0, or was not called), and its writes as long as the last
`SetWriteTimeout` says, if and only if the seconds are less than 2^31 and the microseconds less than a million. -/
theorem C115_timeouts_partial (m : SrvMode) (ops : List HttpOp) (h : HttpSrv) (log : HttpLog)
    (e : (newServer m).history ops = .ok (h, log)) (fd : Int) (ok : Bool)
    (hr : (lastReadTimeout log).1 < 2 ^ 32 ∧ (lastReadTimeout log).2 < 2 ^ 32)
    (hw : (lastWriteTimeout log).1 < 2 ^ 32 ∧ (lastWriteTimeout log).2 < 2 ^ 32) :
    (recvPatience (httpAccept h fd kSuccess ok) = wanted (lastReadTimeout log) ↔
      (lastReadTimeout log).1 < 2 ^ 31 ∧ (lastReadTimeout log).2 < 1000000) ∧
    (sendPatience (httpAccept h fd kSuccess ok) = wanted (lastWriteTimeout log) ↔
      (lastWriteTimeout log).1 < 2 ^ 31 ∧ (lastWriteTimeout log).2 < 1000000) := by
  rw [(patience_accept h fd ok).1, (patience_accept h fd ok).2, readTimeout_last e, writeTimeout_last e]
  exact ⟨timeo_exact _ _ hr.1 hr.2, timeo_exact _ _ hw.1 hw.2⟩

/-- What follows the only handshake of a list. -/
theorem after_first {A : List AccEv} (hA : ∀ x ∈ A, ∀ c f b, x ≠ .handshake c f b) {B : List AccEv}
    (hB : ∀ x ∈ B, ∀ c f b, x ≠ .handshake c f b) {c c' : Nat} {f f' : Int} {b b' : Bool} : ∀ {pre post : List AccEv},
    A ++ .handshake c' f' b' :: B = pre ++ .handshake c f b :: post → post = B := by
  induction A with
  | nil =>
    intro pre post e
    cases pre with
    | nil => simp only [List.nil_append, List.cons.injEq] at e; exact e.2.symm
    | cons x pre =>
      simp only [List.nil_append, List.cons_append, List.cons.injEq] at e
      exact absurd rfl (hB (.handshake c f b) (by rw [e.2]; simp) c f b)
  | cons y A ih =>
    intro pre post e
    cases pre with
    | nil =>
      simp only [List.nil_append, List.cons_append, List.cons.injEq] at e
      exact absurd e.1 (hA y (by simp) c f b)
    | cons x pre =>
      simp only [List.cons_append, List.cons.injEq] at e
      exact ih (fun x hx => hA x (by simp [hx])) e.2

/-- The timeouts are in force before the TLS handshake: a client that does not answer cannot hold it up for ever. -/
theorem C115_before_handshake_partial (h : HttpSrv) (fd addrRc : Int) (ok : Bool) (pre post : List AccEv) (c : Nat) (f : Int)
    (b : Bool) (e : httpAccept h fd addrRc ok = pre ++ .handshake c f b :: post) :
    recvPatience pre = recvPatience (httpAccept h fd addrRc ok) ∧
    sendPatience pre = sendPatience (httpAccept h fd addrRc ok) := by
  have post_quiet : ∀ x ∈ post, x = .keep fd ∨ x = .unwatch fd ∨ x = .close fd := by
    unfold httpAccept at e
    by_cases ha : addrRc ≠ kSuccess
    · rw [if_pos ha] at e
      have : .handshake c f b ∈ pre ++ .handshake c f b :: post := by simp
      rw [← e] at this
      simp at this
    · rw [if_neg ha] at e
      rcases hs : h.ssl with _ | c'
      · have : .handshake c f b ∈ pre ++ .handshake c f b :: post := by simp
        rw [← e, hs] at this
        simp at this
      · rw [hs] at e
        have hne : ∀ x ∈ (AccEv.getAddr fd addrRc ::
            (if h.readTimeout.1 ≠ 0 ∨ h.readTimeout.2 ≠ 0 then [AccEv.setRecv fd h.readTimeout.1 h.readTimeout.2] else []) ++
            (if h.writeTimeout.1 ≠ 0 ∨ h.writeTimeout.2 ≠ 0 then [AccEv.setSend fd h.writeTimeout.1 h.writeTimeout.2]
             else [])), ∀ c f b, x ≠ .handshake c f b := by
          intro x hx c f b hh
          subst hh
          simp at hx
        cases ok with
        | true =>
          have := after_first hne (B := [.keep fd]) (by simp) e
          intro x hx
          rw [this] at hx
          exact Or.inl (by simpa using hx)
        | false =>
          have := after_first hne (B := [.unwatch fd, .close fd]) (by simp) e
          intro x hx
          rw [this] at hx
          exact Or.inr (by simpa using hx)
  rw [e]
  unfold recvPatience sendPatience
  rw [List.foldl_append, List.foldl_append, List.foldl_cons, List.foldl_cons]
  have key : ∀ (l : List AccEv), (∀ x ∈ l, x = .keep fd ∨ x = .unwatch fd ∨ x = .close fd) → ∀ p : Patience,
      l.foldl (fun p e => match e with | .setRecv _ s u => setTimeo p s u | _ => p) p = p ∧
      l.foldl (fun p e => match e with | .setSend _ s u => setTimeo p s u | _ => p) p = p := by
    intro l
    induction l with
    | nil => intro _ p; exact ⟨rfl, rfl⟩
    | cons x l ih =>
      intro hx p
      have := ih (fun y hy => hx y (by simp [hy])) p
      rcases hx x (by simp) with rfl | rfl | rfl <;> simpa using this
  exact ⟨(key post post_quiet _).1.symm, (key post post_quiet _).2.symm⟩

example : (((newServer .io).history [.setReadTimeout 3 500000, .setWriteTimeout 0 1, .setReadTimeout 2 0,
      .initSSL lifeAddr (some 1) demoInit]).map fun x =>
      (httpAccept x.1 5 kSuccess true, recvPatience (httpAccept x.1 5 kSuccess true),
        sendPatience (httpAccept x.1 5 kSuccess true), lastReadTimeout x.2)) =
    .ok ([.getAddr 5 0, .setRecv 5 2 0, .setSend 5 0 1, .handshake 1 5 true, .keep 5], .micros 2000000, .micros 1, (2, 0)) := by
  decide +kernel

/-- C115 is false: two million microseconds are refused by the system, nobody looks at the result, and reads wait for
ever; 2^31 seconds make reads not wait at all. -/
theorem C115_timeouts_refuted :
    (((newServer .io).history [.setReadTimeout 0 2000000, .init lifeAddr demoInit]).map fun x =>
      (recvPatience (httpAccept x.1 5 kSuccess true), wanted (lastReadTimeout x.2))) = .ok (.forever, .micros 2000000) ∧
    (((newServer .io).history [.setReadTimeout (2 ^ 31) 0, .init lifeAddr demoInit]).map fun x =>
      recvPatience (httpAccept x.1 5 kSuccess true)) = .ok .notAtAll := by
  decide +kernel

/-! ### C116 -/

/-- C116, what holds: as long as the mode is not changed, no sequence of calls on an `HttpServer` (in whatever order,
whatever the system answers) goes through a null pointer or an empty callback. -/
theorem C116_no_crash_partial (m : SrvMode) (hr : m ≠ .other) (ops : List HttpOp) (ho : ∀ op ∈ ops, SameMode op) :
    ∃ h log, (newServer m).history ops = .ok (h, log) := by
  obtain ⟨h, log, e, _⟩ := srvLife_history hr (newServer_inv m) ho
  exact ⟨h, log, e⟩

/-- C116 is false: changing the mode of a server that has been started makes `Run` or `Stop` go through a null
pointer. -/
theorem C116_mode_refuted :
    lifeOf ((newServer .io).history [.init lifeAddr demoInit, .setMode .multiThread, .run [] [⟨some 5, false, []⟩]]) = .error .ub ∧
    lifeOf ((newServer .multiThread).history [.init lifeAddr demoInit, .setMode .io, .stop 9 0]) = .error .ub := by
  decide +kernel

/-! ### C117 -/

theorem owned_run {l ep : Int} {h h' : HttpSrv} {op : HttpOp} {tr t : List NetEv} {o : LoopEnd} (hw : Owned l ep h.srv tr)
    (hn : NoStart op) (e : h.apply op = .ok (h', t, o)) : Owned l ep h'.srv (tr ++ t) := by
  cases op with
  | init addr a => exact absurd hn id
  | initSSL addr c a => exact absurd hn id
  | run rounds mt =>
    simp only [HttpSrv.apply, httpRun] at e
    split at e
    · cases e; exact hw.more []
    · obtain ⟨⟨s1, t1, o1⟩, e1, e⟩ := bind_ok e
      cases e
      exact (hw.kept (eventLoop_rel kept_rel (roundsAny _) (fun _ _ => trivial) e1).1).more _
  | stop soc conn =>
    simp only [HttpSrv.apply, httpStop] at e
    split at e
    · cases e; exact hw.more []
    · cases hs : tcpStop h.srv with
      | error x => rw [hs] at e; cases e
      | ok s =>
        rw [hs] at e
        cases e
        have := (owned_clean ((hw.kept (tcpStop_kept hs)).more (tcpWakeUp s soc conn).2)).1
        rw [List.append_assoc] at this
        exact this
  | setReadTimeout s u => cases e; exact hw.more []
  | setWriteTimeout s u => cases e; exact hw.more []
  | setMode m => cases e; exact Owned.more (show Owned l ep { h.srv with mode := m } tr from hw) []

theorem cont_run {h h' : HttpSrv} {op : HttpOp} {t : List NetEv} {o : LoopEnd} (hn : NoStart op)
    (e : h.apply op = .ok (h', t, o)) : h'.cont = true → h.cont = true := by
  cases op with
  | init addr a => exact absurd hn id
  | initSSL addr c a => exact absurd hn id
  | run rounds mt =>
    simp only [HttpSrv.apply, httpRun] at e
    split at e
    · cases e; exact id
    · obtain ⟨⟨s1, t1, o1⟩, e1, e⟩ := bind_ok e
      cases e; exact id
  | stop soc conn =>
    simp only [HttpSrv.apply, httpStop] at e
    split at e
    · cases e; exact id
    · cases hs : tcpStop h.srv with
      | error x => rw [hs] at e; cases e
      | ok s => rw [hs] at e; cases e; intro h; cases h
  | setReadTimeout s u => cases e; exact id
  | setWriteTimeout s u => cases e; exact id
  | setMode m => cases e; exact id

/-- Held by a server that was started and perhaps stopped since: if it is stopped, all is closed. -/
def Released (l ep : Int) (h : HttpSrv) (tr : List NetEv) : Prop :=
  Owned l ep h.srv tr ∧ (h.cont = false → .close l ∈ tr ∧ .close ep ∈ tr)

theorem released_history {l ep : Int} {ops : List HttpOp} : ∀ {h h' : HttpSrv} {tr : List NetEv} {log : HttpLog},
    Released l ep h tr → (∀ op ∈ ops, NoStart op) → h.history ops = .ok (h', log) →
    Released l ep h' (tr ++ allEvents log) := by
  induction ops with
  | nil => intro h h' tr log hr _ e; cases e; simpa [allEvents] using hr
  | cons op ops ih =>
    intro h h' tr log hr hn e
    simp only [HttpSrv.history] at e
    obtain ⟨⟨h1, t, o⟩, e1, e⟩ := bind_ok e
    have r1 : Released l ep h1 (tr ++ t) := by
      refine ⟨owned_run hr.1 (hn op (by simp)) e1, fun hc => ?_⟩
      by_cases hc0 : h.cont = false
      · have := hr.2 hc0
        exact ⟨List.mem_append_left _ this.1, List.mem_append_left _ this.2⟩
      · cases op with
        | init addr a => exact (hn (.init addr a) (by simp)).elim
        | initSSL addr c a => exact (hn (.initSSL addr c a) (by simp)).elim
        | run rounds mt =>
          simp only [HttpSrv.apply, httpRun] at e1
          rw [if_neg (by simpa using hc0)] at e1
          obtain ⟨⟨s1, t1, o1⟩, _, e1⟩ := bind_ok e1
          cases e1; exact absurd hc hc0
        | stop soc conn =>
          simp only [HttpSrv.apply, httpStop] at e1
          rw [if_neg (by simpa using hc0)] at e1
          cases hs : tcpStop h.srv with
          | error x => rw [hs] at e1; cases e1
          | ok s =>
            rw [hs] at e1
            cases e1
            have := (owned_clean ((hr.1.kept (tcpStop_kept hs)).more (tcpWakeUp s soc conn).2)).2
            rw [List.append_assoc] at this
            exact this
        | setReadTimeout s u => cases e1; exact absurd hc hc0
        | setWriteTimeout s u => cases e1; exact absurd hc hc0
        | setMode m => cases e1; exact absurd hc hc0
    simp only at e
    by_cases hw : o = .waiting
    · rw [if_pos hw] at e; cases e; simpa [allEvents] using r1
    · rw [if_neg hw] at e
      obtain ⟨⟨h2, l2⟩, e2, e⟩ := bind_ok e
      cases e
      have := ih r1 (fun op' h' => hn op' (by simp [h'])) e2
      simpa [allEvents] using this

/-- C117, what holds (I/O multiplexing mode): whatever happened before, after a successful start and any calls except
another start, `Stop` (at any moment, also while `Run` waits) has closed the listening socket and the epoll descriptor
of this start, and it closes nothing but these (and the socket it wakes the loop with); a second `Stop`, or the destructor, does nothing more. -/
theorem C117_stop_partial (h0 h1 h h' : HttpSrv) (start : HttpOp) (addr : Address) (c : Nat) (a : InitAns)
    (hst : start = .init addr a ∨ start = .initSSL addr (some c) a) (ops : List HttpOp) (t0 t : List NetEv)
    (log : HttpLog) (soc conn : Int) (hm : h0.srv.mode = .io) (hi : h0.apply start = .ok (h1, t0, .returned kSuccess))
    (hn : ∀ op ∈ ops, NoStart op) (e : h1.history ops = .ok (h, log))
    (hs : h.apply (.stop soc conn) = .ok (h', t, .returned kSuccess)) :
    .close a.socket ∈ t0 ++ allEvents log ++ t ∧ .close a.epoll ∈ t0 ++ allEvents log ++ t ∧
    (∀ fd, .close fd ∈ t → fd = a.socket ∨ fd = a.epoll ∨ fd = soc) ∧
    (∀ soc' conn', h'.apply (.stop soc' conn') = .ok (h', [], .returned kSuccess)) := by
  have hin : h1.srv.listen = ⟨a.socket, .init⟩ ∧ h1.srv.io = some { fd := ⟨a.epoll, .init⟩ } ∧ h1.cont = true := by
    have main : ∀ {g : HttpSrv} {tg : List NetEv}, httpInit h0 addr a = (g, kSuccess, tg) →
        g.srv.listen = ⟨a.socket, .init⟩ ∧ g.srv.io = some { fd := ⟨a.epoll, .init⟩ } ∧ g.cont = true := by
      intro g tg hg
      simp only [httpInit] at hg
      by_cases hk : (tcpInit { h0.srv with addr := addr } a).2.1 = kSuccess
      · rw [if_neg (by simp [hk])] at hg
        obtain ⟨_, _, _, hinit⟩ := tcpInit_io (s := { h0.srv with addr := addr }) hm hk
        rw [hinit] at hg
        cases hg
        exact ⟨rfl, rfl, rfl⟩
      · rw [if_pos hk] at hg
        simp only [Prod.mk.injEq] at hg
        exact absurd hg.2.1 hk
    rcases hst with rfl | rfl
    · simp only [HttpSrv.apply, Except.ok.injEq, Prod.mk.injEq, LoopEnd.returned.injEq] at hi
      exact main (tg := t0) (by rw [← hi.1, ← hi.2.1, ← hi.2.2])
    · simp only [HttpSrv.apply, httpInitSSL] at hi
      rw [if_neg (by simp [hm])] at hi
      by_cases hk : (httpInit h0 addr a).2.1 = kSuccess
      · rw [if_neg (by simp [hk])] at hi
        simp only [Except.ok.injEq, Prod.mk.injEq] at hi
        have := main (g := (httpInit h0 addr a).1) (tg := (httpInit h0 addr a).2.2) (by rw [← hk])
        rw [← hi.1]
        exact this
      · rw [if_pos hk] at hi
        simp only [Except.ok.injEq, Prod.mk.injEq, LoopEnd.returned.injEq] at hi
        exact absurd hi.2.2 hk
  have r0 : Released a.socket a.epoll h1 t0 :=
    ⟨⟨Or.inl hin.1, _, hin.2.1, Or.inl rfl⟩, fun hc => by rw [hin.2.2] at hc; cases hc⟩
  have r1 := released_history r0 hn e
  have e2 : h.history [.stop soc conn] = .ok (h', [(.stop soc conn, t, .returned kSuccess)]) := by
    simp only [HttpSrv.history, hs, bind, Except.bind]
    simp
  have r2 := released_history r1 (by simp [NoStart]) e2
  have hc : h'.cont = false := by
    simp only [HttpSrv.apply, httpStop] at hs
    by_cases hx : (!h.cont) = true
    · rw [if_pos hx] at hs; cases hs; simpa using hx
    · rw [if_neg hx] at hs
      cases hst : tcpStop h.srv with
      | error x => rw [hst] at hs; cases hs
      | ok s => rw [hst] at hs; cases hs; rfl
  have := r2.2 hc
  simp only [allEvents, List.flatMap_cons, List.flatMap_nil, List.append_nil] at this
  refine ⟨this.1, this.2, ?_, fun soc' conn' => ?_⟩
  · intro fd hfd
    simp only [HttpSrv.apply, httpStop] at hs
    by_cases hx : (!h.cont) = true
    · rw [if_pos hx] at hs; cases hs; simp at hfd
    · rw [if_neg hx] at hs
      cases hst : tcpStop h.srv with
      | error x => rw [hst] at hs; cases hs
      | ok s =>
        rw [hst] at hs
        cases hs
        rcases List.mem_append.1 hfd with hw | hw
        · right; right
          unfold tcpWakeUp at hw
          repeat' split at hw
          all_goals simp at hw
          all_goals exact hw
        · obtain ⟨o1, ep, he, o2⟩ := r1.1.kept (tcpStop_kept hst)
          simp only [tcpClean, closeListen, epClose] at hw
          rcases o1 with o1 | o1 <;> rcases o2 with o2 | o2 <;> simp [o1, o2, he] at hw
          · rcases hw with hw | hw
            · exact Or.inl hw
            · exact Or.inr (Or.inl hw)
          · exact Or.inl hw
          · exact Or.inr (Or.inl hw)
  simp only [HttpSrv.apply, httpStop]
  rw [if_pos (by simp [hc])]
  rfl

example : lifeOf ((newServer .io).history [.init lifeAddr demoInit, .setReadTimeout 3 0, .run [lifeRound, lifeStop] [],
      .stop 9 0, .stop 9 0]) =
    .ok [([.socket 3, .setReuse 3 0, .bind 3 0, .listen 3 10 0, .epollCreate 4, .ctlAdd 4 3 0 false], .returned kSuccess),
      ([], .returned kSuccess),
      ([.wait 4 [(3, bitsIn)], .accept 3 5, .ctlAdd 4 5 0 false, .call (.user 0) .accept 5,
        .wait 4 [(5, bitsIn)], .call (.user 0) .read 5], .returned kSuccess),
      ([.close 3, .close 4], .returned kSuccess), ([], .returned kSuccess)] := by decide +kernel

/-- C117 is false: connections that are open when the server is stopped stay open, also when the server object is
destroyed; and `Init` on a running server forgets the descriptors that it has. -/
theorem C117_stop_refuted :
    (∃ tr, ((newServer .io).history [.init lifeAddr demoInit, .run [lifeRound, lifeStop] [], .stop 9 0, .stop 9 0]).map
        (fun x => allEvents x.2) = .ok tr ∧ Possible {} tr ∧ (Kern.run {} tr).opn 5 = true ∧
        (Kern.run {} tr).opn 3 = false ∧ (Kern.run {} tr).opn 4 = false) ∧
    (∃ tr, ((newServer .io).history [.init lifeAddr demoInit, .init lifeAddr lifeInit2, .stop 9 0]).map
        (fun x => allEvents x.2) = .ok tr ∧ Possible {} tr ∧ (Kern.run {} tr).opn 3 = true ∧
        (Kern.run {} tr).opn 4 = true) := by
  refine ⟨⟨[.socket 3, .setReuse 3 0, .bind 3 0, .listen 3 10 0, .epollCreate 4, .ctlAdd 4 3 0 false,
      .wait 4 [(3, bitsIn)], .accept 3 5, .ctlAdd 4 5 0 false, .call (.user 0) .accept 5,
      .wait 4 [(5, bitsIn)], .call (.user 0) .read 5, .close 3, .close 4], ?_⟩,
    [.socket 3, .setReuse 3 0, .bind 3 0, .listen 3 10 0, .epollCreate 4, .ctlAdd 4 3 0 false,
      .socket 7, .setReuse 7 0, .bind 7 0, .listen 7 10 0, .epollCreate 8, .ctlAdd 8 7 0 false, .close 7, .close 8], ?_⟩ <;>
  decide +kernel

end Cppnet
