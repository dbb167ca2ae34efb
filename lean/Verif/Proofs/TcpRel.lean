import Verif.Spec.Tcp

/-!
# What every piece of the server's loops does to the object and adds to the events
-/

namespace Cppnet
open Spec

theorem bind_ok {α β : Type} {x : Out α} {f : α → Out β} {b : β} (h : (x >>= f) = .ok b) :
    ∃ a, x = .ok a ∧ f a = .ok b := by
  cases x with
  | error e => cases h
  | ok a => exact ⟨a, rfl, h⟩

/-- An event that is not a callback; registrations with epoll are level-triggered. -/
def Plain : NetEv → Prop
  | .call .. => False
  | .ctlAdd _ _ _ edge => edge = false
  | _ => True

/-- A relation between the server before and after and the events in between that is kept by everything a
loop does, if the callbacks act as `Ok` says. -/
structure LoopRel (Ok : List CbAct → Prop) (R : TcpSrv → TcpSrv → List NetEv → Prop) : Prop where
  nil : ∀ s, R s s []
  app : ∀ {s s' s'' t t'}, R s s' t → R s' s'' t' → R s s'' (t ++ t')
  stop : ∀ {s s'}, tcpStop s = .ok s' → R s s' []
  call : ∀ {s s' ev fd acts t}, Ok acts → callCb s ev fd acts = .ok (s', t) → R s s' t
  plain : ∀ s e, Plain e → R s s [e]

variable {Ok : List CbAct → Prop} {R : TcpSrv → TcpSrv → List NetEv → Prop}

theorem LoopRel.plains (hR : LoopRel Ok R) (s : TcpSrv) {t : List NetEv} (h : ∀ e ∈ t, Plain e) : R s s t := by
  induction t with
  | nil => exact hR.nil s
  | cons e t ih => exact hR.app (t := [e]) (hR.plain s e (h e (by simp))) (ih fun e' h' => h e' (by simp [h']))

theorem LoopRel.cons (hR : LoopRel Ok R) {s s' : TcpSrv} {e : NetEv} {t : List NetEv} (he : Plain e) (h : R s s' t) :
    R s s' (e :: t) := hR.app (t := [e]) (hR.plain s e he) h

theorem LoopRel.snoc (hR : LoopRel Ok R) {s s' : TcpSrv} {t t' : List NetEv} (ht : ∀ e ∈ t', Plain e) (h : R s s' t) :
    R s s' (t ++ t') := hR.app h (hR.plains s' ht)

theorem epMonitor_plain {e : Ep} {fd nb res : Int} : ∀ x ∈ (epMonitor e fd nb res).2, Plain x := by
  intro x hx
  unfold epMonitor at hx
  rw [if_neg (by decide)] at hx
  simp only [List.mem_singleton] at hx
  subst hx; rfl

theorem tcpRemove_plain {s : TcpSrv} {fd res : Int} : ∀ x ∈ (tcpRemove s fd res).2, Plain x := by
  intro x hx
  unfold tcpRemove at hx
  split at hx <;> simp [epRemove] at hx
  subst hx; trivial

theorem handleAccept_rel (hR : LoopRel Ok R) {s s' : TcpSrv} {a : EvAns} {t : List NetEv} (hn : ∀ ev fd, Ok (a.acts ev fd))
    (h : handleAccept s a = .ok (s', t)) : R s s' t := by
  unfold handleAccept at h
  by_cases h1 : s.listen.status ≠ .init
  · rw [if_pos h1] at h; exact hR.call (hn _ _) h
  · rw [if_neg h1] at h
    by_cases h2 : a.accept < 0
    · rw [if_pos h2] at h
      obtain ⟨⟨s1, t1⟩, e1, h⟩ := bind_ok h
      cases h
      exact hR.cons trivial (hR.call (hn _ _) e1)
    · rw [if_neg h2] at h
      cases hio : s.io with
      | none => rw [hio] at h; cases h
      | some e =>
        rw [hio] at h
        simp only at h
        have pre := hR.cons (s := s) (e := .accept s.listen.fd a.accept) trivial
          (hR.plains s (epMonitor_plain (e := e) (fd := a.accept) (nb := a.noBlock) (res := a.add)))
        by_cases h3 : (epMonitor e a.accept a.noBlock a.add).1 < 0
        · rw [if_pos h3] at h
          obtain ⟨⟨s1, t1⟩, e1, h⟩ := bind_ok h
          cases h
          exact hR.snoc (by simp [Plain]) (hR.app pre (hR.call (hn _ _) e1))
        · rw [if_neg h3] at h
          obtain ⟨⟨s1, t1⟩, e1, h⟩ := bind_ok h
          cases h
          exact hR.app pre (hR.call (hn _ _) e1)

theorem handleGone_rel (hR : LoopRel Ok R) {s s' : TcpSrv} {a : EvAns} {ev : SrvEvent} {fd : Int} {t : List NetEv}
    (hn : ∀ ev fd, Ok (a.acts ev fd)) (h : handleGone s ev fd a = .ok (s', t)) : R s s' t := by
  unfold handleGone at h
  obtain ⟨⟨s1, t1⟩, e1, h⟩ := bind_ok h
  cases h
  exact hR.snoc (by simp [Plain]) (hR.snoc tcpRemove_plain (hR.call (hn _ _) e1))

theorem ioEvent_rel (hR : LoopRel Ok R) {s s' : TcpSrv} {a : EvAns} {ev : SrvEvent} {fd : Int} {t : List NetEv}
    (hn : ∀ ev fd, Ok (a.acts ev fd)) (h : ioEvent s fd ev a = .ok (s', t)) : R s s' t := by
  unfold ioEvent at h
  by_cases h1 : fd = s.listen.fd
  · rw [if_pos h1] at h; exact handleAccept_rel hR hn h
  · rw [if_neg h1] at h
    cases ev with
    | leave => exact handleGone_rel hR hn h
    | error => exact handleGone_rel hR hn h
    | accept => cases h; exact hR.nil _
    | read =>
      by_cases h2 : s.mode = .mixed
      · simp only [if_pos h2] at h
        obtain ⟨_, _, h⟩ := bind_ok h
        cases h; exact hR.plain _ _ trivial
      · simp only [if_neg h2] at h; exact hR.call (hn _ _) h

theorem ioBatch_rel (hR : LoopRel Ok R) {evs : List (Int × EpBits × EvAns)} : ∀ {s s' : TcpSrv} {t : List NetEv},
    (∀ x ∈ evs, ∀ ev fd, Ok (x.2.2.acts ev fd)) → ioBatch s evs = .ok (s', t) → R s s' t := by
  induction evs with
  | nil => intro s s' t _ h; cases h; exact hR.nil _
  | cons x evs ih =>
    obtain ⟨fd, b, a⟩ := x
    intro s s' t hn h
    simp only [ioBatch] at h
    cases hev : epEvent b with
    | none => rw [hev] at h; exact ih (fun x hx => hn x (by simp [hx])) h
    | some ev =>
      rw [hev] at h
      obtain ⟨⟨s1, t1⟩, e1, h⟩ := bind_ok h
      obtain ⟨⟨s2, t2⟩, e2, h⟩ := bind_ok h
      cases h
      exact hR.app (ioEvent_rel hR (hn (fd, b, a) (by simp)) e1) (ih (fun x hx => hn x (by simp [hx])) e2)

theorem stopIf_rel (hR : LoopRel Ok R) {b : Bool} {s s' : TcpSrv} (h : stopIf b s = .ok s') : R s s' [] := by
  cases b with
  | false => cases h; exact hR.nil _
  | true => exact hR.stop h

/-- The callbacks of a loop act as `Ok` says. -/
def RoundsOk (Ok : List CbAct → Prop) (rounds : List Round) : Prop :=
  ∀ r ∈ rounds, ∀ evs, r.res = .events evs → ∀ x ∈ evs, ∀ ev fd, Ok (x.2.2.acts ev fd)

theorem ioLoop_rel (hR : LoopRel Ok R) {rounds : List Round} : ∀ {s s' : TcpSrv} {t : List NetEv} {o : LoopEnd},
    RoundsOk Ok rounds → ioLoop s rounds = .ok (s', t, o) → R s s' t := by
  induction rounds with
  | nil =>
    intro s s' t o _ h
    simp only [ioLoop] at h
    split at h
    · cases h
    · cases h; exact hR.nil _
  | cons r rs ih =>
    intro s s' t o hn h
    have hn' : RoundsOk Ok rs := fun r' h' => hn r' (List.mem_cons_of_mem _ h')
    simp only [ioLoop] at h
    cases hio : s.io with
    | none => rw [hio] at h; cases h
    | some e =>
      rw [hio] at h
      simp only at h
      by_cases hl : e.loop = true
      · rw [if_pos hl] at h
        cases hres : r.res with
        | never =>
          rw [hres] at h
          obtain ⟨s1, e1, h⟩ := bind_ok h
          cases h
          exact stopIf_rel hR e1
        | intr =>
          rw [hres] at h
          obtain ⟨s1, e1, h⟩ := bind_ok h
          obtain ⟨⟨s2, t2, o2⟩, e2, h⟩ := bind_ok h
          cases h
          exact hR.cons trivial (hR.app (t := []) (stopIf_rel hR e1) (ih hn' e2))
        | fail =>
          rw [hres] at h
          cases h
          exact hR.plain _ _ trivial
        | events evs =>
          rw [hres] at h
          obtain ⟨⟨s0, t0⟩, e0, h⟩ := bind_ok h
          obtain ⟨s1, e1, h⟩ := bind_ok h
          obtain ⟨⟨s2, t2, o2⟩, e2, h⟩ := bind_ok h
          cases h
          exact hR.cons trivial (hR.app (ioBatch_rel hR (hn r (by simp) evs hres) e0)
            (hR.app (t := []) (stopIf_rel hR e1) (ih hn' e2)))
      · rw [if_neg hl] at h
        cases h
        exact hR.nil _

theorem mtLoop_rel (hR : LoopRel Ok R) {rounds : List MtRound} : ∀ {s s' : TcpSrv} {t : List NetEv} {o : LoopEnd},
    (∀ r ∈ rounds, Ok r.acts) → mtLoop s rounds = .ok (s', t, o) → R s s' t := by
  induction rounds with
  | nil =>
    intro s s' t o _ h
    simp only [mtLoop] at h
    by_cases hl : s.loop = true
    · rw [if_pos hl] at h; cases h; exact hR.nil _
    · rw [if_neg hl] at h
      obtain ⟨_, _, h⟩ := bind_ok h
      cases h; exact hR.plain _ _ trivial
  | cons r rs ih =>
    intro s s' t o hn h
    have hn' := fun r' h' => hn r' (List.mem_cons_of_mem _ h')
    simp only [mtLoop] at h
    by_cases hl : s.loop = true
    · rw [if_pos hl] at h
      obtain ⟨s1, e1, h⟩ := bind_ok h
      have hst := stopIf_rel hR e1
      cases hacc : r.accept with
      | none => rw [hacc] at h; cases h; exact hst
      | some fd =>
        rw [hacc] at h
        simp only at h
        by_cases h2 : (!s1.loop) = true
        · rw [if_pos h2] at h
          obtain ⟨_, _, h⟩ := bind_ok h
          cases h
          exact hR.app (t := []) hst (hR.plains _ (by simp [Plain]))
        · rw [if_neg h2] at h
          by_cases h3 : fd < 0
          · rw [if_pos h3] at h
            obtain ⟨⟨s2, t2⟩, e2, h⟩ := bind_ok h
            cases h
            exact hR.app (t := []) hst (hR.cons trivial (hR.call (hn r (by simp)) e2))
          · rw [if_neg h3] at h
            obtain ⟨_, _, h⟩ := bind_ok h
            obtain ⟨⟨s2, t2, o2⟩, e2, h⟩ := bind_ok h
            cases h
            exact hR.app (t := []) hst (hR.cons trivial (hR.cons trivial (ih hn' e2)))
    · rw [if_neg hl] at h
      obtain ⟨_, _, h⟩ := bind_ok h
      cases h
      exact hR.plain _ _ trivial

theorem eventLoop_rel (hR : LoopRel Ok R) {s s' : TcpSrv} {rounds : List Round} {mt : List MtRound} {t : List NetEv}
    {o : LoopEnd} (h1 : RoundsOk Ok rounds) (h2 : ∀ r ∈ mt, Ok r.acts)
    (h : Cppnet.eventLoop s rounds mt = .ok (s', t, o)) : R s s' t := by
  unfold Cppnet.eventLoop at h
  by_cases hs : s.listen.status ≠ .init
  · rw [if_pos hs] at h; cases h; exact hR.nil _
  · rw [if_neg hs] at h
    by_cases hi : s.io = none ∧ s.mode ≠ .multiThread
    · rw [if_pos hi] at h; cases h; exact hR.nil _
    · rw [if_neg hi] at h
      cases hm : s.mode with
      | io => rw [hm] at h; exact ioLoop_rel hR h1 h
      | multiThread => rw [hm] at h; exact mtLoop_rel hR h2 h
      | other => rw [hm] at h; cases h; exact hR.nil _
      | mixed =>
        rw [hm] at h
        obtain ⟨⟨s1, t1, o1⟩, e1, h⟩ := bind_ok h
        have := ioLoop_rel hR h1 e1
        simp only at h
        by_cases ho : o1 = .returned kSuccess
        · rw [if_pos ho] at h
          obtain ⟨_, _, h⟩ := bind_ok h
          cases h
          exact hR.snoc (by simp [Plain]) this
        · rw [if_neg ho] at h
          cases h
          exact this

theorem tcpWakeUp_plain {s : TcpSrv} {soc conn : Int} : ∀ x ∈ (tcpWakeUp s soc conn).2, Plain x := by
  unfold tcpWakeUp
  repeat' split
  all_goals simp [Plain]

/-! ### The callback -/

/-- The callback stays the same, and only it is called. -/
def SameCb (s s' : TcpSrv) (t : List NetEv) : Prop :=
  s'.cb = s.cb ∧ ∀ c ev fd, .call c ev fd ∈ t → c = s.cb

theorem sameCb_nil {s s' : TcpSrv} (h : s'.cb = s.cb) : SameCb s s' [] := ⟨h, by simp⟩

theorem SameCb.append {s s' s'' : TcpSrv} {t t' : List NetEv} (h : SameCb s s' t) (h' : SameCb s' s'' t') :
    SameCb s s'' (t ++ t') := by
  refine ⟨h'.1.trans h.1, fun c ev fd hc => ?_⟩
  rcases List.mem_append.1 hc with hc | hc
  · exact h.2 c ev fd hc
  · exact (h'.2 c ev fd hc).trans h.1

theorem tcpStop_cb {s s' : TcpSrv} (h : tcpStop s = .ok s') : s'.cb = s.cb := by
  unfold tcpStop at h
  by_cases hs : s.listen.status ≠ .init
  · rw [if_pos hs] at h; cases h; rfl
  · rw [if_neg hs] at h
    simp only at h
    split at h
    · split at h
      · cases h
      · cases h; rfl
    · split at h
      · cases h
      · cases h; rfl
    · cases h; rfl

theorem cbAct_cb {s s' : TcpSrv} {a : CbAct} {t : List NetEv} (h : cbAct s a = .ok (s', t)) (hn : ∀ n, a ≠ .register n) :
    s'.cb = s.cb ∧ ∀ c ev fd, .call c ev fd ∉ t := by
  cases a with
  | remove fd res => cases h; exact ⟨rfl, fun c ev f hc => tcpRemove_plain _ hc⟩
  | add fd nb res =>
    simp only [cbAct, tcpAdd] at h
    cases hio : s.io with
    | none => rw [hio] at h; cases h
    | some e =>
      rw [hio] at h
      cases h
      exact ⟨rfl, fun c ev f hc => epMonitor_plain _ hc⟩
  | close fd => cases h; exact ⟨rfl, by simp⟩
  | stop =>
    simp only [cbAct] at h
    cases hst : tcpStop s with
    | error e => rw [hst] at h; cases h
    | ok s1 => rw [hst] at h; cases h; exact ⟨tcpStop_cb hst, by simp⟩
  | register n => exact absurd rfl (hn n)

theorem cbActs_cb {acts : List CbAct} : ∀ {s s' : TcpSrv} {t : List NetEv}, cbActs s acts = .ok (s', t) →
    (∀ n, .register n ∉ acts) → s'.cb = s.cb ∧ ∀ c ev fd, .call c ev fd ∉ t := by
  induction acts with
  | nil => intro s s' t h _; cases h; exact ⟨rfl, by simp⟩
  | cons a acts ih =>
    intro s s' t h hn
    simp only [cbActs] at h
    obtain ⟨⟨s1, t1⟩, h1, h⟩ := bind_ok h
    obtain ⟨⟨s2, t2⟩, h2, h⟩ := bind_ok h
    cases h
    have a1 := cbAct_cb h1 (fun n e => hn n (by simp [e]))
    have a2 := ih h2 (fun n hm => hn n (by simp [hm]))
    refine ⟨a2.1.trans a1.1, fun c ev fd hc => ?_⟩
    rcases List.mem_append.1 hc with hc | hc
    · exact a1.2 c ev fd hc
    · exact a2.2 c ev fd hc

theorem callCb_cb {s s' : TcpSrv} {ev : SrvEvent} {fd : Int} {acts : List CbAct} {t : List NetEv}
    (h : callCb s ev fd acts = .ok (s', t)) (hn : ∀ n, .register n ∉ acts) : SameCb s s' t := by
  unfold callCb at h
  cases hcb : s.cb with
  | null => rw [hcb] at h; cases h
  | quiet =>
    rw [hcb] at h; cases h
    refine ⟨rfl, fun c ev' fd' hc => ?_⟩
    simp only [List.mem_singleton, NetEv.call.injEq] at hc
    rw [hc.1, hcb]
  | user n =>
    rw [hcb] at h
    obtain ⟨⟨s1, t1⟩, h1, h⟩ := bind_ok h
    cases h
    have := cbActs_cb h1 hn
    refine ⟨this.1, fun c ev' fd' hc => ?_⟩
    rcases List.mem_cons.1 hc with hc | hc
    · cases hc; exact hcb.symm
    · exact absurd hc (this.2 _ _ _)

theorem sameCb_rel : LoopRel (fun acts => ∀ n, .register n ∉ acts) SameCb where
  nil s := sameCb_nil rfl
  app := SameCb.append
  stop h := sameCb_nil (tcpStop_cb h)
  call hn h := callCb_cb h hn
  plain s e he := ⟨rfl, fun c ev fd hc => by
    simp only [List.mem_singleton] at hc
    subst hc; exact absurd he id⟩

theorem closeListen_cb {s : TcpSrv} : SameCb s (closeListen s).1 (closeListen s).2 ∧ (closeListen s).1.io = s.io := by
  unfold closeListen
  split
  · exact ⟨sameCb_nil rfl, rfl⟩
  · exact ⟨⟨rfl, by simp⟩, rfl⟩

theorem tcpClean_cb {s : TcpSrv} : SameCb s (tcpClean s).1 (tcpClean s).2 := by
  have h := (closeListen_cb (s := s)).1
  unfold tcpClean
  simp only
  split
  · exact h
  · refine ⟨h.1, fun c ev fd hc => ?_⟩
    rcases List.mem_append.1 hc with hc | hc
    · exact h.2 c ev fd hc
    · unfold epClose at hc
      split at hc <;> simp at hc

theorem apply_cb {s s' : TcpSrv} {op : SrvOp} {t : List NetEv} {o : LoopEnd} (hk : KeepsCallback op)
    (h : s.apply op = .ok (s', t, o)) : SameCb s s' t := by
  cases op with
  | init a => exact absurd hk id
  | register n => exact absurd hk id
  | eventLoop rounds mt => exact eventLoop_rel sameCb_rel (fun r hr evs he x hx ev fd n => hk.1 r hr evs he x hx ev fd n) (fun r hr n => hk.2 r hr n) h
  | stop =>
    simp only [TcpSrv.apply] at h
    cases hst : tcpStop s with
    | error e => rw [hst] at h; cases h
    | ok s1 => rw [hst] at h; cases h; exact sameCb_nil (tcpStop_cb hst)
  | clean =>
    simp only [TcpSrv.apply] at h
    cases h
    exact tcpClean_cb
  | wakeUp soc conn =>
    simp only [TcpSrv.apply] at h
    cases h
    exact sameCb_rel.plains _ tcpWakeUp_plain
  | removeSoc fd res =>
    simp only [TcpSrv.apply] at h
    cases h
    exact sameCb_rel.plains _ tcpRemove_plain
  | addSoc fd nb res =>
    simp only [TcpSrv.apply, tcpAdd] at h
    cases hio : s.io with
    | none => rw [hio] at h; cases h
    | some e =>
      rw [hio] at h; cases h
      exact sameCb_rel.plains _ epMonitor_plain
  | setMode m => cases h; exact sameCb_nil rfl
  | setAddr a => cases h; exact sameCb_nil rfl
  | setQueue n => cases h; exact sameCb_nil rfl
  | setTrigger edge =>
    simp only [TcpSrv.apply] at h
    cases hio : s.io with
    | none => rw [hio] at h; cases h
    | some e => rw [hio] at h; cases h; exact sameCb_nil rfl

theorem history_cb {ops : List SrvOp} : ∀ {s s' : TcpSrv} {t : List NetEv}, (∀ op ∈ ops, KeepsCallback op) →
    s.history ops = .ok (s', t) → SameCb s s' t := by
  induction ops with
  | nil => intro s s' t _ h; cases h; exact sameCb_nil rfl
  | cons op ops ih =>
    intro s s' t hk h
    simp only [TcpSrv.history] at h
    obtain ⟨⟨s1, t1, o1⟩, e1, h⟩ := bind_ok h
    have a1 := apply_cb (hk op (by simp)) e1
    simp only at h
    by_cases ho : o1 = .waiting
    · rw [if_pos ho] at h; cases h; exact a1
    · rw [if_neg ho] at h
      obtain ⟨⟨s2, t2⟩, e2, h⟩ := bind_ok h
      cases h
      exact a1.append (ih (fun op' h' => hk op' (by simp [h'])) e2)

end Cppnet
