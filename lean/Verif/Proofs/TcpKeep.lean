import Verif.Proofs.TcpRel

/-!
# What no loop and no callback of the TCP server changes; when a loop cannot crash; the tasks of the mixed mode
-/

namespace Cppnet
open Spec

/-- Nothing but `Init`, `Clean` and the setters changes these; a cleared loop flag stays cleared, and a
callback is not lost. -/
structure Kept (s s' : TcpSrv) : Prop where
  listen : s'.listen = s.listen
  mode : s'.mode = s.mode
  pool : s'.pool = s.pool
  io : s'.io.map (·.fd) = s.io.map (·.fd)
  cb : s.cb ≠ .null → s'.cb ≠ .null
  loop : s.loop = false → s'.loop = false
  ioLoop : ∀ e, s.io = some e → e.loop = false → ∃ e', s'.io = some e' ∧ e'.loop = false

theorem kept_refl (s : TcpSrv) : Kept s s := ⟨rfl, rfl, rfl, rfl, id, id, fun e h hl => ⟨e, h, hl⟩⟩

theorem Kept.trans {s s' s'' : TcpSrv} (h : Kept s s') (h' : Kept s' s'') : Kept s s'' where
  listen := h'.listen.trans h.listen
  mode := h'.mode.trans h.mode
  pool := h'.pool.trans h.pool
  io := h'.io.trans h.io
  cb hc := h'.cb (h.cb hc)
  loop hl := h'.loop (h.loop hl)
  ioLoop e he hl := by
    obtain ⟨e', h1, h2⟩ := h.ioLoop e he hl
    exact h'.ioLoop e' h1 h2

theorem tcpStop_kept {s s' : TcpSrv} (h : tcpStop s = .ok s') : Kept s s' := by
  unfold tcpStop at h
  split at h
  · cases h; exact kept_refl s
  · have main : ∀ {e : Ep} {s' : TcpSrv}, s.io = some e →
        s' = { s with loop := false, io := some { e with loop := false } } → Kept s s' := by
      intro e s' he hs
      subst hs
      exact ⟨rfl, rfl, rfl, by simp [he], id, fun _ => rfl, fun _ _ _ => ⟨_, rfl, rfl⟩⟩
    have main2 : ∀ {s' : TcpSrv}, s' = { s with loop := false } → Kept s s' := by
      intro s' hs
      subst hs
      exact ⟨rfl, rfl, rfl, rfl, id, fun _ => rfl, fun e h hl => ⟨e, h, hl⟩⟩
    cases hm : s.mode <;> simp only [hm] at h
    · cases hio : s.io with
      | none => simp only [hio] at h; cases h
      | some e => simp only [hio] at h; cases h; exact main hio (by rw [hm])
    · cases h; exact main2 (by rw [hm])
    · cases hio : s.io with
      | none => simp only [hio] at h; cases h
      | some e => simp only [hio] at h; cases h; exact main hio (by rw [hm])
    · cases h; exact main2 (by rw [hm])

/-- What the events of a callback can be. -/
def FromCb : NetEv → Prop
  | .call .. | .ctlDel .. | .close .. => True
  | .ctlAdd _ _ _ edge => edge = false
  | _ => False

theorem cbAct_kept {s s' : TcpSrv} {a : CbAct} {t : List NetEv} (h : cbAct s a = .ok (s', t)) :
    Kept s s' ∧ ∀ e ∈ t, FromCb e := by
  cases a with
  | remove fd res =>
    cases h
    refine ⟨kept_refl _, fun e he => ?_⟩
    unfold tcpRemove at he
    split at he <;> simp [epRemove] at he
    subst he; trivial
  | add fd nb res =>
    simp only [cbAct, tcpAdd] at h
    cases hio : s.io with
    | none => rw [hio] at h; cases h
    | some e =>
      rw [hio] at h; cases h
      refine ⟨kept_refl _, fun e he => ?_⟩
      unfold epMonitor at he
      rw [if_neg (by decide)] at he
      simp only [List.mem_singleton] at he
      subst he; rfl
  | close fd => cases h; exact ⟨kept_refl _, by simp [FromCb]⟩
  | stop =>
    simp only [cbAct] at h
    cases hst : tcpStop s with
    | error e => rw [hst] at h; cases h
    | ok s1 => rw [hst] at h; cases h; exact ⟨tcpStop_kept hst, by simp⟩
  | register n =>
    cases h
    exact ⟨⟨rfl, rfl, rfl, rfl, fun _ => by simp, id, fun e h hl => ⟨e, h, hl⟩⟩, by simp⟩

theorem cbActs_kept {as : List CbAct} : ∀ {s s' : TcpSrv} {t : List NetEv}, cbActs s as = .ok (s', t) →
    Kept s s' ∧ ∀ e ∈ t, FromCb e := by
  induction as with
  | nil => intro s s' t h; cases h; exact ⟨kept_refl _, by simp⟩
  | cons a as ih =>
    intro s s' t h
    simp only [cbActs] at h
    obtain ⟨⟨s1, t1⟩, e1, h⟩ := bind_ok h
    obtain ⟨⟨s2, t2⟩, e2, h⟩ := bind_ok h
    cases h
    have a1 := cbAct_kept e1
    have a2 := ih e2
    refine ⟨a1.1.trans a2.1, fun e he => ?_⟩
    rcases List.mem_append.1 he with he | he
    · exact a1.2 e he
    · exact a2.2 e he

theorem callCb_kept {s s' : TcpSrv} {ev : SrvEvent} {fd : Int} {acts : List CbAct} {t : List NetEv}
    (h : callCb s ev fd acts = .ok (s', t)) : Kept s s' ∧ ∀ e ∈ t, FromCb e := by
  unfold callCb at h
  cases hcb : s.cb with
  | null => rw [hcb] at h; cases h
  | quiet => rw [hcb] at h; cases h; exact ⟨kept_refl _, by simp [FromCb]⟩
  | user n =>
    rw [hcb] at h
    obtain ⟨⟨s1, t1⟩, e1, h⟩ := bind_ok h
    cases h
    have := cbActs_kept e1
    exact ⟨this.1, fun e he => by
      rcases List.mem_cons.1 he with rfl | he
      · trivial
      · exact this.2 e he⟩

/-- Any callback; all registrations with epoll are level-triggered. -/
def AnyActs (_ : List CbAct) : Prop := True

/-- No event asks for edge triggering. -/
def NoEdge (t : List NetEv) : Prop := ∀ ep fd r edge, .ctlAdd ep fd r edge ∈ t → edge = false

theorem noEdge_append {t t' : List NetEv} (h : NoEdge t) (h' : NoEdge t') : NoEdge (t ++ t') := by
  intro ep fd r edge he
  rcases List.mem_append.1 he with he | he
  · exact h _ _ _ _ he
  · exact h' _ _ _ _ he

theorem kept_rel : LoopRel AnyActs (fun s s' t => Kept s s' ∧ NoEdge t) where
  nil s := ⟨kept_refl s, by simp [NoEdge]⟩
  app h h' := ⟨h.1.trans h'.1, noEdge_append h.2 h'.2⟩
  stop h := ⟨tcpStop_kept h, by simp [NoEdge]⟩
  call _ h := ⟨(callCb_kept h).1, fun ep fd r edge he => (callCb_kept h).2 _ he⟩
  plain s e he := ⟨kept_refl s, fun ep fd r edge h => by
    simp only [List.mem_singleton] at h
    subst h; exact he⟩

theorem roundsAny (rounds : List Round) : RoundsOk AnyActs rounds := fun _ _ _ _ _ _ _ _ => trivial

/-! ### The tasks of the mixed mode -/

theorem tasks_append (a b : List NetEv) : tasks (a ++ b) = tasks a ++ tasks b := List.filterMap_append ..

theorem waitsOf_append (a b : List NetEv) : waitsOf (a ++ b) = waitsOf a ++ waitsOf b := List.flatMap_append ..

theorem tasks_fromCb {t : List NetEv} (h : ∀ e ∈ t, FromCb e) : tasks t = [] ∧ waitsOf t = [] := by
  constructor
  · refine List.filterMap_eq_nil_iff.2 fun e he => ?_
    have := h e he
    cases e <;> first | rfl | exact absurd this id
  · refine List.flatMap_eq_nil_iff.2 fun e he => ?_
    have := h e he
    cases e <;> first | rfl | exact absurd this id

theorem monitor_fromCb (e : Ep) (fd nb res : Int) : ∀ x ∈ (epMonitor e fd nb res).2, FromCb x := by
  intro x he
  unfold epMonitor at he
  rw [if_neg (by decide)] at he
  simp only [List.mem_singleton] at he
  subst he; rfl

theorem remove_fromCb (s : TcpSrv) (fd res : Int) : ∀ x ∈ (tcpRemove s fd res).2, FromCb x := by
  intro x he
  unfold tcpRemove at he
  split at he <;> simp [epRemove] at he
  subst he; trivial

theorem handleAccept_tasks {s s' : TcpSrv} {a : EvAns} {t : List NetEv} (h : handleAccept s a = .ok (s', t)) :
    tasks t = [] ∧ waitsOf t = [] := by
  unfold handleAccept at h
  by_cases h1 : s.listen.status ≠ .init
  · rw [if_pos h1] at h; exact tasks_fromCb (callCb_kept h).2
  · rw [if_neg h1] at h
    by_cases h2 : a.accept < 0
    · rw [if_pos h2] at h
      obtain ⟨⟨s1, t1⟩, e1, h⟩ := bind_ok h
      cases h
      have := tasks_fromCb (callCb_kept e1).2
      exact this
    · rw [if_neg h2] at h
      cases hio : s.io with
      | none => rw [hio] at h; cases h
      | some e =>
        rw [hio] at h
        simp only at h
        have hm := monitor_fromCb e a.accept a.noBlock a.add
        by_cases h3 : (epMonitor e a.accept a.noBlock a.add).1 < 0
        · rw [if_pos h3] at h
          obtain ⟨⟨s1, t1⟩, e1, h⟩ := bind_ok h
          cases h
          have hc := (callCb_kept e1).2
          have := tasks_fromCb (t := (epMonitor e a.accept a.noBlock a.add).2 ++ t1 ++ [.close a.accept]) (by
            intro x hx
            simp only [List.mem_append, List.mem_singleton] at hx
            rcases hx with (hx | hx) | hx
            · exact hm x hx
            · exact hc x hx
            · subst hx; trivial)
          exact this
        · rw [if_neg h3] at h
          obtain ⟨⟨s1, t1⟩, e1, h⟩ := bind_ok h
          cases h
          have hc := (callCb_kept e1).2
          have := tasks_fromCb (t := (epMonitor e a.accept a.noBlock a.add).2 ++ t1) (by
            intro x hx
            rcases List.mem_append.1 hx with hx | hx
            · exact hm x hx
            · exact hc x hx)
          exact this

theorem handleGone_tasks {s s' : TcpSrv} {a : EvAns} {ev : SrvEvent} {fd : Int} {t : List NetEv}
    (h : handleGone s ev fd a = .ok (s', t)) : tasks t = [] ∧ waitsOf t = [] := by
  unfold handleGone at h
  obtain ⟨⟨s1, t1⟩, e1, h⟩ := bind_ok h
  cases h
  exact tasks_fromCb (by
    intro x hx
    simp only [List.mem_append, List.mem_singleton] at hx
    rcases hx with (hx | hx) | hx
    · exact (callCb_kept e1).2 x hx
    · exact remove_fromCb _ _ _ x hx
    · subst hx; trivial)

theorem ioBatch_tasks {evs : List (Int × EpBits × EvAns)} : ∀ {s s' : TcpSrv} {t : List NetEv}, s.mode = .mixed →
    ioBatch s evs = .ok (s', t) →
    tasks t = onlyReadable s.listen.fd (evs.map fun x => (x.1, x.2.1)) ∧ waitsOf t = [] := by
  induction evs with
  | nil => intro s s' t _ h; cases h; exact ⟨rfl, rfl⟩
  | cons x evs ih =>
    obtain ⟨fd, b, a⟩ := x
    intro s s' t hm h
    simp only [ioBatch] at h
    have hcons : onlyReadable s.listen.fd (((fd, b, a) :: evs).map fun x => (x.1, x.2.1)) =
        onlyReadable s.listen.fd [(fd, b)] ++ onlyReadable s.listen.fd (evs.map fun x => (x.1, x.2.1)) := by
      unfold onlyReadable
      rw [← List.map_append, ← List.filter_append]
      rfl
    rw [hcons]
    cases hev : epEvent b with
    | none =>
      rw [hev] at h
      have : onlyReadable s.listen.fd [(fd, b)] = [] := by
        unfold epEvent at hev
        obtain ⟨i, r, e, u⟩ := b
        cases r <;> cases e <;> cases i <;> simp at hev <;> simp [onlyReadable]
      rw [this]
      exact ih hm h
    | some ev =>
      rw [hev] at h
      obtain ⟨⟨s1, t1⟩, e1, h⟩ := bind_ok h
      obtain ⟨⟨s2, t2⟩, e2, h⟩ := bind_ok h
      cases h
      have hk := (ioEvent_rel kept_rel (fun _ _ => trivial) e1).1
      have i2 := ih (hk.mode.trans hm) e2
      simp only [hk.listen] at i2
      rw [tasks_append, waitsOf_append, i2.1, i2.2, List.append_nil]
      suffices hs : tasks t1 = onlyReadable s.listen.fd [(fd, b)] ∧ waitsOf t1 = [] from ⟨by rw [hs.1], hs.2⟩
      unfold ioEvent at e1
      by_cases hf : fd = s.listen.fd
      · rw [if_pos hf] at e1
        have := handleAccept_tasks e1
        refine ⟨?_, this.2⟩
        rw [this.1]
        simp [onlyReadable, hf]
      · rw [if_neg hf] at e1
        cases ev with
        | accept =>
          unfold epEvent at hev
          obtain ⟨i, r, e, u⟩ := b
          cases r <;> cases e <;> cases i <;> simp at hev
        | leave =>
          have := handleGone_tasks e1
          refine ⟨?_, this.2⟩
          rw [this.1]
          unfold epEvent at hev
          obtain ⟨i, r, e, u⟩ := b
          cases r <;> cases e <;> cases i <;> simp at hev <;> simp [onlyReadable]
        | error =>
          have := handleGone_tasks e1
          refine ⟨?_, this.2⟩
          rw [this.1]
          unfold epEvent at hev
          obtain ⟨i, r, e, u⟩ := b
          cases r <;> cases e <;> cases i <;> simp at hev <;> simp [onlyReadable]
        | read =>
          simp only [if_pos hm] at e1
          obtain ⟨_, _, e1⟩ := bind_ok e1
          cases e1
          refine ⟨?_, rfl⟩
          unfold epEvent at hev
          obtain ⟨i, r, e, u⟩ := b
          cases r <;> cases e <;> cases i <;> simp at hev <;> simp [onlyReadable, tasks, hf]

theorem onlyReadable_append (l : Int) (a b : List (Int × EpBits)) :
    onlyReadable l (a ++ b) = onlyReadable l a ++ onlyReadable l b := by
  unfold onlyReadable
  rw [List.filter_append, List.map_append]

theorem stopIf_kept {b : Bool} {s s' : TcpSrv} (h : stopIf b s = .ok s') : Kept s s' :=
  (stopIf_rel kept_rel h).1

theorem ioLoop_tasks {rounds : List Round} : ∀ {s s' : TcpSrv} {t : List NetEv} {o : LoopEnd}, s.mode = .mixed →
    ioLoop s rounds = .ok (s', t, o) → tasks t = onlyReadable s.listen.fd (waitsOf t) := by
  induction rounds with
  | nil =>
    intro s s' t o _ h
    simp only [ioLoop] at h
    split at h
    · cases h
    · cases h; rfl
  | cons r rs ih =>
    intro s s' t o hm h
    simp only [ioLoop] at h
    cases hio : s.io with
    | none => rw [hio] at h; cases h
    | some e =>
      rw [hio] at h
      simp only at h
      by_cases hl : e.loop = true
      · rw [if_pos hl] at h
        cases hres : r.res with
        | never =>
          rw [hres] at h
          obtain ⟨s1, e1, h⟩ := bind_ok h
          cases h
          rfl
        | intr =>
          rw [hres] at h
          obtain ⟨s1, e1, h⟩ := bind_ok h
          obtain ⟨⟨s2, t2, o2⟩, e2, h⟩ := bind_ok h
          cases h
          have hk := stopIf_kept e1
          have := ih (hk.mode.trans hm) e2
          rw [hk.listen] at this
          exact this
        | fail =>
          rw [hres] at h
          cases h
          rfl
        | events evs =>
          rw [hres] at h
          obtain ⟨⟨s0, t0⟩, e0, h⟩ := bind_ok h
          obtain ⟨s1, e1, h⟩ := bind_ok h
          obtain ⟨⟨s2, t2, o2⟩, e2, h⟩ := bind_ok h
          cases h
          have hk0 := (ioBatch_rel kept_rel (fun _ _ _ _ => trivial) e0).1
          have hk := hk0.trans (stopIf_kept e1)
          have i2 := ih (hk.mode.trans hm) e2
          rw [hk.listen] at i2
          have i0 := ioBatch_tasks hm e0
          have hw : waitsOf (.wait e.fd.fd (evs.map fun x => (x.1, x.2.1)) :: t0 ++ t2) =
              (evs.map fun x => (x.1, x.2.1)) ++ waitsOf t2 := by
            show waitsOf ([.wait e.fd.fd (evs.map fun x => (x.1, x.2.1))] ++ t0 ++ t2) = _
            rw [waitsOf_append, waitsOf_append, i0.2]
            simp [waitsOf]
          have ht : tasks (.wait e.fd.fd (evs.map fun x => (x.1, x.2.1)) :: t0 ++ t2) = tasks t0 ++ tasks t2 := by
            show tasks ([.wait e.fd.fd (evs.map fun x => (x.1, x.2.1))] ++ t0 ++ t2) = _
            rw [tasks_append, tasks_append]
            simp [tasks]
          rw [hw, ht, onlyReadable_append, i0.1, i2]
      · rw [if_neg hl] at h
        cases h
        rfl

end Cppnet
