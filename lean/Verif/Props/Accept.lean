import Verif.Props.Backends
import Verif.Spec.Accept
import Verif.Proofs.TcpKeep

/-!
# C160: a connection that cannot be taken
-/

namespace Cppnet
open Spec

theorem Spec.Costs.refl : ∀ t : List NetEv, Costs t t
  | [] => .nil
  | _ :: t => .keep (Costs.refl t)

theorem Spec.Costs.app {a a' b b' : List NetEv} (h : Costs a a') (h' : Costs b b') : Costs (a ++ b) (a' ++ b') := by
  induction h with
  | nil => exact h'
  | keep _ ih => exact .keep ih
  | wait hs _ ih => exact .wait hs ih
  | failed hr _ ih => exact .failed hr ih
  | refused hf hr _ ih => exact .refused hf hr ih

theorem Spec.Fewer.sublist {l : Int} {evs evs' : List (Int × EpBits × EvAns)} (h : Fewer l evs evs') : evs'.Sublist evs := by
  induction h with
  | nil => exact .slnil
  | same _ ih => exact ih.cons_cons _
  | drop _ _ ih => exact ih.cons _

/-- The callback that does nothing. -/
theorem callCb_nothing {s s' : TcpSrv} {ev : SrvEvent} {fd : Int} {t : List NetEv} (h : callCb s ev fd [] = .ok (s', t)) :
    s' = s ∧ ∃ c, t = [.call c ev fd] := by
  unfold callCb at h
  cases hc : s.cb with
  | null => rw [hc] at h; cases h
  | quiet => rw [hc] at h; cases h; exact ⟨rfl, _, rfl⟩
  | user n => rw [hc] at h; cases h; exact ⟨rfl, _, rfl⟩

/-- Handling a connection that cannot be taken. -/
theorem untakable_event {s s' : TcpSrv} {x : Int × EpBits × EvAns} {ev : SrvEvent} {t : List NetEv}
    (hl : s.listen.status = .init) (hx : untakable s.listen.fd x) (h : ioEvent s x.1 ev x.2.2 = .ok (s', t)) :
    s' = s ∧ Costs t [] := by
  obtain ⟨h1, h2, h3⟩ := hx
  unfold ioEvent at h
  rw [if_pos h1] at h
  unfold handleAccept at h
  rw [if_neg (by simp [hl]), h3] at h
  by_cases hn : x.2.2.accept < 0
  · rw [if_pos hn] at h
    obtain ⟨⟨s1, t1⟩, h4, h⟩ := bind_ok h
    obtain ⟨rfl, c, rfl⟩ := callCb_nothing h4
    cases h
    exact ⟨rfl, .failed hn .nil⟩
  · rw [if_neg hn] at h
    have ha := h2.resolve_left hn
    cases hio : s.io with
    | none => rw [hio] at h; cases h
    | some e =>
      rw [hio] at h
      simp only [epMonitor, epollTrigger, Bool.false_eq_true, if_false, if_pos ha] at h
      obtain ⟨⟨s1, t1⟩, h4, h⟩ := bind_ok h
      obtain ⟨rfl, c, rfl⟩ := callCb_nothing h4
      cases h
      exact ⟨rfl, .refused (by omega) ha .nil⟩

theorem fewer_batch {evs evs' : List (Int × EpBits × EvAns)} {l : Int} (hf : Fewer l evs evs') :
    ∀ {s s' : TcpSrv} {t : List NetEv}, s.listen.status = .init → s.listen.fd = l → ioBatch s evs = .ok (s', t) →
    ∃ t', ioBatch s evs' = .ok (s', t') ∧ Costs t t' := by
  induction hf with
  | nil => intro s s' t _ _ h; exact ⟨t, h, Costs.refl t⟩
  | @same x evs evs' _ ih =>
    intro s s' t hl he h
    obtain ⟨fd, b, a⟩ := x
    simp only [ioBatch] at h ⊢
    cases hev : epEvent b with
    | none => rw [hev] at h; exact ih hl he h
    | some ev =>
      rw [hev] at h
      obtain ⟨⟨s1, t1⟩, h1, h⟩ := bind_ok h
      obtain ⟨⟨s2, t2⟩, h2, h⟩ := bind_ok h
      cases h
      have hk := (ioEvent_rel kept_rel (fun _ _ => trivial) h1).1
      obtain ⟨t', h3, h4⟩ := ih (by rw [hk.listen]; exact hl) (by rw [hk.listen]; exact he) h2
      exact ⟨t1 ++ t', by simp only [h1, h3, bind, Except.bind], (Costs.refl t1).app h4⟩
  | @drop x evs evs' hx _ ih =>
    intro s s' t hl he h
    obtain ⟨fd, b, a⟩ := x
    simp only [ioBatch] at h
    cases hev : epEvent b with
    | none => rw [hev] at h; exact ih hl he h
    | some ev =>
      rw [hev] at h
      obtain ⟨⟨s1, t1⟩, h1, h⟩ := bind_ok h
      obtain ⟨⟨s2, t2⟩, h2, h⟩ := bind_ok h
      cases h
      obtain ⟨rfl, h5⟩ := untakable_event hl (he ▸ hx) h1
      obtain ⟨t', h3, h4⟩ := ih hl he h2
      exact ⟨t', h3, h5.app h4⟩

theorem without_loop {l : Int} {rounds rounds' : List Round} (hw : Without l rounds rounds') :
    ∀ {s s' : TcpSrv} {t : List NetEv} {e : LoopEnd}, s.listen.status = .init → s.listen.fd = l →
    ioLoop s rounds = .ok (s', t, e) → ∃ t', ioLoop s rounds' = .ok (s', t', e) ∧ Costs t t' := by
  induction hw with
  | nil => intro s s' t e _ _ h; exact ⟨t, h, Costs.refl t⟩
  | @same r rs rs' _ ih =>
    intro s s' t e hl he h
    cases hio : s.io with
    | none => simp [ioLoop, hio] at h
    | some ep =>
      by_cases hlp : ep.loop = true
      · obtain ⟨res, stopped⟩ := r
        cases res with
        | never => simp only [ioLoop, hio, hlp, if_true] at h ⊢; exact ⟨t, h, Costs.refl t⟩
        | fail => simp only [ioLoop, hio, hlp, if_true] at h ⊢; exact ⟨t, h, Costs.refl t⟩
        | intr =>
          simp only [ioLoop, hio, hlp, if_true] at h ⊢
          obtain ⟨s1, h1, h⟩ := bind_ok h
          obtain ⟨⟨s2, t2, e2⟩, h2, h⟩ := bind_ok h
          cases h
          have hk := stopIf_kept h1
          obtain ⟨t', h3, h4⟩ := ih (by rw [hk.listen]; exact hl) (by rw [hk.listen]; exact he) h2
          exact ⟨_, by simp only [h1, h3, bind, Except.bind], .keep h4⟩
        | events evs =>
          simp only [ioLoop, hio, hlp, if_true] at h ⊢
          obtain ⟨⟨s0, t0⟩, h0, h⟩ := bind_ok h
          obtain ⟨s1, h1, h⟩ := bind_ok h
          obtain ⟨⟨s2, t2, e2⟩, h2, h⟩ := bind_ok h
          cases h
          have hk := ((ioBatch_rel kept_rel (fun _ _ _ _ => trivial) h0).1).trans (stopIf_kept h1)
          obtain ⟨t', h3, h4⟩ := ih (by rw [hk.listen]; exact hl) (by rw [hk.listen]; exact he) h2
          exact ⟨_, by simp only [h0, h1, h3, bind, Except.bind]; rfl, .keep ((Costs.refl t0).app h4)⟩
      · have e1 : ∀ r rs, ioLoop s (r :: rs) = .ok (s, [], .returned kSuccess) := by
          intro r rs; simp [ioLoop, hio, hlp]
        rw [e1] at h ⊢
        exact ⟨t, h, Costs.refl t⟩
  | @fewer evs evs' b rs rs' hf _ ih =>
    intro s s' t e hl he h
    cases hio : s.io with
    | none => simp [ioLoop, hio] at h
    | some ep =>
      by_cases hlp : ep.loop = true
      · simp only [ioLoop, hio, hlp, if_true] at h ⊢
        obtain ⟨⟨s0, t0⟩, h0, h⟩ := bind_ok h
        obtain ⟨s1, h1, h⟩ := bind_ok h
        obtain ⟨⟨s2, t2, e2⟩, h2, h⟩ := bind_ok h
        cases h
        obtain ⟨t0', h5, h6⟩ := fewer_batch hf hl he h0
        have hk := ((ioBatch_rel kept_rel (fun _ _ _ _ => trivial) h0).1).trans (stopIf_kept h1)
        obtain ⟨t', h3, h4⟩ := ih (by rw [hk.listen]; exact hl) (by rw [hk.listen]; exact he) h2
        exact ⟨_, by simp only [h5, h1, h3, bind, Except.bind]; rfl, .wait (hf.sublist.map _) (h6.app h4)⟩
      · have e1 : ∀ r rs, ioLoop s (r :: rs) = .ok (s, [], .returned kSuccess) := by
          intro r rs; simp [ioLoop, hio, hlp]
        rw [e1] at h ⊢
        exact ⟨t, h, Costs.refl t⟩

/-- **C160**, what holds in the modes with epoll: whatever else happens in a run of the event loop, connections that cannot
be taken change nothing but what is reported about them.  The run without them ends in the same way, with the server in the
same state, and does everything else in the same order.  Missing: the multi-thread mode, see the refutation, and callbacks
that do something when they get the error. -/
theorem C160_multiplexed_partial (s s' : TcpSrv) (hm : s.mode ≠ .multiThread) (rounds rounds' : List Round) (mt : List MtRound)
    (t : List NetEv) (e : LoopEnd) (hw : Without s.listen.fd rounds rounds')
    (h : eventLoop s rounds mt = .ok (s', t, e)) :
    ∃ t', eventLoop s rounds' mt = .ok (s', t', e) ∧ Costs t t' := by
  unfold eventLoop at h ⊢
  by_cases h1 : s.listen.status ≠ .init
  · rw [if_pos h1] at h ⊢; exact ⟨t, h, Costs.refl t⟩
  rw [if_neg h1] at h ⊢
  have hl : s.listen.status = .init := by simpa using h1
  by_cases h2 : s.io = none ∧ s.mode ≠ .multiThread
  · rw [if_pos h2] at h ⊢; exact ⟨t, h, Costs.refl t⟩
  rw [if_neg h2] at h ⊢
  cases hmode : s.mode with
  | multiThread => exact absurd hmode hm
  | other => rw [hmode] at h; exact ⟨t, h, Costs.refl t⟩
  | io => rw [hmode] at h; exact without_loop hw hl rfl h
  | mixed =>
    rw [hmode] at h
    obtain ⟨⟨s1, t1, e1⟩, h3, h⟩ := bind_ok h
    obtain ⟨t1', h4, h5⟩ := without_loop hw hl rfl h3
    simp only [h4, bind, Except.bind]
    by_cases he : e1 = .returned kSuccess
    · simp only [he, if_true] at h ⊢
      obtain ⟨_, h6, h⟩ := bind_ok h
      cases h
      rw [h6]
      exact ⟨_, rfl, h5.app (Costs.refl _)⟩
    · simp only [he, if_false] at h ⊢
      cases h
      exact ⟨_, rfl, h5⟩

/-- **C160**, refuted for the multi-thread mode: the first `accept` that fails (because the peer has given up meanwhile, or
no descriptor is left, or a signal arrives) ends the event loop with an error, whatever connections would come afterwards.
The listening socket stays open, and the thread pool is not stopped. -/
theorem C160_multithread_refuted (s : TcpSrv) (hm : s.mode = .multiThread) (hl : s.listen.status = .init) (hr : s.loop = true)
    (hc : s.cb ≠ .null) (r : Int) (hn : r < 0) (rounds : List Round) (later : List MtRound) :
    ∃ c, eventLoop s rounds ({ accept := some r } :: later) =
      .ok (s, [.accept s.listen.fd r, .call c .error r], .returned kSysErr) := by
  unfold eventLoop
  rw [if_neg (by simp [hl]), if_neg (by simp [hm]), hm]
  simp only [mtLoop, hr, stopIf, bind, Except.bind, hn, if_true, Bool.not_true, Bool.false_eq_true, if_false]
  unfold callCb
  cases hcb : s.cb with
  | null => exact absurd hcb hc
  | quiet => exact ⟨_, rfl⟩
  | user n => exact ⟨_, rfl⟩

/-- A running server with one listening and one epoll descriptor. -/
def acceptDemo (m : SrvMode) : TcpSrv :=
  { listen := { fd := 3, status := .init }, cb := .user 1, mode := m, io := some { fd := { fd := 4, status := .init } },
    pool := true }

/-- The listening socket is reported with a client that has gone and, later, when no room is left in epoll; connection 6
is served all the while.  The HTTP server's callback meets the hypothesis. -/
def acceptRounds : List Round :=
  [⟨.events [(3, { inn := true }, { accept := 6, acts := httpActs 0 false 0 })], false⟩,
   ⟨.events [(3, { inn := true }, { accept := -1, acts := httpActs 0 false 0 }),
     (6, { inn := true }, { acts := httpActs 0 false 0 })], false⟩,
   ⟨.events [(6, { rdhup := true }, { acts := httpActs 0 false 0 }),
     (3, { inn := true }, { accept := 7, add := -1, acts := httpActs 0 false 0 })], false⟩]

example : Without 3 acceptRounds
    [⟨.events [(3, { inn := true }, { accept := 6, acts := httpActs 0 false 0 })], false⟩,
     ⟨.events [(6, { inn := true }, { acts := httpActs 0 false 0 })], false⟩,
     ⟨.events [(6, { rdhup := true }, { acts := httpActs 0 false 0 })], false⟩] :=
  .same (.fewer (.drop ⟨rfl, .inl (by decide), rfl⟩ (.same .nil))
    (.fewer (.same (.drop ⟨rfl, .inr (by decide), rfl⟩ .nil)) .nil))

example : (do
    let r ← eventLoop (acceptDemo .io) acceptRounds []
    .ok (r.2.1.filter (fun | .wait .. => false | _ => true), r.2.2) : Out (List NetEv × LoopEnd)) =
    .ok ([.accept 3 6, .ctlAdd 4 6 0 false, .call (.user 1) .accept 6, .accept 3 (-1), .call (.user 1) .error (-1),
      .call (.user 1) .read 6, .call (.user 1) .leave 6, .ctlDel 4 6 0, .close 6, .accept 3 7, .ctlAdd 4 7 (-1) false,
      .call (.user 1) .error 7, .close 7], .waiting) := by decide +kernel

example : ∃ c, eventLoop (acceptDemo .multiThread) [] [{ accept := some (-1) }, { accept := some 6 }] =
    .ok (acceptDemo .multiThread, [.accept 3 (-1), .call c .error (-1)], .returned kSysErr) :=
  C160_multithread_refuted _ rfl rfl rfl (by decide) _ (by decide) _ _

/-! ### C126 for the server -/

/-- **C126**, what holds of the server in the modes with epoll: signals that interrupt its waits change nothing.  `EventLoop`
without them ends in the same way, with the server in the same state, and does everything else in the same order.  Missing: the
multi-thread mode, see the refutation, and `kqueue`. -/
theorem C126_server_partial (s s' : TcpSrv) (hm : s.mode ≠ .multiThread) (rounds : List Round) (mt : List MtRound) (t : List NetEv)
    (e : LoopEnd) (h : eventLoop s rounds mt = .ok (s', t, e)) :
    ∃ t', eventLoop s (rounds.filter fun r => !interrupted r) mt = .ok (s', t', e) ∧ t'.filter withoutIntr = t.filter withoutIntr := by
  unfold eventLoop at h ⊢
  by_cases h1 : s.listen.status ≠ .init
  · rw [if_pos h1] at h ⊢; exact ⟨t, h, rfl⟩
  rw [if_neg h1] at h ⊢
  by_cases h2 : s.io = none ∧ s.mode ≠ .multiThread
  · rw [if_pos h2] at h ⊢; exact ⟨t, h, rfl⟩
  rw [if_neg h2] at h ⊢
  cases hmode : s.mode with
  | multiThread => exact absurd hmode hm
  | other => rw [hmode] at h; exact ⟨t, h, rfl⟩
  | io => rw [hmode] at h; exact C126_epoll_partial _ _ _ _ _ h
  | mixed =>
    rw [hmode] at h
    obtain ⟨⟨s1, t1, e1⟩, h3, h⟩ := bind_ok h
    obtain ⟨t1', h4, h5⟩ := C126_epoll_partial _ _ _ _ _ h3
    simp only [h4, bind, Except.bind]
    by_cases he : e1 = .returned kSuccess
    · simp only [he, if_true] at h ⊢
      obtain ⟨_, h6, h⟩ := bind_ok h
      cases h
      rw [h6]
      exact ⟨_, rfl, by simp [List.filter_append, h5]⟩
    · simp only [he, if_false] at h ⊢
      cases h
      exact ⟨_, rfl, h5⟩

/-- **C126**, refuted for the multi-thread mode: a signal that interrupts `accept` (which then returns -1) ends the event loop of
every running server with an error; had it not come, the loop would have waited for the next connection. -/
theorem C126_multithread_refuted (s : TcpSrv) (hm : s.mode = .multiThread) (hl : s.listen.status = .init) (hr : s.loop = true)
    (hc : s.cb ≠ .null) :
    (∃ t, eventLoop s [] [{ accept := some (-1) }] = .ok (s, t, .returned kSysErr)) ∧ eventLoop s [] [] = .ok (s, [], .waiting) := by
  obtain ⟨c, h⟩ := C160_multithread_refuted s hm hl hr hc (-1) (by decide) [] []
  exact ⟨⟨_, h⟩, by simp [eventLoop, hl, hm, mtLoop, hr]⟩

/-- A mixed server whose wait is interrupted twice before a client comes and `Stop` is called. -/
example : (do
    let r ← eventLoop (acceptDemo .mixed)
      [⟨.intr, false⟩, ⟨.intr, false⟩, ⟨.events [(3, { inn := true }, { accept := 6, acts := httpActs 0 false 0 })], true⟩] []
    .ok (r.2.1.filter withoutIntr, r.2.2) : Out (List NetEv × LoopEnd)) =
    .ok ([.wait 4 [(3, { inn := true })], .accept 3 6, .ctlAdd 4 6 0 false, .call (.user 1) .accept 6, .poolStop], .returned kSuccess) := by
  decide +kernel

example : (∃ t, eventLoop (acceptDemo .multiThread) [] [{ accept := some (-1) }] = .ok (acceptDemo .multiThread, t, .returned kSysErr)) :=
  (C126_multithread_refuted (acceptDemo .multiThread) rfl rfl rfl (by decide)).1

end Cppnet
