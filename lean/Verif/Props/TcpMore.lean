import Verif.Props.Tcp
import Verif.Proofs.TcpSafe

/-!
# C62–C64 and C85–C89: the multi-thread and mixed modes, `Init`, `Register`, `Stop` and `Clean`
-/

namespace Cppnet
open Spec

/-! ### C62 -/

theorem connReads_idle {s : TcpSrv} {n : Nat} (hcb : s.cb = .user n) (fd fin : Int) (k : Nat) :
    ∃ t, connReads s fd fin (List.replicate k []) = .ok (s, t) ∧ (∀ f, .close f ∉ t) ∧
      t.filter (fun | .call .. => true | _ => false) = List.replicate k (.call (.user n) .read fd) := by
  induction k with
  | zero => exact ⟨_, rfl, by simp, rfl⟩
  | succ k ih =>
    obtain ⟨t, e, h1, h2⟩ := ih
    refine ⟨.peek fd 1 :: [.call (.user n) .read fd] ++ t, ?_, by simpa using h1, ?_⟩
    · simp only [List.replicate_succ, connReads, callCb, hcb, cbActs, bind, Except.bind, e]
    · simp [List.replicate_succ, h2]

/-- C62, what holds: however often the connection becomes readable, its task calls the callback once for the
accept, once per readable moment, and once, last, for the leave; a callback that closes the connection when it
is told of the leave closes it exactly then and only once.  The server itself closes nothing (below). -/
theorem C62_callback_closes_partial (s : TcpSrv) (n : Nat) (hcb : s.cb = .user n) (fd fin : Int) (k : Nat) :
    ∃ t, connTask s fd fin [] (List.replicate k []) [.close fd] = .ok (s, t ++ [.call (.user n) .leave fd, .close fd]) ∧
      (∀ f, .close f ∉ t) ∧
      t.filter (fun | .call .. => true | _ => false) =
        .call (.user n) .accept fd :: List.replicate k (.call (.user n) .read fd) := by
  obtain ⟨t, e, h1, h2⟩ := connReads_idle hcb fd fin k
  refine ⟨.call (.user n) .accept fd :: t, ?_, by simpa using h1, by simp [h2]⟩
  simp only [connTask, callCb, hcb, cbActs, cbAct, bind, Except.bind, e]
  simp

/-- Every connection accepted by the multi-thread mode gets a task at once, except one that is accepted after
`Stop` (the wake-up connection). -/
theorem C62_every_connection_has_a_task_partial (rounds : List MtRound) :
    ∀ (s s' : TcpSrv) (t : List NetEv) (o : LoopEnd), mtLoop s rounds = .ok (s', t, o) →
      ∀ pre l fd post, 0 ≤ fd → t = pre ++ .accept l fd :: post →
        (∃ post', post = .addTask fd :: post') ∨ (post = [.poolStop] ∧ s'.loop = false) := by
  induction rounds with
  | nil =>
    intro s s' t o h pre l fd post h0 ht
    simp only [mtLoop] at h
    by_cases hl : s.loop = true
    · rw [if_pos hl] at h; cases h; simp at ht
    · rw [if_neg hl] at h
      obtain ⟨_, _, h⟩ := bind_ok h
      cases h
      cases pre with
      | nil => simp at ht
      | cons x pre => simp at ht
  | cons r rs ih =>
    intro s s' t o h pre l fd post h0 ht
    simp only [mtLoop] at h
    by_cases hl : s.loop = true
    · rw [if_pos hl] at h
      obtain ⟨s1, e1, h⟩ := bind_ok h
      cases hacc : r.accept with
      | none => rw [hacc] at h; cases h; simp at ht
      | some f =>
        rw [hacc] at h
        simp only at h
        by_cases h2 : (!s1.loop) = true
        · rw [if_pos h2] at h
          obtain ⟨_, _, h⟩ := bind_ok h
          cases h
          cases pre with
          | nil =>
            simp only [List.nil_append, List.cons.injEq] at ht
            exact Or.inr ⟨ht.2.symm, by simpa using h2⟩
          | cons x pre => cases pre <;> simp at ht
        · rw [if_neg h2] at h
          by_cases h3 : f < 0
          · rw [if_pos h3] at h
            obtain ⟨⟨s2, t2⟩, e2, h⟩ := bind_ok h
            cases h
            exfalso
            cases pre with
            | nil =>
              simp only [List.nil_append, List.cons.injEq, NetEv.accept.injEq] at ht
              omega
            | cons x pre =>
              simp only [List.cons_append, List.cons.injEq] at ht
              have := (callCb_kept e2).2 (.accept l fd) (by rw [ht.2]; simp)
              exact this
          · rw [if_neg h3] at h
            obtain ⟨_, _, h⟩ := bind_ok h
            obtain ⟨⟨s2, t2, o2⟩, e2, h⟩ := bind_ok h
            cases h
            cases pre with
            | nil =>
              simp only [List.nil_append, List.cons.injEq, NetEv.accept.injEq] at ht
              obtain ⟨⟨_, rfl⟩, rfl⟩ := ht
              exact Or.inl ⟨_, rfl⟩
            | cons x pre =>
              simp only [List.cons_append, List.cons.injEq] at ht
              obtain ⟨_, ht⟩ := ht
              cases pre with
              | nil => simp at ht
              | cons y pre =>
                simp only [List.cons_append, List.cons.injEq] at ht
                exact ih s1 _ t2 _ e2 pre l fd post h0 ht.2
    · rw [if_neg hl] at h
      obtain ⟨_, _, h⟩ := bind_ok h
      cases h
      cases pre with
      | nil => simp at ht
      | cons x pre => simp at ht

example : (mtLoop { demoSrv .multiThread with cb := .user 1, pool := true, listen := ⟨3, .init⟩ }
    [⟨some 5, false, []⟩, ⟨some 6, false, []⟩, ⟨some 7, true, []⟩]).map (·.2) =
    .ok ([.accept 3 5, .addTask 5, .accept 3 6, .addTask 6, .accept 3 7, .poolStop], .returned kSuccess) := by
  decide +kernel

/-- C62 is false: whatever the connection, however often it becomes readable, the task ends after the leave
callback and no descriptor is closed, unless the callback does it. -/
theorem C62_never_closed_refuted (s : TcpSrv) (n : Nat) (hcb : s.cb = .user n) (fd fin : Int) (k : Nat) :
    ∃ t, connTask s fd fin [] (List.replicate k []) [] = .ok (s, t) ∧ .call (.user n) .leave fd ∈ t ∧
      ∀ f, .close f ∉ t := by
  obtain ⟨t, e, h1, h2⟩ := connReads_idle hcb fd fin k
  refine ⟨.call (.user n) .accept fd :: t ++ [.call (.user n) .leave fd], ?_, by simp, by simpa using h1⟩
  simp only [connTask, callCb, hcb, cbActs, bind, Except.bind, e]
  simp

/-- The callback of `HttpServer` does not: on a connection whose peer leaves after any number of good
requests nothing is closed; and when it drops a connection (a bad request), the task goes on using the number
it has closed. -/
theorem C62_http_server_refuted :
    (∀ (s : TcpSrv) (n : Nat) (fd fin : Int) (k : Nat), s.cb = .user n →
      ∃ t, connTask s fd fin (httpActs 0 false 0 .accept fd) (List.replicate k (httpActs 0 false 0 .read fd))
        (httpActs 0 false 0 .leave fd) = .ok (s, t) ∧ ∀ f, .close f ∉ t) ∧
    (connTask { demoSrv .multiThread with cb := .user 1 } 5 0 (httpActs 0 false 0 .accept 5) [httpActs 0 true 0 .read 5]
      (httpActs 0 false 0 .leave 5)).map (·.2) =
      .ok [.call (.user 1) .accept 5, .peek 5 1, .call (.user 1) .read 5, .close 5, .peek 5 0,
        .call (.user 1) .leave 5] := by
  refine ⟨fun s n fd fin k hcb => ?_, by decide +kernel⟩
  obtain ⟨t, e, _, h⟩ := C62_never_closed_refuted s n hcb fd fin k
  exact ⟨t, e, h⟩

/-! ### C63 -/

/-- The answers that make `Init` give up between `socket` and the end of `bind`. -/
def EarlyFailure (s : TcpSrv) (a : InitAns) : Prop :=
  a.reuse < 0 ∨ addressIP s.addr = [] ∨ addressPort s.addr = 0 ∨ a.bind < 0

/-- The possible ways for `Init` to fail, with what happens. -/
theorem tcpInit_fails {s : TcpSrv} {a : InitAns} (hio : s.io = none) (h : (tcpInit s a).2.1 ≠ kSuccess) :
    (a.socket < 0 ∧ (tcpInit s a).2.2 = [.socket a.socket] ∧ (tcpClean (tcpInit s a).1).2 = []) ∨
    (0 ≤ a.socket ∧ EarlyFailure s a ∧ (∃ t, (tcpInit s a).2.2 = .socket a.socket :: t ∧ ∀ k : Kern, k.run t = k) ∧
      (tcpClean (tcpInit s a).1).2 = []) ∨
    (0 ≤ a.socket ∧ ¬ EarlyFailure s a ∧
      (∃ t, (tcpInit s a).2.2 = .socket a.socket :: t ++ [.close a.socket] ∧ ∀ k : Kern, k.run t = k) ∧
      (tcpClean (tcpInit s a).1).2 = []) ∨
    (0 ≤ a.socket ∧ ¬ EarlyFailure s a ∧ 0 ≤ a.epoll ∧ a.add < 0 ∧
      (tcpInit s a).2.2 = [.socket a.socket, .setReuse a.socket a.reuse, .bind a.socket a.bind,
        .listen a.socket s.maxQueue a.listen, .epollCreate a.epoll, .ctlAdd a.epoll a.socket a.add false,
        .close a.socket] ∧
      (tcpClean (tcpInit s a).1).2 = [.close a.epoll]) := by
  unfold EarlyFailure
  unfold tcpInit createSocket at h ⊢
  by_cases h1 : a.socket < 0
  · left; simp [h1, Sock.ofFd, kSysErr, tcpClean, closeListen, hio]
  · right
    have h1' : 0 ≤ a.socket := by omega
    by_cases h2 : a.reuse < 0
    · left; simp [h1, h1', h2, Sock.ofFd, kSysErr, tcpClean, closeListen, hio, Kern.step]
    · by_cases h3 : addressIP s.addr = [] ∨ addressPort s.addr = 0
      · left; simp [h1, h1', h2, h3, Sock.ofFd, kLogicErr, tcpClean, closeListen, hio, Kern.step]
        rcases h3 with h3 | h3 <;> simp [h3]
      · by_cases h4 : a.bind < 0
        · left; simp [h1, h1', h2, h3, h4, Sock.ofFd, kSysErr, tcpClean, closeListen, hio, Kern.step]
        · right
          have h3a : ¬ addressIP s.addr = [] := fun h => h3 (Or.inl h)
          have h3b : ¬ addressPort s.addr = 0 := fun h => h3 (Or.inr h)
          have he : ¬ (a.reuse < 0 ∨ addressIP s.addr = [] ∨ addressPort s.addr = 0 ∨ a.bind < 0) := by
            rintro (h | h | h | h) <;> contradiction
          by_cases h5 : a.listen < 0
          · left
            refine ⟨h1', he, ?_⟩
            simp [h1, h2, h3, h4, h5, Sock.ofFd, kSysErr, closeListen, tcpClean, hio]
            exact ⟨[.setReuse a.socket a.reuse, .bind a.socket a.bind, .listen a.socket s.maxQueue a.listen], rfl,
              fun k => by simp [Kern.step]⟩
          · by_cases hm : s.mode = .io ∨ s.mode = .mixed
            · by_cases h6 : a.epoll < 0
              · left
                refine ⟨h1', he, ?_⟩
                rcases hm with hm | hm <;>
                · simp [h1, h2, h3, h4, h5, h6, hm, Sock.ofFd, kSysErr, closeListen, tcpClean, initMode, initEpoll, epInit,
                    epClose]
                  exact ⟨[.setReuse a.socket a.reuse, .bind a.socket a.bind, .listen a.socket s.maxQueue a.listen,
                    .epollCreate a.epoll], rfl, fun k => by simp [Kern.step, h6]⟩
              · by_cases h7 : a.add < 0
                · right
                  refine ⟨h1', he, by omega, h7, ?_⟩
                  rcases hm with hm | hm <;>
                  simp [h1, h2, h3, h4, h5, h6, h7, hm, Sock.ofFd, kSysErr, kSuccess, closeListen, tcpClean, initMode,
                    initEpoll, epInit, epClose, epMonitor, epollTrigger]
                · exfalso; apply h
                  rcases hm with hm | hm <;>
                  simp [h1, h2, h3, h4, h5, h6, h7, hm, Sock.ofFd, kSuccess, initMode, initEpoll, epInit,
                    epMonitor, epollTrigger]
            · exfalso; apply h
              cases hmm : s.mode with
              | io => exact absurd (Or.inl hmm) hm
              | mixed => exact absurd (Or.inr hmm) hm
              | _ => simp [h1, h2, h3, h4, h5, Sock.ofFd, kSuccess, initMode]

/-- C63, what holds: after an `Init` that failed, in whatever mode and at whatever point, and `Clean`, exactly
the descriptors are open that were open before, except that the socket stays open when `Init` failed after
`socket` and before `listen`.  Before `Clean`, the epoll descriptor is open too if `epoll_ctl` failed. -/
theorem C63_failed_init_partial (s : TcpSrv) (a : InitAns) (k : Kern) (hio : s.io = none)
    (h : (tcpInit s a).2.1 ≠ kSuccess) (hp : Possible k (tcpInit s a).2.2) (fd : Int) :
    ((k.run ((tcpInit s a).2.2 ++ (tcpClean (tcpInit s a).1).2)).opn fd = true ↔
      k.opn fd = true ∨ (fd = a.socket ∧ 0 ≤ a.socket ∧ EarlyFailure s a)) ∧
    ((k.run (tcpInit s a).2.2).opn fd = true ↔
      k.opn fd = true ∨ (fd = a.socket ∧ 0 ≤ a.socket ∧ EarlyFailure s a) ∨
      (fd = a.epoll ∧ (∃ t, (tcpClean (tcpInit s a).1).2 = .close a.epoll :: t))) := by
  rcases tcpInit_fails hio h with ⟨h1, h2, h3⟩ | ⟨h1, h2, ⟨t, h3, h4⟩, h5⟩ | ⟨h1, h2, ⟨t, h3, h4⟩, h5⟩ |
    ⟨h1, h2, h3, h4, h5, h6⟩
  · rw [h2, h3]
    have : ¬ 0 ≤ a.socket := by omega
    simp [Kern.step, h1, this]
  · rw [h3, h5]
    have : ¬ a.socket < 0 := by omega
    simp [Kern.step, h4, this, h1, h2]
    exact Or.comm
  · rw [h3, h5]
    rw [h3] at hp
    have hs : k.opn a.socket = false := hp.1 h1
    have : ¬ a.socket < 0 := by omega
    have : (k.run ((.socket a.socket :: t) ++ [.close a.socket])).opn fd = true ↔ k.opn fd = true := by
      rw [kern_run_append]
      simp [Kern.step, h4, this]
      constructor
      · rintro ⟨x, y | y⟩
        · exact absurd y x
        · exact y
      · intro y
        refine ⟨?_, Or.inr y⟩
        rintro rfl
        rw [hs] at y; cases y
    rw [List.append_nil]
    exact ⟨by rw [this]; simp [h2], by rw [this]; simp [h2]⟩
  · rw [h5, h6]
    rw [h5] at hp
    have hs : k.opn a.socket = false := hp.1 h1
    have e1 : ¬ a.socket < 0 := by omega
    have e2 : ¬ a.epoll < 0 := by omega
    have he : ((k.step (.socket a.socket)).opn a.epoll) = false := hp.2.2.2.2.1 h3
    simp only [Kern.step, if_neg e1, Bool.or_eq_false_iff, beq_eq_false_iff_ne, ne_eq] at he
    simp [Kern.step, e1, e2, h4, h2]
    constructor
    · constructor
      · rintro ⟨x, y, z | z | z⟩
        · exact absurd z x
        · exact absurd z y
        · exact z
      · intro z
        refine ⟨?_, ?_, Or.inr (Or.inr z)⟩
        · rintro rfl; rw [he.2] at z; cases z
        · rintro rfl; rw [hs] at z; cases z
    · constructor
      · rintro ⟨x, z | z | z⟩
        · exact Or.inr z
        · exact absurd z x
        · exact Or.inl z
      · rintro (z | z)
        · refine ⟨?_, Or.inr (Or.inr z)⟩
          rintro rfl; rw [hs] at z; cases z
        · exact ⟨z ▸ he.1, Or.inl z⟩

example : (tcpInit (demoSrv .io) { demoInit with listen := -1 }).2.1 = kSysErr ∧
    (tcpInit (demoSrv .io) { demoInit with listen := -1 }).2.2 =
      [.socket 3, .setReuse 3 0, .bind 3 0, .listen 3 10 (-1), .close 3] ∧
    (tcpInit (demoSrv .mixed) { demoInit with add := -1 }).2.1 = kSysErr ∧ (demoSrv .mixed).io = none := by
  decide +kernel

/-- C63 is false: `Init` fails because the port is in use, and the socket is left open, also by `Clean`. -/
theorem C63_bind_refuted :
    (tcpInit (demoSrv .io) { demoInit with bind := -1 }).2.1 = kSysErr ∧
    eventsOf ((demoSrv .io).history [.init { demoInit with bind := -1 }, .clean]) =
      .ok [.socket 3, .setReuse 3 0, .bind 3 (-1)] ∧
    (Kern.run {} [.socket 3, .setReuse 3 0, .bind 3 (-1)]).opn 3 = true := by
  decide +kernel

/-! ### C64 -/

/-- C64, what holds: whatever is called after `Register` except `Init`, and whatever happens in the loops, every
event is delivered to the registered callback (as long as the callback itself does not register another). -/
theorem C64_registered_partial (s s' : TcpSrv) (n : Nat) (ops : List SrvOp) (t : List NetEv)
    (hk : ∀ op ∈ ops, KeepsCallback op) (h : s.history (.register n :: ops) = .ok (s', t)) (c : Cb) (ev : SrvEvent)
    (fd : Int) (hc : .call c ev fd ∈ t) : c = .user n := by
  simp only [TcpSrv.history, TcpSrv.apply, bind, Except.bind, reduceCtorEq, if_false, List.nil_append] at h
  cases hh : TcpSrv.history { s with cb := .user n } ops with
  | error e => rw [hh] at h; cases h
  | ok r =>
    rw [hh] at h
    obtain ⟨s1, t1⟩ := r
    cases h
    exact (history_cb hk hh).2 c ev fd hc

example : eventsOf ((demoSrv .io).history [.init demoInit, .register 1, .eventLoop demoRounds []]) = .ok demoTrace ∧
    (.call (.user 1) .leave 6) ∈ demoTrace := by decide +kernel

/-- C64 is false: a callback registered before `Init` is replaced by one that does nothing. -/
theorem C64_before_init_refuted :
    eventsOf ((demoSrv .io).history [.register 1, .init demoInit,
      .eventLoop [{ res := .events [(3, bitsIn, { accept := 5 })] }] []]) =
      .ok [.socket 3, .setReuse 3 0, .bind 3 0, .listen 3 10 0, .epollCreate 4, .ctlAdd 4 3 0 false,
        .wait 4 [(3, bitsIn)], .accept 3 5, .ctlAdd 4 5 0 false, .call .quiet .accept 5] := by
  decide +kernel

/-! ### C85 -/

theorem ioLoop_stopped {s : TcpSrv} {e : Ep} (he : s.io = some e) (hl : e.loop = false) (rounds : List Round) :
    ioLoop s rounds = .ok (s, [], .returned kSuccess) := by
  cases rounds <;> simp [ioLoop, he, hl]

/-- `Stop` on a server in a mode with epoll clears epoll's flag. -/
theorem tcpStop_clears {s s' : TcpSrv} (hs : s.listen.status = .init) (hm : s.mode = .io ∨ s.mode = .mixed)
    (h : tcpStop s = .ok s') : ∃ e, s'.io = some e ∧ e.loop = false := by
  unfold tcpStop at h
  rw [if_neg (by simp [hs])] at h
  rcases hm with hm | hm <;>
  · simp only [hm] at h
    cases hio : s.io with
    | none => simp only [hio] at h; cases h
    | some e => simp only [hio] at h; cases h; exact ⟨_, rfl, rfl⟩

/-- C85, what holds in the modes with epoll: once `Stop` has been called, the first wait that ends (with events,
interrupted or failing) is the last one: the events it reported are handled and the loop returns, whatever
would be reported later and whatever the callbacks do. -/
theorem C85_next_event_partial (pre : List Round) (r : Round) (rest : List Round) (hr : r.stopped = true)
    (hn : r.res ≠ .never) (hpre : ∀ r' ∈ pre, r'.res ≠ .never) :
    ∀ (s s' : TcpSrv) (t : List NetEv) (o : LoopEnd), s.listen.status = .init → s.mode = .io ∨ s.mode = .mixed →
      ioLoop s (pre ++ r :: rest) = .ok (s', t, o) →
      (∃ rc, o = .returned rc) ∧ ioLoop s (pre ++ [r]) = .ok (s', t, o) := by
  induction pre with
  | nil =>
    intro s s' t o hs hm h
    simp only [List.nil_append, ioLoop] at h ⊢
    cases hio : s.io with
    | none => rw [hio] at h; cases h
    | some e =>
      rw [hio] at h
      simp only at h ⊢
      by_cases hl : e.loop = true
      · rw [if_pos hl] at h ⊢
        cases hres : r.res with
        | never => exact absurd hres hn
        | intr =>
          rw [hres] at h
          obtain ⟨s1, e1, h⟩ := bind_ok h
          rw [hr] at e1
          obtain ⟨e', h1, h2⟩ := tcpStop_clears hs hm e1
          rw [ioLoop_stopped h1 h2] at h
          cases h
          refine ⟨⟨_, rfl⟩, ?_⟩
          rw [hr]
          simp only [e1, bind, Except.bind, h1, h2]
          rfl
        | fail =>
          rw [hres] at h
          cases h
          exact ⟨⟨_, rfl⟩, rfl⟩
        | events evs =>
          rw [hres] at h
          obtain ⟨⟨s0, t0⟩, e0, h⟩ := bind_ok h
          obtain ⟨s1, e1, h⟩ := bind_ok h
          rw [hr] at e1
          have k0 := (ioBatch_rel kept_rel (fun _ _ _ _ => trivial) e0).1
          obtain ⟨e', h1, h2⟩ := tcpStop_clears (by rw [k0.listen]; exact hs) (by rw [k0.mode]; exact hm) e1
          rw [ioLoop_stopped h1 h2] at h
          cases h
          refine ⟨⟨_, rfl⟩, ?_⟩
          rw [hr]
          simp only [e0, e1, bind, Except.bind, h1, h2]
          rfl
      · rw [if_neg hl] at h ⊢
        cases h
        exact ⟨⟨_, rfl⟩, rfl⟩
  | cons q pre ih =>
    intro s s' t o hs hm h
    have ih := ih (fun r' h' => hpre r' (by simp [h']))
    simp only [List.cons_append, ioLoop] at h ⊢
    cases hio : s.io with
    | none => rw [hio] at h; cases h
    | some e =>
      rw [hio] at h
      simp only at h ⊢
      by_cases hl : e.loop = true
      · rw [if_pos hl] at h ⊢
        cases hres : q.res with
        | never => exact absurd hres (hpre q (by simp))
        | intr =>
          rw [hres] at h
          obtain ⟨s1, e1, h⟩ := bind_ok h
          obtain ⟨⟨s2, t2, o2⟩, e2, h⟩ := bind_ok h
          cases h
          have k1 := stopIf_kept e1
          have := ih s1 _ _ _ (by rw [k1.listen]; exact hs) (by rw [k1.mode]; exact hm) e2
          refine ⟨this.1, ?_⟩
          simp only [e1, this.2, bind, Except.bind]
        | fail =>
          rw [hres] at h
          cases h
          exact ⟨⟨_, rfl⟩, rfl⟩
        | events evs =>
          rw [hres] at h
          obtain ⟨⟨s0, t0⟩, e0, h⟩ := bind_ok h
          obtain ⟨s1, e1, h⟩ := bind_ok h
          obtain ⟨⟨s2, t2, o2⟩, e2, h⟩ := bind_ok h
          cases h
          have k1 := (ioBatch_rel kept_rel (fun _ _ _ _ => trivial) e0).1.trans (stopIf_kept e1)
          have := ih s1 _ _ _ (by rw [k1.listen]; exact hs) (by rw [k1.mode]; exact hm) e2
          refine ⟨this.1, ?_⟩
          simp only [e0, e1, this.2, bind, Except.bind]
      · rw [if_neg hl] at h ⊢
        cases h
        exact ⟨⟨_, rfl⟩, rfl⟩

/-- In the multi-thread mode: once `Stop` has been called, the first `accept` that ends is the last one, and
the loop returns after stopping the pool. -/
theorem C85_next_accept_partial (pre : List MtRound) (r : MtRound) (rest : List MtRound) (hr : r.stopped = true)
    (hn : r.accept ≠ none) (hpre : ∀ r' ∈ pre, r'.accept ≠ none) :
    ∀ (s s' : TcpSrv) (t : List NetEv) (o : LoopEnd), s.listen.status = .init → s.mode = .multiThread →
      mtLoop s (pre ++ r :: rest) = .ok (s', t, o) →
      (∃ rc, o = .returned rc) ∧ mtLoop s (pre ++ [r]) = .ok (s', t, o) := by
  induction pre with
  | nil =>
    intro s s' t o hs hm h
    simp only [List.nil_append, mtLoop] at h ⊢
    by_cases hl : s.loop = true
    · rw [if_pos hl] at h ⊢
      obtain ⟨s1, e1, h⟩ := bind_ok h
      have e1' := e1
      rw [hr] at e1'
      simp only [stopIf, if_true, tcpStop, hs, ne_eq, not_true_eq_false, if_false, hm] at e1'
      cases e1'
      cases hacc : r.accept with
      | none => exact absurd hacc hn
      | some fd =>
        rw [hacc] at h
        obtain ⟨_, e2, h⟩ := bind_ok h
        cases h
        refine ⟨⟨_, rfl⟩, ?_⟩
        simp only [e1, bind, Except.bind]
        rw [if_pos (show (!false) = true from rfl)]
        simp only [e2]
    · rw [if_neg hl] at h ⊢
      obtain ⟨_, e2, h⟩ := bind_ok h
      cases h
      exact ⟨⟨_, rfl⟩, by simp only [e2, bind, Except.bind]⟩
  | cons q pre ih =>
    intro s s' t o hs hm h
    have ih := ih (fun r' h' => hpre r' (by simp [h']))
    simp only [List.cons_append, mtLoop] at h ⊢
    by_cases hl : s.loop = true
    · rw [if_pos hl] at h ⊢
      obtain ⟨s1, e1, h⟩ := bind_ok h
      have k1 := stopIf_kept e1
      simp only [e1, bind, Except.bind]
      cases hacc : q.accept with
      | none => exact absurd hacc (hpre q (by simp))
      | some fd =>
        rw [hacc] at h
        simp only at h ⊢
        by_cases h2 : (!s1.loop) = true
        · rw [if_pos h2] at h ⊢
          obtain ⟨_, e2, h⟩ := bind_ok h
          cases h
          exact ⟨⟨_, rfl⟩, by simp only [e2]⟩
        · rw [if_neg h2] at h ⊢
          by_cases h3 : fd < 0
          · rw [if_pos h3] at h ⊢
            obtain ⟨⟨s2, t2⟩, e2, h⟩ := bind_ok h
            cases h
            exact ⟨⟨_, rfl⟩, by simp only [e2]⟩
          · rw [if_neg h3] at h ⊢
            obtain ⟨_, e3, h⟩ := bind_ok h
            obtain ⟨⟨s2, t2, o2⟩, e2, h⟩ := bind_ok h
            cases h
            have := ih s1 _ _ _ (by rw [k1.listen]; exact hs) (by rw [k1.mode]; exact hm) e2
            refine ⟨this.1, ?_⟩
            simp only [e3, this.2]
    · rw [if_neg hl] at h ⊢
      obtain ⟨_, e2, h⟩ := bind_ok h
      cases h
      exact ⟨⟨_, rfl⟩, by simp only [e2, bind, Except.bind]⟩

/-- A running server. -/
def demoUp (m : SrvMode) : TcpSrv :=
  { demoSrv m with cb := .user 1, listen := ⟨3, .init⟩, pool := decide (m ≠ .io),
                   io := if m = .multiThread then none else some { fd := ⟨4, .init⟩ } }

example : ((demoSrv .io).history [.init demoInit, .register 1]).map (·.1) = .ok (demoUp .io) ∧
    ((demoSrv .mixed).history [.init demoInit, .register 1]).map (·.1) = .ok (demoUp .mixed) ∧
    ((demoSrv .multiThread).history [.init demoInit, .register 1]).map (·.1) = .ok (demoUp .multiThread) := by
  decide +kernel

example : (ioLoop (demoUp .io) ([{ res := .events [(3, bitsIn, { accept := 5 })] }] ++
      { res := .events [(5, bitsIn, {})], stopped := true } :: [{ res := .events [(5, bitsLeave, {})] }])).map (·.2) =
    .ok ([.wait 4 [(3, bitsIn)], .accept 3 5, .ctlAdd 4 5 0 false, .call (.user 1) .accept 5,
      .wait 4 [(5, bitsIn)], .call (.user 1) .read 5], .returned kSuccess) := by decide +kernel

/-- C85 is false: in the I/O multiplexing mode `Stop` followed by `WakeUp` makes no system call, so a loop that
waits goes on waiting until something else happens. -/
theorem C85_still_waiting_refuted :
    (demoSrv .io).history [.init demoInit, .register 1] = .ok (demoUp .io,
      [.socket 3, .setReuse 3 0, .bind 3 0, .listen 3 10 0, .epollCreate 4, .ctlAdd 4 3 0 false]) ∧
    ∃ s', Cppnet.eventLoop (demoUp .io) [{ res := .never, stopped := true }] [] = .ok (s', [], .waiting) ∧
      s'.loop = false ∧ ∀ soc conn, tcpWakeUp s' soc conn = (kSuccess, []) := by
  refine ⟨by decide +kernel, { demoUp .io with loop := false, io := some { fd := ⟨4, .init⟩, loop := false } }, ?_, rfl, ?_⟩
  · decide +kernel
  · intro soc conn; rfl

/-! ### C86 -/

theorem tcpInit_noEdge (s : TcpSrv) (a : InitAns) : NoEdge (tcpInit s a).2.2 := by
  have hc : ∀ s : TcpSrv, NoEdge (closeListen s).2 := by
    intro s ep fd r edge h; unfold closeListen at h; split at h <;> simp at h
  have hm : ∀ (e : Ep) (fd nb res : Int), NoEdge (epMonitor e fd nb res).2 :=
    fun e fd nb res ep f r edge h => monitor_fromCb e fd nb res _ h
  have hi : ∀ s : TcpSrv, NoEdge (initEpoll s a).2.2 := by
    intro s
    have h0 : NoEdge (epInit {} a.epoll).2.2 := by
      intro ep fd r edge h; unfold epInit at h; simp only at h; split at h <;> simp at h
    unfold initEpoll
    simp only
    split
    · exact noEdge_append h0 (hc _)
    · split
      · exact noEdge_append (noEdge_append h0 (hm _ _ _ _)) (hc _)
      · exact noEdge_append h0 (hm _ _ _ _)
  have hk : NoEdge (createSocket s a).2 := by
    intro ep fd r edge h
    unfold createSocket at h
    repeat' (split at h)
    all_goals simp at h
  unfold tcpInit
  simp only
  split
  · exact hk
  · have hl : ∀ x y z, NoEdge ((createSocket s a).2 ++ [NetEv.listen x y z]) := fun x y z =>
      noEdge_append hk (by intro ep fd r edge h; simp at h)
    split
    · exact noEdge_append (hl _ _ _) (hc _)
    · refine noEdge_append (hl _ _ _) ?_
      unfold initMode
      split
      · simp only; split <;> exact hi _
      · simp only; split <;> exact hi _
      · simp [NoEdge]
      · simp [NoEdge]

theorem tcpClean_noEdge (s : TcpSrv) : NoEdge (tcpClean s).2 := by
  intro ep fd r edge hx
  unfold tcpClean closeListen epClose at hx
  simp only at hx
  repeat' (split at hx)
  all_goals simp at hx

theorem apply_noEdge {s s' : TcpSrv} {op : SrvOp} {t : List NetEv} {o : LoopEnd} (h : s.apply op = .ok (s', t, o)) :
    NoEdge t := by
  cases op with
  | init a => cases h; exact tcpInit_noEdge s a
  | eventLoop rounds mt => exact (eventLoop_rel kept_rel (roundsAny _) (fun _ _ => trivial) h).2
  | stop =>
    simp only [TcpSrv.apply] at h
    cases hst : tcpStop s with
    | error e => rw [hst] at h; cases h
    | ok s1 => rw [hst] at h; cases h; simp [NoEdge]
  | clean =>
    cases h
    exact tcpClean_noEdge s
  | wakeUp soc conn =>
    cases h
    intro ep fd r edge hx
    exact tcpWakeUp_plain _ hx
  | removeSoc fd res =>
    cases h
    intro ep fd r edge hx
    exact tcpRemove_plain _ hx
  | addSoc fd nb res =>
    simp only [TcpSrv.apply, tcpAdd] at h
    cases hio : s.io with
    | none => rw [hio] at h; cases h
    | some e =>
      rw [hio] at h; cases h
      intro ep fd r edge hx
      exact epMonitor_plain _ hx
  | setTrigger edge =>
    simp only [TcpSrv.apply] at h
    cases hio : s.io with
    | none => rw [hio] at h; cases h
    | some e => rw [hio] at h; cases h; simp [NoEdge]
  | _ => cases h; simp [NoEdge]

/-- C86 is false: whatever is called in whatever order, the trigger type included, no descriptor is ever
watched edge-triggered. -/
theorem C86_always_level_refuted (ops : List SrvOp) : ∀ (s s' : TcpSrv) (t : List NetEv),
    s.history ops = .ok (s', t) → ∀ ep fd r edge, .ctlAdd ep fd r edge ∈ t → edge = false := by
  induction ops with
  | nil => intro s s' t h; cases h; simp
  | cons op ops ih =>
    intro s s' t h
    simp only [TcpSrv.history] at h
    obtain ⟨⟨s1, t1, o1⟩, e1, h⟩ := bind_ok h
    have a1 := apply_noEdge e1
    simp only at h
    by_cases ho : o1 = .waiting
    · rw [if_pos ho] at h; cases h; exact a1
    · rw [if_neg ho] at h
      obtain ⟨⟨s2, t2⟩, e2, h⟩ := bind_ok h
      cases h
      exact noEdge_append a1 (ih _ _ _ e2)

example : eventsOf ((demoSrv .io).history [.init demoInit, .setTrigger true, .addSoc 7 0 0]) =
    .ok [.socket 3, .setReuse 3 0, .bind 3 0, .listen 3 10 0, .epollCreate 4, .ctlAdd 4 3 0 false,
      .ctlAdd 4 7 0 false] := by decide +kernel

/-! ### C87 -/

/-- C87, what holds: in the mixed mode the tasks given to the pool are exactly, and in the order of, the reports
that a connection is readable (and neither closed by its peer nor in error), whatever the callbacks do. -/
theorem C87_tasks_partial (s s' : TcpSrv) (rounds : List Round) (t : List NetEv) (o : LoopEnd) (hm : s.mode = .mixed)
    (h : ioLoop s rounds = .ok (s', t, o)) : tasks t = onlyReadable s.listen.fd (waitsOf t) :=
  ioLoop_tasks hm h

/-- C87 is false: the pool has not yet run the task of a readable connection when epoll reports it again, so a
second task is queued for it; and then the peer leaves, and the descriptor is closed with both tasks queued. -/
theorem C87_overlap_refuted :
    ∃ s' tr, ioLoop (demoUp .mixed) [{ res := .events [(3, bitsIn, { accept := 5 })] },
        { res := .events [(5, bitsIn, {})] }, { res := .events [(5, bitsIn, {})] },
        { res := .events [(5, bitsLeave, {})] }] = .ok (s', tr, .waiting) ∧
      tr = [.wait 4 [(3, bitsIn)], .accept 3 5, .ctlAdd 4 5 0 false, .call (.user 1) .accept 5,
        .wait 4 [(5, bitsIn)], .addTask 5, .wait 4 [(5, bitsIn)], .addTask 5,
        .wait 4 [(5, bitsLeave)], .call (.user 1) .leave 5, .ctlDel 4 5 0, .close 5] := by
  refine ⟨demoUp .mixed, _, ?_, rfl⟩
  decide +kernel

/-! ### C88 -/

/-- The server's own descriptors, as `Init` made them: open, or closed by now. -/
def Owned (l ep : Int) (s : TcpSrv) (tr : List NetEv) : Prop :=
  (s.listen = ⟨l, .init⟩ ∨ (s.listen = ⟨l, .closed⟩ ∧ .close l ∈ tr)) ∧
  ∃ e, s.io = some e ∧ (e.fd = ⟨ep, .init⟩ ∨ (e.fd = ⟨ep, .closed⟩ ∧ .close ep ∈ tr))

theorem Owned.more {l ep : Int} {s : TcpSrv} {tr : List NetEv} (h : Owned l ep s tr) (t : List NetEv) :
    Owned l ep s (tr ++ t) := by
  obtain ⟨h1, e, he, h2⟩ := h
  refine ⟨h1.imp id (fun x => ⟨x.1, List.mem_append_left _ x.2⟩), e, he, h2.imp id (fun x => ⟨x.1, List.mem_append_left _ x.2⟩)⟩

theorem Owned.kept {l ep : Int} {s s' : TcpSrv} {tr : List NetEv} (h : Owned l ep s tr) (k : Kept s s') :
    Owned l ep s' tr := by
  obtain ⟨h1, e, he, h2⟩ := h
  have hi := k.io
  rw [he] at hi
  cases hs : s'.io with
  | none => rw [hs] at hi; cases hi
  | some e' =>
    rw [hs] at hi
    have hf : e'.fd = e.fd := by simpa using hi
    exact ⟨by rw [k.listen]; exact h1, e', hs, by rw [hf]; exact h2⟩

theorem owned_clean {l ep : Int} {s : TcpSrv} {tr : List NetEv} (h : Owned l ep s tr) :
    Owned l ep (tcpClean s).1 (tr ++ (tcpClean s).2) ∧ .close l ∈ tr ++ (tcpClean s).2 ∧ .close ep ∈ tr ++ (tcpClean s).2 := by
  obtain ⟨h1, e, he, h2⟩ := h
  unfold tcpClean closeListen epClose
  rcases h1 with h1 | h1 <;> rcases h2 with h2 | h2 <;> simp [Owned, h1, h2, he]

theorem owned_apply {l ep : Int} {s s' : TcpSrv} {op : SrvOp} {tr t : List NetEv} {o : LoopEnd} (h : Owned l ep s tr)
    (hop : ∀ a, op ≠ .init a) (e : s.apply op = .ok (s', t, o)) : Owned l ep s' (tr ++ t) := by
  cases op with
  | init a => exact absurd rfl (hop a)
  | register n =>
    cases e
    exact Owned.more (show Owned l ep { s with cb := .user n } tr from h) []
  | eventLoop rounds mt =>
    exact (h.kept (eventLoop_rel kept_rel (roundsAny _) (fun _ _ => trivial) e).1).more t
  | stop =>
    simp only [TcpSrv.apply] at e
    cases hst : tcpStop s with
    | error x => rw [hst] at e; cases e
    | ok s1 => rw [hst] at e; cases e; exact (h.kept (tcpStop_kept hst)).more []
  | clean => cases e; exact (owned_clean h).1
  | wakeUp soc conn => cases e; exact h.more _
  | removeSoc fd res => cases e; exact h.more _
  | addSoc fd nb res =>
    simp only [TcpSrv.apply, tcpAdd] at e
    cases hio : s.io with
    | none => rw [hio] at e; cases e
    | some x => rw [hio] at e; cases e; exact h.more _
  | setMode m => cases e; exact Owned.more (show Owned l ep { s with mode := m } tr from h) []
  | setAddr a => cases e; exact Owned.more (show Owned l ep { s with addr := a } tr from h) []
  | setQueue n => cases e; exact Owned.more (show Owned l ep { s with maxQueue := n } tr from h) []
  | setTrigger edge =>
    simp only [TcpSrv.apply] at e
    obtain ⟨h1, x, hx, h2⟩ := h
    simp only [hx] at e
    cases e
    exact Owned.more (s := { s with io := some { x with baseTrigger := edge } }) (tr := tr) ⟨h1, _, rfl, h2⟩ []

theorem owned_history {l ep : Int} {ops : List SrvOp} : ∀ {s s' : TcpSrv} {tr t : List NetEv}, Owned l ep s tr →
    (∀ op ∈ ops, ∀ a, op ≠ .init a) → s.history ops = .ok (s', t) → Owned l ep s' (tr ++ t) := by
  induction ops with
  | nil => intro s s' tr t h _ e; cases e; exact h.more []
  | cons op ops ih =>
    intro s s' tr t h hop e
    simp only [TcpSrv.history] at e
    obtain ⟨⟨s1, t1, o1⟩, e1, e⟩ := bind_ok e
    have a1 := owned_apply h (hop op (by simp)) e1
    simp only at e
    by_cases ho : o1 = .waiting
    · rw [if_pos ho] at e; cases e; exact a1
    · rw [if_neg ho] at e
      obtain ⟨⟨s2, t2⟩, e2, e⟩ := bind_ok e
      cases e
      have := ih a1 (fun op' h' => hop op' (by simp [h'])) e2
      rw [← List.append_assoc]
      exact this

/-- C88, what holds (I/O multiplexing mode): after a successful `Init`, whatever is called and whatever happens,
with the exception of another `Init`, once `Clean` has been called (at any moment, also while a loop waits)
the listening socket and the epoll descriptor have been closed; `Clean` closes nothing else, and calling it
again closes nothing. -/
theorem C88_clean_partial (s0 s : TcpSrv) (a : InitAns) (ops : List SrvOp) (t : List NetEv) (hm : s0.mode = .io)
    (hi : (tcpInit s0 a).2.1 = kSuccess) (hops : ∀ op ∈ ops, ∀ a, op ≠ .init a)
    (h : s0.history (.init a :: ops) = .ok (s, t)) :
    .close a.socket ∈ t ++ (tcpClean s).2 ∧ .close a.epoll ∈ t ++ (tcpClean s).2 ∧
    (∀ e ∈ (tcpClean s).2, e = .close a.socket ∨ e = .close a.epoll) ∧
    (tcpClean (tcpClean s).1).2 = [] := by
  obtain ⟨_, _, _, hinit⟩ := tcpInit_io hm hi
  simp only [TcpSrv.history, TcpSrv.apply, hinit, bind, Except.bind, reduceCtorEq, if_false] at h
  cases hh : TcpSrv.history { s0 with loop := true, listen := ⟨a.socket, .init⟩,
                                       io := some { fd := ⟨a.epoll, .init⟩ }, cb := .quiet } ops with
  | error e => rw [hh] at h; cases h
  | ok r =>
    obtain ⟨s1, t1⟩ := r
    rw [hh] at h
    cases h
    have o1 := owned_history (l := a.socket) (ep := a.epoll) (tr := [.socket a.socket, .setReuse a.socket a.reuse,
      .bind a.socket a.bind, .listen a.socket s0.maxQueue a.listen, .epollCreate a.epoll,
      .ctlAdd a.epoll a.socket a.add false]) ⟨Or.inl rfl, _, rfl, Or.inl rfl⟩ hops hh
    refine ⟨(owned_clean o1).2.1, (owned_clean o1).2.2, ?_⟩
    obtain ⟨h1, e, he, h2⟩ := o1
    unfold tcpClean closeListen epClose
    rcases h1 with h1 | h1 <;> rcases h2 with h2 | h2 <;> simp [h1, h2, he]

example : eventsOf ((demoSrv .io).history [.init demoInit, .register 1, .stop, .clean, .clean]) =
    .ok [.socket 3, .setReuse 3 0, .bind 3 0, .listen 3 10 0, .epollCreate 4, .ctlAdd 4 3 0 false, .close 3, .close 4] := by
  decide +kernel

/-- `WakeUp` leaves open exactly what was open, unless its `connect` fails. -/
theorem C88_wake_up_partial (s : TcpSrv) (soc conn : Int) (k : Kern) (hc : 0 ≤ conn)
    (hp : Possible k (tcpWakeUp s soc conn).2) (fd : Int) : (k.run (tcpWakeUp s soc conn).2).opn fd = k.opn fd := by
  have hcn : ¬ conn < 0 := by omega
  have main : ∀ r : Int × List NetEv, r = (if soc < 0 then (kSysErr, [NetEv.socket soc]) else if conn < 0 then
        (kSysErr, [.socket soc, .connect soc conn]) else (kSuccess, [.socket soc, .connect soc conn, .close soc])) →
        Possible k r.2 → (k.run r.2).opn fd = k.opn fd := by
    intro r hr hp
    by_cases h : soc < 0
    · rw [if_pos h] at hr; subst hr; simp [Kern.step, h]
    · rw [if_neg h, if_neg hcn] at hr
      subst hr
      have : k.opn soc = false := hp.1 (by omega)
      simp [Kern.step, h]
      cases hk : k.opn fd with
      | true =>
        have : fd ≠ soc := by rintro rfl; rw [this] at hk; cases hk
        simp [this]
      | false =>
        by_cases e : fd = soc <;> simp [e]
  unfold tcpWakeUp at hp ⊢
  by_cases hl : s.loop = true
  · rw [if_pos hl]; rfl
  · rw [if_neg hl] at hp ⊢
    cases hm : s.mode with
    | io => rfl
    | other => rfl
    | multiThread => rw [hm] at hp; exact main _ rfl hp
    | mixed => rw [hm] at hp; exact main _ rfl hp

example : tcpWakeUp { demoUp .mixed with loop := false } 9 0 = (kSuccess, [.socket 9, .connect 9 0, .close 9]) ∧
    Possible {} (tcpWakeUp { demoUp .mixed with loop := false } 9 0).2 := by decide +kernel

/-- C88 is false: a second `Init` forgets the descriptors of the first, and `WakeUp` whose `connect` fails leaves
its socket open; `Clean` does not close them. -/
theorem C88_leaks_refuted :
    (∃ tr, eventsOf ((demoSrv .io).history [.init demoInit, .init { socket := 5, epoll := 6 }, .clean]) = .ok tr ∧
      Possible {} tr ∧ (Kern.run {} tr).opn 3 = true ∧ (Kern.run {} tr).opn 4 = true) ∧
    (∃ tr, eventsOf ((demoSrv .multiThread).history [.init demoInit, .stop, .wakeUp 4 (-1), .clean]) = .ok tr ∧
      Possible {} tr ∧ (Kern.run {} tr).opn 4 = true) := by
  refine ⟨⟨[.socket 3, .setReuse 3 0, .bind 3 0, .listen 3 10 0, .epollCreate 4, .ctlAdd 4 3 0 false,
      .socket 5, .setReuse 5 0, .bind 5 0, .listen 5 10 0, .epollCreate 6, .ctlAdd 6 5 0 false, .close 5, .close 6], ?_⟩,
    [.socket 3, .setReuse 3 0, .bind 3 0, .listen 3 10 0, .socket 4, .connect 4 (-1), .close 3], ?_⟩ <;>
  decide +kernel

/-! ### C89 -/

/-- C89, what holds: after a successful `Init` in one of the three modes, no sequence of calls that respects the
mode crashes (no null pointer, no empty callback), whatever the system answers and the callbacks do. -/
theorem C89_orderly_partial (m : SrvMode) (s0 : TcpSrv) (a : InitAns) (ops : List SrvOp) (hr : m ≠ .other)
    (hm : s0.mode = m) (hi : (tcpInit s0 a).2.1 = kSuccess) (ho : ∀ op ∈ ops, Orderly m op) :
    ∃ s t, s0.history (.init a :: ops) = .ok (s, t) := by
  obtain ⟨s, t, h⟩ := history_ok (tcpInit_fresh hm hr hi) ho
  exact ⟨s, (tcpInit s0 a).2.2 ++ t, by
    simp only [TcpSrv.history, TcpSrv.apply, bind, Except.bind, reduceCtorEq, if_false, h]⟩

example : Orderly .mixed (.addSoc 5 0 0) ∧ Orderly .multiThread (.wakeUp 7 (-1)) ∧
    Orderly .multiThread (.eventLoop [] [⟨some 5, false, [.stop]⟩]) ∧ (tcpInit (demoSrv .mixed) demoInit).2.1 = kSuccess := by
  refine ⟨by simp [Orderly], trivial, fun _ => ⟨by simp, by simp⟩, by decide +kernel⟩

/-- C89 is false: `AddSoc` before `Init`, `AddSoc` in the multi-thread mode, and `Stop` or `EventLoop` after the
mode was changed go through a null pointer. -/
theorem C89_null_refuted :
    (demoSrv .io).history [.addSoc 5 0 0] = .error .ub ∧
    (demoSrv .multiThread).history [.init demoInit, .register 1, .addSoc 5 0 0] = .error .ub ∧
    (demoSrv .multiThread).history [.init demoInit, .setMode .io, .stop] = .error .ub ∧
    (demoSrv .io).history [.init demoInit, .setMode .multiThread, .eventLoop [] [⟨some 5, false, []⟩]] = .error .ub := by
  decide +kernel

end Cppnet
