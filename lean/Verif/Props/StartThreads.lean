import Verif.Model.StartThreads
import Verif.Props.TcpMore

/-!
# C188: a server that is refused threads

`[.stop, .clean]` is what the destructor of the server does (tcp_server.cpp:14-17).
-/

namespace Cppnet
open Spec

theorem ofFd_init {fd : Int} (h : 0 ≤ fd) : Sock.ofFd fd = { fd := fd, status := .init } := by
  unfold Sock.ofFd
  rw [if_neg (by omega)]

/-- What a refused `Init` leaves. -/
theorem refused_shape {s s' : TcpSrv} {a : InitAns} {t} (h : tcpInitRefused s a = some (s', t)) :
    0 ≤ a.socket ∧ (s.mode = .mixed ∨ s.mode = .multiThread) ∧
    s' = { s with loop := true, listen := Sock.ofFd a.socket, pool := true } ∧
    t = [.socket a.socket, .setReuse a.socket a.reuse, .bind a.socket a.bind, .listen a.socket s.maxQueue a.listen] := by
  unfold tcpInitRefused createSocket at h
  by_cases h1 : a.socket < 0
  · simp [h1, Sock.ofFd, kSysErr] at h
  by_cases h2 : a.reuse < 0
  · simp [h1, h2, Sock.ofFd, kSysErr] at h
  by_cases h3 : addressIP s.addr = [] ∨ addressPort s.addr = 0
  · simp [h1, h2, h3, Sock.ofFd, kLogicErr] at h
  by_cases h4 : a.bind < 0
  · simp [h1, h2, h3, h4, Sock.ofFd, kSysErr] at h
  simp only [if_neg h1, if_neg h2, if_neg h3, if_neg h4] at h
  by_cases h5 : (Sock.ofFd a.socket).status ≠ .init ∨ a.listen < 0
  · rw [if_pos h5] at h; cases h
  rw [if_neg h5] at h
  cases hm : s.mode with
  | io => rw [hm] at h; cases h
  | other => rw [hm] at h; cases h
  | mixed =>
    rw [hm] at h
    cases h
    exact ⟨by omega, .inl rfl, rfl, by rw [ofFd_init (by omega)]; rfl⟩
  | multiThread =>
    rw [hm] at h
    cases h
    exact ⟨by omega, .inr rfl, rfl, by rw [ofFd_init (by omega)]; rfl⟩

/-- Opening a descriptor that was not open and closing it again leaves what was open. -/
theorem opn_back {k : Kern} {fd : Int} (h0 : 0 ≤ fd) (hn : k.opn fd = false) (x y z : Int) (q : Int) (i : Int) :
    (k.run ([.socket fd, .setReuse fd x, .bind fd y, .listen fd q z] ++ [.close fd])).opn i = k.opn i := by
  have h1 : ¬ fd < 0 := by omega
  simp only [Kern.run, List.cons_append, List.nil_append, List.foldl_cons, List.foldl_nil, Kern.step, if_neg h1]
  by_cases hi : i = fd
  · subst hi; simp [hn]
  · have : (i == fd) = false := by simpa using hi
    simp [bne, this]

/-- **C188**, multi-thread mode: if the system refuses a thread while a new server starts, the destructor returns, and every
descriptor is as it was before `Init`.  (The threads that did start end with the pool: `C185_destroy_partial`.  Missing: the mixed
mode, see `C188_mixed_refuted`.) -/
theorem C188_destroy_partial (s s' : TcpSrv) (a : InitAns) (t : List NetEv) (hm : s.mode = .multiThread) (hio : s.io = none)
    (h : tcpInitRefused s a = some (s', t)) (k : Kern) (hp : Possible k t) :
    ∃ s'' t', s'.history [.stop, .clean] = .ok (s'', t') ∧ ∀ fd, (k.run (t ++ t')).opn fd = k.opn fd := by
  obtain ⟨h0, -, rfl, rfl⟩ := refused_shape h
  rw [ofFd_init h0]
  have key : ∃ s'', ({ s with loop := true, listen := { fd := a.socket, status := .init }, pool := true } : TcpSrv).history [.stop, .clean] =
      .ok (s'', [.close a.socket]) := by
    simp [TcpSrv.history, TcpSrv.apply, tcpStop, hm, tcpClean, closeListen, hio, bind, Except.bind, Except.map]
  obtain ⟨s'', e⟩ := key
  exact ⟨s'', _, e, fun fd => opn_back h0 (hp.1 h0) _ _ _ _ fd⟩

/-- **C188**, both modes: if `Clean` is called after the refusal, the destructor returns, and every descriptor is as it was. -/
theorem C188_clean_partial (s s' : TcpSrv) (a : InitAns) (t : List NetEv) (hio : s.io = none)
    (h : tcpInitRefused s a = some (s', t)) (k : Kern) (hp : Possible k t) :
    ∃ s'' t', s'.history [.clean, .stop, .clean] = .ok (s'', t') ∧ ∀ fd, (k.run (t ++ t')).opn fd = k.opn fd := by
  obtain ⟨h0, -, rfl, rfl⟩ := refused_shape h
  rw [ofFd_init h0]
  have key : ∃ s'', ({ s with loop := true, listen := { fd := a.socket, status := .init }, pool := true } : TcpSrv).history [.clean, .stop, .clean] =
      .ok (s'', [.close a.socket]) := by
    simp [TcpSrv.history, TcpSrv.apply, tcpStop, tcpClean, closeListen, hio, bind, Except.bind, Except.map]
  obtain ⟨s'', e⟩ := key
  exact ⟨s'', _, e, fun fd => opn_back h0 (hp.1 h0) _ _ _ _ fd⟩

/-- **C188**, starting again: after the refusal and `Clean`, `Init` makes the same system calls, and returns the same, as if there
had been no first attempt. -/
theorem C188_again_partial (s s' : TcpSrv) (a b : InitAns) (t : List NetEv) (hio : s.io = none) (h : tcpInitRefused s a = some (s', t)) :
    (tcpInit (tcpClean s').1 b).2 = (tcpInit s b).2 := by
  obtain ⟨h0, hm, rfl, rfl⟩ := refused_shape h
  rw [ofFd_init h0]
  have hc : ∀ x : TcpSrv, x.addr = s.addr → createSocket x b = createSocket s b := by
    intro x hx
    unfold createSocket
    rw [hx]
  have e : (tcpClean { s with loop := true, listen := { fd := a.socket, status := .init }, pool := true }).1 =
      { s with loop := true, listen := { fd := a.socket, status := .closed }, pool := true } := by
    simp [tcpClean, closeListen, hio]
  rw [e]
  unfold tcpInit
  rw [hc { s with loop := true, listen := { fd := a.socket, status := .closed }, pool := true } rfl]
  obtain ⟨l, t1⟩ := createSocket s b
  dsimp only
  by_cases h1 : l.status ≠ .init
  · rw [if_pos h1, if_pos h1]
  rw [if_neg h1, if_neg h1]
  by_cases h2 : b.listen < 0
  · rw [if_pos h2, if_pos h2]
    have hs : l.status = .init := Decidable.not_not.1 h1
    simp [closeListen, hs]
  rw [if_neg h2, if_neg h2]
  rcases hm with hm | hm <;> simp [initMode, hm]

/-- **C188**, refuted for the mixed mode: whenever a new server in mixed mode is refused a thread, its `Stop`, and so its
destructor, follows a null pointer. -/
theorem C188_mixed_refuted (s s' : TcpSrv) (a : InitAns) (t : List NetEv) (hm : s.mode = .mixed) (hio : s.io = none)
    (h : tcpInitRefused s a = some (s', t)) (ops : List SrvOp) : s'.history (.stop :: ops) = .error .ub := by
  obtain ⟨h0, -, rfl, rfl⟩ := refused_shape h
  rw [ofFd_init h0]
  simp [TcpSrv.history, TcpSrv.apply, tcpStop, hm, hio, bind, Except.bind, Except.map]

/-- `Init` that succeeds in multi-thread mode. -/
theorem mt_shape {x : TcpSrv} {b : InitAns} (hm : x.mode = .multiThread) (hb : (tcpInit x b).2.1 = kSuccess) :
    0 ≤ b.socket ∧ tcpInit x b = ({ x with loop := true, listen := { fd := b.socket, status := .init }, pool := true, cb := .quiet }, kSuccess,
      [.socket b.socket, .setReuse b.socket b.reuse, .bind b.socket b.bind, .listen b.socket x.maxQueue b.listen]) := by
  unfold tcpInit createSocket at hb ⊢
  by_cases h1 : b.socket < 0
  · simp [h1, Sock.ofFd, kSysErr, kSuccess] at hb
  by_cases h2 : b.reuse < 0
  · simp [h1, h2, Sock.ofFd, kSysErr, kSuccess] at hb
  by_cases h3 : addressIP x.addr = [] ∨ addressPort x.addr = 0
  · simp [h1, h2, h3, Sock.ofFd, kLogicErr, kSysErr, kSuccess] at hb
  by_cases h4 : b.bind < 0
  · simp [h1, h2, h3, h4, Sock.ofFd, kSysErr, kSuccess] at hb
  have e := ofFd_init (fd := b.socket) (by omega)
  by_cases h5 : b.listen < 0
  · simp [h1, h2, h3, h4, h5, e, closeListen, kSysErr, kSuccess] at hb
  refine ⟨by omega, ?_⟩
  simp [h1, h2, h3, h4, h5, e, initMode, hm]

/-- **C188**, refuted: if `Init` is called again without `Clean`, the socket of the first attempt stays open for ever, also when
the server is destroyed. -/
theorem C188_again_refuted (s s' : TcpSrv) (a b : InitAns) (t t2 : List NetEv) (s2 : TcpSrv) (hm : s.mode = .multiThread) (hio : s.io = none)
    (h : tcpInitRefused s a = some (s', t)) (hb : (tcpInit s' b).2.1 = kSuccess) (h2 : s'.history [.init b, .stop, .clean] = .ok (s2, t2))
    (k : Kern) (hp : Possible k (t ++ t2)) : (k.run (t ++ t2)).opn a.socket = true := by
  obtain ⟨h0, -, rfl, rfl⟩ := refused_shape h
  rw [ofFd_init h0] at h2 hb
  obtain ⟨b0, e⟩ := mt_shape (x := { s with loop := true, listen := { fd := a.socket, status := .init }, pool := true }) hm hb
  have key : s2.mode = s2.mode ∧ t2 = [.socket b.socket, .setReuse b.socket b.reuse, .bind b.socket b.bind, .listen b.socket s.maxQueue b.listen,
      .close b.socket] := by
    simp only [TcpSrv.history, TcpSrv.apply] at h2
    rw [e] at h2
    simp [tcpStop, hm, tcpClean, closeListen, hio, bind, Except.bind, Except.map] at h2
    exact ⟨rfl, h2.2.symm⟩
  obtain ⟨-, rfl⟩ := key
  have ha : ¬ a.socket < 0 := by omega
  have hb' : ¬ b.socket < 0 := by omega
  have hne : b.socket ≠ a.socket := by
    intro e1
    obtain ⟨-, -, -, -, h5, -⟩ := hp
    have := h5 b0
    simp [Kern.step, ha, e1] at this
  have : (a.socket == b.socket) = false := by simpa using fun h => hne h.symm
  simp [Kern.run, Kern.step, ha, hb', this, bne]

/-- Hypotheses met in both modes, and by a second attempt that succeeds. -/
example : (∃ x, tcpInitRefused (demoSrv .multiThread) demoInit = some x ∧ (demoSrv .multiThread).io = none ∧
      (tcpInit x.1 { demoInit with socket := 9 }).2.1 = kSuccess ∧
      ∃ y, x.1.history [.init { demoInit with socket := 9 }, .stop, .clean] = .ok y ∧
        y.2 = [.socket 9, .setReuse 9 0, .bind 9 0, .listen 9 10 0, .close 9]) ∧
    (∃ x, tcpInitRefused (demoSrv .mixed) demoInit = some x ∧ (demoSrv .mixed).io = none) := by
  refine ⟨⟨_, rfl, rfl, by decide +kernel, _, rfl, by decide +kernel⟩, ⟨_, rfl, rfl⟩⟩

end Cppnet
