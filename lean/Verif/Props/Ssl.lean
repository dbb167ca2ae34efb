import Verif.Spec.Ssl
import Verif.Proofs.TcpRel

/-!
# C73, C90–C96: TLS sockets, contexts, and the server's TLS connections
-/

namespace Cppnet
open Spec

/-! ### C73 -/

/-- C73 is false: `Close` always closes the descriptor first and then performs the TLS shutdown on the number
that it has just closed. -/
theorem C73_close_order_refuted (s : SslSock) (n : Nat) (h : s.status = .init) (hs : s.ssl = some (n, s.fd)) :
    s.close.2.2 = [.close s.fd, .shutdown n s.fd, .free n] := by
  simp [SslSock.close, h, SslSock.closeSSL, hs]

/-- A fresh TLS socket. -/
theorem made_open (n : Nat) (fd : Int) (h : 0 ≤ fd) :
    (SslSock.make (some n) (Sock.ofFd fd)).1 = ⟨fd, .init, some (n, fd)⟩ := by
  have : ¬ fd < 0 := by omega
  simp [SslSock.make, Sock.ofFd, this]

theorem ssl_idle {n : Nat} {fd : Int} {ops : List SslOp} (hops : ∀ op ∈ ops, op ≠ .close ∧ op ≠ .closeSSL) :
    ∃ t, SslSock.run ⟨fd, .init, some (n, fd)⟩ ops = .ok (⟨fd, .init, some (n, fd)⟩, t) ∧
      ∀ e ∈ t, (∃ rc, e = .connect fd rc) ∨ (∃ rc, e = .sslConnect n rc) ∨ e = .io n fd := by
  induction ops with
  | nil => exact ⟨[], rfl, by simp⟩
  | cons op ops ih =>
    obtain ⟨t, h1, h2⟩ := ih (fun o ho => hops o (by simp [ho]))
    have hop := hops op (by simp)
    have key : ∃ t0, SslSock.apply ⟨fd, .init, some (n, fd)⟩ op = .ok (⟨fd, .init, some (n, fd)⟩, t0) ∧
        ∀ e ∈ t0, (∃ rc, e = .connect fd rc) ∨ (∃ rc, e = .sslConnect n rc) ∨ e = .io n fd := by
      cases op with
      | close => exact absurd rfl hop.1
      | closeSSL => exact absurd rfl hop.2
      | connect rc sslRc =>
        by_cases a : rc < 0
        · exact ⟨_, by simp [SslSock.apply, SslSock.connect, a]; rfl, by simp⟩
        · by_cases b : sslRc ≤ 0
          · exact ⟨_, by simp [SslSock.apply, SslSock.connect, a, b]; rfl, by simp⟩
          · exact ⟨_, by simp [SslSock.apply, SslSock.connect, a, b]; rfl, by simp⟩
      | io res => exact ⟨_, by simp [SslSock.apply, SslSock.io, Except.map]; rfl, by simp⟩
    obtain ⟨t0, e0, h0⟩ := key
    refine ⟨t0 ++ t, by simp only [SslSock.run, e0, h1, bind, Except.bind], ?_⟩
    intro e he
    rcases List.mem_append.1 he with he | he
    · exact h0 e he
    · exact h2 e he

/-- C73, what holds: after any use of the connection, `CloseSSL` followed by `Close` says goodbye on the open
descriptor, frees the session, and closes the descriptor, each once and in this order. -/
theorem C73_goodbye_first_partial (n : Nat) (fd : Int) (hfd : 0 ≤ fd) (ops : List SslOp)
    (hops : ∀ op ∈ ops, op ≠ .close ∧ op ≠ .closeSSL) :
    ∃ t s, (SslSock.make (some n) (Sock.ofFd fd)).1.run (ops ++ [.closeSSL, .close]) =
        .ok (s, t ++ [.shutdown n fd, .free n, .close fd]) ∧
      (∀ e ∈ t, (∃ rc, e = .connect fd rc) ∨ (∃ rc, e = .sslConnect n rc) ∨ e = .io n fd) := by
  rw [made_open n fd hfd]
  obtain ⟨t, h1, h2⟩ := ssl_idle (n := n) (fd := fd) hops
  refine ⟨t, ⟨fd, .closed, none⟩, ?_, h2⟩
  have happ : ∀ (ops : List SslOp) (s s' : SslSock) (t : List SslEv), s.run ops = .ok (s', t) → ∀ ops',
      s.run (ops ++ ops') = (do let (s'', t') ← s'.run ops'; .ok (s'', t ++ t')) := by
    intro ops
    induction ops with
    | nil =>
      intro s s' t h ops'
      cases h
      cases hr : s.run ops' with
      | error e => simp [hr, bind, Except.bind]
      | ok r => simp [hr, bind, Except.bind]
    | cons op ops ih =>
      intro s s' t h ops'
      simp only [SslSock.run] at h
      obtain ⟨⟨s1, t1⟩, e1, h⟩ := bind_ok h
      obtain ⟨⟨s2, t2⟩, e2, h⟩ := bind_ok h
      cases h
      simp only [List.cons_append, SslSock.run, e1, bind, Except.bind]
      rw [ih _ _ _ e2 ops']
      cases hr : s2.run ops' with
      | error e => simp [bind, Except.bind]
      | ok r => simp [bind, Except.bind]
  rw [happ ops _ _ _ h1]
  rfl

/-- What a TLS socket can still do, depending on its state. -/
theorem ssl_later {s s' : SslSock} {ops : List SslOp} {t : List SslEv} {n : Nat} {fd : Int}
    (h : s.run ops = .ok (s', t)) (hfd : s.fd = fd) (hs : ∀ x, s.ssl = some x → x = (n, fd)) :
    t.count (.close fd) ≤ (if s.status = .init then 1 else 0) ∧
    t.count (.free n) ≤ (if s.ssl = none then 0 else 1) ∧
    (s.ssl = none → ∀ e ∈ t, SslEv.uses n e = false) ∧
    (∀ pre post, t = pre ++ .free n :: post → ∀ e ∈ post, SslEv.uses n e = false) := by
  induction ops generalizing s t with
  | nil => cases h; refine ⟨?_, ?_, by simp, by simp⟩ <;> simp
  | cons op ops ih =>
    simp only [SslSock.run] at h
    obtain ⟨⟨s1, t1⟩, e1, h⟩ := bind_ok h
    obtain ⟨⟨s2, t2⟩, e2, h⟩ := bind_ok h
    cases h
    dsimp only at e1 e2 ⊢
    have split : ∀ {a b : List SslEv}, (∀ e ∈ a, e ≠ .free n) →
        (∀ pre post, b = pre ++ .free n :: post → ∀ e ∈ post, SslEv.uses n e = false) →
        (∀ pre post, a ++ b = pre ++ .free n :: post → ∀ e ∈ post, SslEv.uses n e = false) := by
      intro a b ha hb pre post he
      induction a generalizing pre with
      | nil => exact hb pre post he
      | cons x a iha =>
        cases pre with
        | nil =>
          simp only [List.cons_append, List.nil_append, List.cons.injEq] at he
          exact absurd he.1 (ha x (by simp))
        | cons y pre =>
          simp only [List.cons_append, List.cons.injEq] at he
          exact iha (fun e h => ha e (by simp [h])) pre he.2
    have same : ∀ {t1 : List SslEv}, s1 = s → (∀ e ∈ t1, e ≠ .free n ∧ e ≠ .close fd) →
        (s.ssl = none → ∀ e ∈ t1, SslEv.uses n e = false) →
        (t1 ++ t2).count (.close fd) ≤ (if s.status = .init then 1 else 0) ∧
        (t1 ++ t2).count (.free n) ≤ (if s.ssl = none then 0 else 1) ∧
        (s.ssl = none → ∀ e ∈ t1 ++ t2, SslEv.uses n e = false) ∧
        (∀ pre post, t1 ++ t2 = pre ++ .free n :: post → ∀ e ∈ post, SslEv.uses n e = false) := by
      intro t1 hss ha hu
      subst hss
      obtain ⟨i1, i2, i3, i4⟩ := ih e2 hfd hs
      have c1 : t1.count (.close fd) = 0 := List.count_eq_zero.2 fun h => (ha _ h).2 rfl
      have c2 : t1.count (.free n) = 0 := List.count_eq_zero.2 fun h => (ha _ h).1 rfl
      refine ⟨by rw [List.count_append, c1]; omega, by rw [List.count_append, c2]; omega, ?_,
        split (fun e h => (ha e h).1) i4⟩
      intro hn e he
      rcases List.mem_append.1 he with he | he
      · exact hu hn e he
      · exact i3 hn e he
    have closing : ∀ st : SockStatus, ∀ t0 : List SslEv, s1 = { s with status := st, ssl := none } →
        t0.count (.close fd) + (if st = .init then 1 else 0) ≤ (if s.status = .init then 1 else 0) →
        (∀ e ∈ t0, e = .close fd) →
        t1 = t0 ++ (SslSock.closeSSL s).2 →
        (t1 ++ t2).count (.close fd) ≤ (if s.status = .init then 1 else 0) ∧
        (t1 ++ t2).count (.free n) ≤ (if s.ssl = none then 0 else 1) ∧
        (s.ssl = none → ∀ e ∈ t1 ++ t2, SslEv.uses n e = false) ∧
        (∀ pre post, t1 ++ t2 = pre ++ .free n :: post → ∀ e ∈ post, SslEv.uses n e = false) := by
      intro st t0 hs1 hc ht0 ht1
      subst hs1
      obtain ⟨i1, i2, i3, i4⟩ := ih e2 hfd (by intro x hx; simp at hx)
      simp only [if_true] at i2
      have i3 : ∀ e ∈ t2, SslEv.uses n e = false := i3 rfl
      have f0 : t0.count (.free n) = 0 := List.count_eq_zero.2 fun h => by have := ht0 _ h; cases this
      cases hss : s.ssl with
      | none =>
        simp only [SslSock.closeSSL, hss, List.append_nil] at ht1
        subst ht1
        refine ⟨by rw [List.count_append]; simp only at i1; omega, by rw [List.count_append, f0]; simpa using i2, ?_, ?_⟩
        · intro _ e he
          rcases List.mem_append.1 he with he | he
          · rw [ht0 e he]; rfl
          · exact i3 e he
        · exact split (fun e h => by rw [ht0 e h]; simp) i4
      | some x =>
        have hx := hs x hss
        subst hx
        simp only [SslSock.closeSSL, hss] at ht1
        subst ht1
        refine ⟨?_, ?_, by simp, ?_⟩
        · simp only [List.count_append, List.count_cons, List.count_nil] at i1 ⊢
          simp at i1 ⊢
          omega
        · simp only [List.count_append, f0, List.count_cons, List.count_nil] at i2 ⊢
          simp at i2 ⊢
          omega
        · rw [List.append_assoc]
          refine split (fun e h => by rw [ht0 e h]; simp) ?_
          intro pre post he e hep
          cases pre with
          | nil => simp at he
          | cons y pre =>
            cases pre with
            | nil =>
              simp only [List.cons_append, List.nil_append, List.cons.injEq] at he
              rw [← he.2.2] at hep
              exact i3 e hep
            | cons z pre =>
              simp only [List.cons_append, List.nil_append, List.cons.injEq] at he
              exact i4 pre post he.2.2 e hep
    cases op with
    | close =>
      simp only [SslSock.apply, SslSock.close] at e1
      by_cases hst : s.status ≠ .init
      · rw [if_pos hst] at e1
        cases e1
        exact same rfl (by simp) (by simp)
      · rw [if_neg hst] at e1
        have hst' : s.status = .init := by simpa using hst
        have h1 : s1 = { s with status := .closed, ssl := none } := by
          cases hss : s.ssl <;> simp [SslSock.closeSSL, hss] at e1 <;> rw [← e1.1]
        have h2 : t1 = [.close s.fd] ++ (SslSock.closeSSL s).2 := by
          cases hss : s.ssl <;> simp [SslSock.closeSSL, hss] at e1 ⊢ <;> rw [← e1.2]
        exact closing .closed [.close s.fd] h1 (by simp [hst', hfd]) (by simp [hfd]) h2
    | closeSSL =>
      simp only [SslSock.apply] at e1
      have h1 : s1 = { s with status := s.status, ssl := none } := by
        cases hss : s.ssl <;> simp [SslSock.closeSSL, hss] at e1 <;> rw [← e1.1]
        rw [← hss]
      have h2 : t1 = [] ++ (SslSock.closeSSL s).2 := by
        cases hss : s.ssl <;> simp [SslSock.closeSSL, hss] at e1 ⊢ <;> simp [e1.2]
      exact closing s.status [] h1 (by simp) (by simp) h2
    | connect rc sslRc =>
      simp only [SslSock.apply, SslSock.connect] at e1
      cases hss : s.ssl with
      | none =>
        rw [hss] at e1
        simp only at e1
        have := same (t1 := t1)
        rw [hss] at this
        cases e1
        exact this rfl (by simp) (by simp)
      | some x =>
        rw [hss] at e1
        rw [← hss]
        have hne : ¬ s.ssl = none := by rw [hss]; simp
        obtain ⟨k, f⟩ := x
        simp only at e1
        by_cases a : s.status ≠ .init
        · simp only [if_pos a] at e1; cases e1; exact same rfl (by simp) (by simp)
        · by_cases b : rc < 0
          · simp only [if_neg a, if_pos b] at e1; cases e1; exact same rfl (by simp) (fun h => absurd h hne)
          · by_cases c : sslRc ≤ 0
            · simp only [if_neg a, if_neg b, if_pos c] at e1; cases e1; exact same rfl (by simp) (fun h => absurd h hne)
            · simp only [if_neg a, if_neg b, if_neg c] at e1; cases e1; exact same rfl (by simp) (fun h => absurd h hne)
    | io res =>
      simp only [SslSock.apply, SslSock.io] at e1
      by_cases a : s.status ≠ .init
      · rw [if_pos a] at e1; cases e1; exact same rfl (by simp) (by simp)
      · rw [if_neg a] at e1
        cases hss : s.ssl with
        | none => rw [hss] at e1; cases e1
        | some x =>
          rw [hss] at e1
          rw [← hss]
          have hne : ¬ s.ssl = none := by rw [hss]; simp
          cases e1
          exact same rfl (by simp) (fun h => absurd h hne)

/-- Whatever is called in whatever order, the descriptor is closed at most once, the session is freed at most
once, and it is not used after it was freed. -/
theorem C73_once_partial (n : Nat) (fd : Int) (hfd : 0 ≤ fd) (ops : List SslOp) (s : SslSock) (t : List SslEv)
    (h : (SslSock.make (some n) (Sock.ofFd fd)).1.run ops = .ok (s, t)) :
    t.count (.close fd) ≤ 1 ∧ t.count (.free n) ≤ 1 ∧
    (∀ pre post, t = pre ++ .free n :: post → ∀ e ∈ post, SslEv.uses n e = false) := by
  rw [made_open n fd hfd] at h
  have := ssl_later (n := n) (fd := fd) h rfl (by intro x hx; simpa using hx.symm)
  exact ⟨this.1, this.2.1, this.2.2.2⟩

example : (SslSock.make (some 1) (Sock.ofFd 5)).1.run [.connect 0 1, .io 3, .closeSSL, .close, .close] =
    .ok (⟨5, .closed, none⟩, [.connect 5 0, .sslConnect 1 1, .io 1 5, .shutdown 1 5, .free 1, .close 5]) := by
  decide +kernel

/-! ### C90 -/

/-- On a socket that is not open nothing touches the session. -/
theorem refused_forever (s : SslSock) (hs : s.status ≠ .init) (ops : List SslOp) :
    ∃ s' t, s.run ops = .ok (s', t) ∧ s'.status ≠ .init ∧ (∀ n fd, .io n fd ∉ t) ∧
      ∀ res, s'.io res = .ok (s', -1, []) := by
  induction ops generalizing s with
  | nil => exact ⟨s, [], rfl, hs, by simp, fun res => by simp [SslSock.io, hs]⟩
  | cons op ops ih =>
    have key : ∃ s1 t1, s.apply op = .ok (s1, t1) ∧ s1.status ≠ .init ∧ ∀ n fd, .io n fd ∉ t1 := by
      cases op with
      | close => exact ⟨s, [], by simp [SslSock.apply, SslSock.close, hs], hs, by simp⟩
      | closeSSL =>
        refine ⟨s.closeSSL.1, s.closeSSL.2, rfl, ?_, ?_⟩
        · cases h : s.ssl <;> simp [SslSock.closeSSL, h, hs]
        · cases h : s.ssl <;> simp [SslSock.closeSSL, h]
      | connect rc sslRc =>
        refine ⟨s, [], ?_, hs, by simp⟩
        cases h : s.ssl <;> simp [SslSock.apply, SslSock.connect, h, hs]
      | io res => exact ⟨s, [], by simp [SslSock.apply, SslSock.io, hs, Except.map], hs, by simp⟩
    obtain ⟨s1, t1, e1, h1, n1⟩ := key
    obtain ⟨s2, t2, e2, h2, n2, h3⟩ := ih s1 h1
    refine ⟨s2, t1 ++ t2, by simp only [SslSock.run, e1, e2, bind, Except.bind], h2, ?_, h3⟩
    intro n fd he
    rcases List.mem_append.1 he with he | he
    · exact n1 n fd he
    · exact n2 n fd he

/-- C90, what holds: after `Close`, in whatever state the object was and whatever is called later, reading and writing
is refused without touching the session. -/
theorem C90_after_close_partial (s : SslSock) (ops : List SslOp) :
    ∃ s' t, s.close.1.run ops = .ok (s', t) ∧ (∀ n fd, .io n fd ∉ t) ∧ ∀ res, s'.io res = .ok (s', -1, []) := by
  have h : s.close.1.status ≠ .init := by
    unfold SslSock.close
    split
    · assumption
    · cases hs : s.ssl <;> simp [SslSock.closeSSL, hs]
  obtain ⟨s', t, h1, _, h2, h3⟩ := refused_forever _ h ops
  exact ⟨s', t, h1, h2, h3⟩

example : ((SslSock.make (some 1) (Sock.ofFd 5)).1.close).1.run [.io 3, .close, .connect 0 1, .closeSSL, .io 2] =
    .ok (⟨5, .closed, none⟩, []) := by decide +kernel

/-- C90 is false: after `CloseSSL` alone, reading or writing goes through the null session. -/
theorem C90_null_refuted (n : Nat) (fd : Int) (hfd : 0 ≤ fd) (res : Int) :
    (SslSock.make (some n) (Sock.ofFd fd)).1.run [.closeSSL, .io res] = .error .ub := by
  rw [made_open n fd hfd]
  rfl

/-! ### C91 -/

/-- C91, what holds: after a handshake that failed with a negative result there is no TLS socket and the session
is freed; after a successful one there is an open TLS socket for the connection, with that session. -/
theorem C91_handshake_partial (c n : Nat) (fd : Int) (hfd : 0 ≤ fd) (rc : Int) :
    (rc < 0 → ∃ t, ctxAccept (some c) (Sock.ofFd fd) (some n) rc = (none, t ++ [.free n])) ∧
    (rc = 1 → (ctxAccept (some c) (Sock.ofFd fd) (some n) rc).1 = some ⟨fd, .init, some (n, fd)⟩ ∧
      .free n ∉ (ctxAccept (some c) (Sock.ofFd fd) (some n) rc).2) := by
  have hn : ¬ fd < 0 := by omega
  constructor
  · intro h
    exact ⟨[.sslNew n, .setFd n (Sock.ofFd fd).fd, .sslAccept n rc], by simp only [ctxAccept, if_pos h]; rfl⟩
  · rintro rfl
    simp [ctxAccept, made_open n fd hfd]
    simp [SslSock.make, Sock.ofFd, hn]

/-- C91 is false: a handshake that ended with result 0 (the peer shut it down) counts as success. -/
theorem C91_zero_refuted : (ctxAccept (some 1) (Sock.ofFd 5) (some 2) 0).1 = some ⟨5, .init, some (2, 5)⟩ := by
  decide +kernel

/-! ### C92 -/

/-- C92, what holds: when `InitSvrFile` returns success, the new context uses the given certificate and the given
key. -/
theorem C92_file_partial (m : Option Nat) (cert key : Str) (a : CtxAns)
    (h : (ctxInitSvrFile m cert key a).2.1 = kSuccess) :
    ∃ c, (ctxInitSvrFile m cert key a).1 = some c ∧ .useCert c cert true ∈ (ctxInitSvrFile m cert key a).2.2 ∧
      .useKey c key true ∈ (ctxInitSvrFile m cert key a).2.2 := by
  unfold ctxInitSvrFile at h ⊢
  by_cases h1 : m ≠ none
  · rw [if_pos h1] at h; exact absurd h (by simp [kLogicErr, kSuccess])
  · rw [if_neg h1] at h ⊢
    by_cases h2 : cert = [] ∨ key = []
    · rw [if_pos h2] at h; exact absurd h (by simp [kLogicErr, kSuccess])
    · rw [if_neg h2] at h ⊢
      cases hn : a.new with
      | none => rw [hn] at h; exact absurd h (by simp [kSysErr, kSuccess])
      | some c =>
        rw [hn] at h
        cases hc : a.cert <;> cases hk : a.key <;> simp [hc, hk, kSysErr, kSuccess] at h ⊢
        rfl

example : (ctxInitSvrFile none b!"cert.pem" b!"key.pem" { new := some 1 }).2.1 = kSuccess := by decide +kernel

/-- C92 is false: `InitSvr` never gives the context a key, although it succeeds. -/
theorem C92_key_refuted :
    (∀ m cert key a c k ok, .useKey c k ok ∉ (ctxInitSvr m cert key a).2.2) ∧
    (ctxInitSvr none b!"cert" b!"key" { new := some 1 }).2.1 = kSuccess := by
  refine ⟨?_, by decide +kernel⟩
  intro m cert key a c k ok h
  unfold ctxInitSvr at h
  repeat' (split at h)
  all_goals simp at h

/-! ### C93 -/

theorem ctx_cases (m : Option Nat) (op : CtxOp) (hop : ∀ c, op ≠ .init c) :
    ((ctxApply m op).1 = m ∧ (∀ c, .ctxNew c ∉ (ctxApply m op).2.2 ∧ .ctxFree c ∉ (ctxApply m op).2.2)) ∨
    (m = none ∧ ∃ c, (∀ k, (ctxApply m op).2.2.count (.ctxNew k) = if c = k then 1 else 0) ∧
      (∀ k, .ctxFree k ∉ (ctxApply m op).2.2) ∧
      (((ctxApply m op).1 = some c) ∨ ((ctxApply m op).1 = none ∧ (ctxApply m op).2.1 = kSysErr))) ∨
    (∃ c, m = some c ∧ (ctxApply m op).1 = none ∧ (ctxApply m op).2.2 = [.ctxFree c]) := by
  cases op with
  | init c => exact absurd rfl (hop c)
  | close =>
    cases m with
    | none => left; simp [ctxApply, ctxClose]
    | some c => right; right; exact ⟨c, rfl, rfl, rfl⟩
  | initCli new =>
    cases m with
    | some c => left; simp [ctxApply, ctxInitCli]
    | none =>
      cases new with
      | none => left; simp [ctxApply, ctxInitCli]
      | some c =>
        right; left
        refine ⟨rfl, c, ?_, ?_, Or.inl ?_⟩ <;> simp [ctxApply, ctxInitCli, ctxAdopt, List.count_cons]
  | initSvr cert key a =>
    cases m with
    | some c => left; simp [ctxApply, ctxInitSvr]
    | none =>
      by_cases h2 : cert = [] ∨ key = []
      · left; simp [ctxApply, ctxInitSvr, h2]
      · cases hn : a.new with
        | none => left; simp [ctxApply, ctxInitSvr, h2, hn]
        | some c =>
          right; left
          refine ⟨rfl, c, ?_⟩
          cases hb : a.bio
          · simp [ctxApply, ctxInitSvr, h2, hn, hb, List.count_cons]
          · cases hp : a.parsed
            · simp [ctxApply, ctxInitSvr, h2, hn, hb, hp, List.count_cons]
            · cases hc : a.cert <;>
                simp [ctxApply, ctxInitSvr, h2, hn, hb, hp, hc, ctxAdopt, List.count_cons]
  | initSvrFile cert key a =>
    cases m with
    | some c => left; simp [ctxApply, ctxInitSvrFile]
    | none =>
      by_cases h2 : cert = [] ∨ key = []
      · left; simp [ctxApply, ctxInitSvrFile, h2]
      · cases hn : a.new with
        | none => left; simp [ctxApply, ctxInitSvrFile, h2, hn]
        | some c =>
          right; left
          refine ⟨rfl, c, ?_⟩
          cases hc : a.cert
          · simp [ctxApply, ctxInitSvrFile, h2, hn, hc, List.count_cons]
          · cases hk : a.key <;>
              simp [ctxApply, ctxInitSvrFile, h2, hn, hc, hk, ctxAdopt, List.count_cons]

theorem ctx_balance (ops : List CtxOp) (hops : ∀ op ∈ ops, ∀ c, op ≠ .init c) (k : Nat) : ∀ m : Option Nat,
    (ctxLife m ops).count (.ctxFree k) ≤ (ctxLife m ops).count (.ctxNew k) + (if m = some k then 1 else 0) ∧
    (NoSysErr m ops → (ctxLife m ops).count (.ctxFree k) =
      (ctxLife m ops).count (.ctxNew k) + (if m = some k then 1 else 0)) := by
  induction ops with
  | nil =>
    intro m
    cases m with
    | none => simp [ctxLife, ctxClose]
    | some c =>
      by_cases h : c = k <;> simp [ctxLife, ctxClose, List.count_cons, h]
  | cons op ops ih =>
    intro m
    have ih := ih (fun o ho => hops o (by simp [ho]))
    simp only [ctxLife, List.count_append]
    rcases ctx_cases m op (hops op (by simp)) with ⟨h1, h2⟩ | ⟨h1, c, h2, h3, h4⟩ | ⟨c, h1, h2, h3⟩
    · have a := List.count_eq_zero.2 (h2 k).1
      have b := List.count_eq_zero.2 (h2 k).2
      have := ih m
      rw [h1, a, b]
      refine ⟨by omega, fun hn => ?_⟩
      have := this.2 (by have := hn.2; rwa [h1] at this)
      omega
    · have b := List.count_eq_zero.2 (h3 k)
      rw [b, h2 k]
      subst h1
      rcases h4 with h4 | ⟨h4, h5⟩
      · have := ih (some c)
        rw [h4]
        by_cases hk : c = k
        · subst hk
          simp only [if_true] at this ⊢
          simp only [reduceCtorEq, if_false]
          refine ⟨by omega, fun hn => ?_⟩
          have := this.2 (by have := hn.2; rwa [h4] at this)
          omega
        · have hk' : ¬ some c = some k := by simpa using hk
          simp only [if_neg hk', reduceCtorEq, if_false, if_neg hk] at this ⊢
          refine ⟨by omega, fun hn => ?_⟩
          have := this.2 (by have := hn.2; rwa [h4] at this)
          omega
      · have := ih none
        rw [h4]
        simp only [reduceCtorEq, if_false] at this ⊢
        refine ⟨by omega, fun hn => absurd h5 hn.1⟩
    · subst h1
      have := ih none
      rw [h2, h3]
      by_cases hk : c = k
      · subst hk
        simp [List.count_cons] at this ⊢
        refine ⟨by omega, fun hn => ?_⟩
        have := this.2 (by have := hn.2; rwa [h2] at this)
        omega
      · have hk' : ¬ some c = some k := by simpa using hk
        simp [List.count_cons, hk] at this ⊢
        refine ⟨by omega, fun hn => ?_⟩
        exact this.2 (by have := hn.2; rwa [h2] at this)

/-- C93, what holds: in every life of a `SSLContext` that makes its own contexts, no context is freed more often
than it was made, and if no call failed inside OpenSSL, each is freed exactly as often as it was made. -/
theorem C93_contexts_partial (ops : List CtxOp) (hops : ∀ op ∈ ops, ∀ c, op ≠ .init c) (k : Nat) :
    (ctxLife none ops).count (.ctxFree k) ≤ (ctxLife none ops).count (.ctxNew k) ∧
    (NoSysErr none ops → (ctxLife none ops).count (.ctxFree k) = (ctxLife none ops).count (.ctxNew k)) := by
  have := ctx_balance ops hops k none
  simpa using this

theorem cert_cases (m : Option Nat) (op : CtxOp) :
    (ctxApply m op).2.2.count .certFree ≤ (ctxApply m op).2.2.count .certNew ∧
    ((ctxApply m op).2.1 ≠ kSysErr → (ctxApply m op).2.2.count .certFree = (ctxApply m op).2.2.count .certNew) := by
  cases op with
  | init c => simp [ctxApply]
  | close => cases m <;> simp [ctxApply, ctxClose]
  | initCli new => cases m <;> cases new <;> simp [ctxApply, ctxInitCli]
  | initSvr cert key a =>
    simp only [ctxApply, ctxInitSvr]
    repeat' split
    all_goals simp
  | initSvrFile cert key a =>
    simp only [ctxApply, ctxInitSvrFile]
    repeat' split
    all_goals simp

/-- C93, the certificates that `InitSvr` reads: none is freed that was not made, and if no call failed inside OpenSSL all are
freed. -/
theorem C93_certificates_partial (ops : List CtxOp) : ∀ m : Option Nat,
    (ctxLife m ops).count .certFree ≤ (ctxLife m ops).count .certNew ∧
    (NoSysErr m ops → (ctxLife m ops).count .certFree = (ctxLife m ops).count .certNew) := by
  induction ops with
  | nil => intro m; cases m <;> simp [ctxLife, ctxClose]
  | cons op ops ih =>
    intro m
    obtain ⟨h1, h2⟩ := cert_cases m op
    obtain ⟨h3, h4⟩ := ih (ctxApply m op).1
    simp only [ctxLife, List.count_append]
    generalize (ctxApply m op).2.2.count .certFree = a at *
    generalize (ctxApply m op).2.2.count .certNew = b at *
    refine ⟨Nat.add_le_add h1 h3, fun hn => ?_⟩
    rw [h2 hn.1, h4 hn.2]

example : NoSysErr none [.initSvr b!"c" b!"k" { new := some 1 }] ∧
    ctxLife none [.initSvr b!"c" b!"k" { new := some 1 }] = [.ctxNew 1, .certNew, .useCert 1 b!"c" true, .certFree, .ctxFree 1] ∧
    ctxLife none [.initSvr b!"c" b!"k" { new := some 1, cert := false }] = [.ctxNew 1, .certNew, .useCert 1 b!"c" false] :=
  ⟨⟨by decide +kernel, trivial⟩, by decide +kernel, by decide +kernel⟩

example : ctxLife none [.initCli (some 1), .initCli (some 2), .close, .close, .initSvrFile b!"c" b!"k" { new := some 3 }] =
    [.ctxNew 1, .ctxFree 1, .ctxNew 3, .useCert 3 b!"c" true, .useKey 3 b!"k" true, .ctxFree 3] := by decide +kernel

/-- C93 is false: a context whose certificate is refused is never freed; and `Init(ctx)` forgets the context that
was there. -/
theorem C93_leak_refuted :
    ctxLife none [.initSvrFile b!"c" b!"k" { new := some 1, cert := false }] = [.ctxNew 1, .useCert 1 b!"c" false] ∧
    ctxLife none [.initCli (some 1), .init 2] = [.ctxNew 1, .ctxFree 2] := by
  decide +kernel

/-! ### C94 -/

/-- C94, what holds: unless `SSL_new` fails, `CreateSSLSocket()` either opens no descriptor or returns a TLS socket
that owns it. -/
theorem C94_owned_partial (m : Option Nat) (res : Int) (n : Nat) :
    (∀ fd, .socket fd ∉ (ctxCreate m res (some n)).2) ∨
    (ctxCreate m res (some n)).1 = some ⟨res, .init, some (n, res)⟩ := by
  cases m with
  | none => left; simp [ctxCreate]
  | some c =>
    by_cases h : res < 0
    · left; simp [ctxCreate, h]
    · right
      simp [ctxCreate, h, ctxCreateOn, made_open n res (by omega)]

example : ctxCreate (some 1) 5 (some 2) = (some ⟨5, .init, some (2, 5)⟩, [.socket 5, .sslNew 2, .setFd 2 5]) := by
  decide +kernel

/-- C94 is false: when `SSL_new` fails the new descriptor is left open and nobody has it. -/
theorem C94_leak_refuted : ctxCreate (some 1) 5 none = (none, [.socket 5]) := by decide +kernel

/-! ### C95, C96 -/

theorem isOpen_append (fd : Int) (a b : List SslEv) (hb : .accepted fd ∉ b) (hc : .close fd ∉ b) :
    isOpen fd (a ++ b) = isOpen fd a := by
  unfold isOpen
  rw [List.foldl_append]
  generalize a.foldl _ false = x
  induction b generalizing x with
  | nil => rfl
  | cons e b ih =>
    simp only [List.foldl_cons]
    have h1 : ¬ e = .accepted fd := fun h => hb (by simp [h])
    have h2 : ¬ e = .close fd := fun h => hc (by simp [h])
    rw [if_neg h1, if_neg h2]
    exact ih (fun h => hb (by simp [h])) (fun h => hc (by simp [h])) x

theorem isOpen_closed (fd : Int) (a b : List SslEv) (hb : .accepted fd ∉ b) : isOpen fd (a ++ .close fd :: b) = false := by
  by_cases hc : .close fd ∈ b
  · -- every later event keeps it closed
    unfold isOpen
    rw [List.foldl_append, List.foldl_cons]
    have : ∀ (l : List SslEv), SslEv.accepted fd ∉ l →
        l.foldl (fun b e => if e = .accepted fd then true else if e = .close fd then false else b) false = false := by
      intro l hl
      induction l with
      | nil => rfl
      | cons e l ih =>
        simp only [List.foldl_cons]
        have h1 : ¬ e = .accepted fd := fun h => hl (by simp [h])
        rw [if_neg h1]
        have : (if e = SslEv.close fd then false else false) = false := by split <;> rfl
        rw [this]
        exact ih (fun h => hl (by simp [h]))
    rw [if_neg (by simp), if_pos rfl]
    exact this b hb
  · have := isOpen_append fd (a ++ [.close fd]) b hb hc
    rw [List.append_assoc] at this
    rw [show a ++ SslEv.close fd :: b = a ++ ([.close fd] ++ b) from rfl, this]
    unfold isOpen
    rw [List.foldl_append]
    simp

theorem isOpen_accepted (fd : Int) (a b : List SslEv) (hb : .accepted fd ∉ b) (hc : .close fd ∉ b) :
    isOpen fd (a ++ .accepted fd :: b) = true := by
  have := isOpen_append fd (a ++ [.accepted fd]) b hb hc
  rw [List.append_assoc] at this
  rw [show a ++ SslEv.accepted fd :: b = a ++ ([.accepted fd] ++ b) from rfl, this]
  unfold isOpen
  rw [List.foldl_append]
  simp

theorem own_append {n : Nat} {fd : Int} {tr t : List SslEv} (h : OwnSession n fd tr) (hc : .close fd ∉ t)
    (hf : .free n ∉ t) : OwnSession n fd (tr ++ t) := by
  obtain ⟨b, s, rc, h1, h2, h3, h4, h5, h6⟩ := h
  refine ⟨b, s ++ t, rc, by rw [h1]; simp, by simp [h2], by simp [h3], h4, by simp [h5, hc], by simp [h6, hf]⟩

/-- All uses of sessions so far were uses of the connection's own session. -/
def AllOwn (tr : List SslEv) : Prop :=
  ∀ pre n fd post, tr = pre ++ .io n fd :: post → OwnSession n fd pre

theorem allOwn_append {tr t : List SslEv} (h : AllOwn tr)
    (ht : ∀ pre n fd post, t = pre ++ .io n fd :: post → OwnSession n fd (tr ++ pre)) : AllOwn (tr ++ t) := by
  intro pre n fd post he
  rcases List.append_eq_append_iff.1 he with ⟨x, h1, h2⟩ | ⟨x, h1, h2⟩
  · rw [h1]; exact ht x n fd post h2
  · cases x with
    | nil =>
      simp only [List.append_nil] at h1
      simp only [List.nil_append] at h2
      rw [← h1]
      have := ht [] n fd post h2.symm
      simpa using this
    | cons y x =>
      simp only [List.cons_append, List.cons.injEq] at h2
      refine h pre n fd x ?_
      rw [h1, h2.1]

/-- What is always true of a TLS server. -/
structure SslInv (m : SslMap) (tr : List SslEv) : Prop where
  opn : ∀ fd, isOpen fd tr = true → ∃ n, m fd = some ⟨fd, .init, some (n, fd)⟩ ∧ OwnSession n fd tr
  live : ∀ fd s n f, m fd = some s → s.ssl = some (n, f) → .sslNew n ∈ tr ∧ .free n ∉ tr
  inj : ∀ fd s n f fd' s' f', m fd = some s → s.ssl = some (n, f) → m fd' = some s' → s'.ssl = some (n, f') → fd = fd'
  own : AllOwn tr
  once : ∀ n, tr.count (.free n) ≤ 1
  made : ∀ n, .free n ∈ tr → .sslNew n ∈ tr

theorem sslUses_eq {fd : Int} {n : Nat} : ∀ k, sslUses ⟨fd, .init, some (n, fd)⟩ k = .ok (List.replicate k (.io n fd)) := by
  intro k
  induction k with
  | zero => rfl
  | succ k ih =>
    simp only [sslUses, SslSock.io, ih, bind, Except.bind, List.replicate_succ]
    rfl

/-- A step that adds events which open nothing, free nothing and use no session, and leaves the map alone;
connection `c` may be closed by it. -/
theorem inv_quiet {m : SslMap} {tr t : List SslEv} (h : SslInv m tr) (hopen : ∀ fd, isOpen fd (tr ++ t) = true →
    isOpen fd tr = true ∧ .close fd ∉ t) (hf : ∀ n, .free n ∉ t) (hio : ∀ n fd, .io n fd ∉ t) : SslInv m (tr ++ t) where
  opn fd ho := by
    obtain ⟨o1, o2⟩ := hopen fd ho
    obtain ⟨n, h1, h2⟩ := h.opn fd o1
    exact ⟨n, h1, own_append h2 o2 (hf n)⟩
  live fd s n f hm hs := by
    have := h.live fd s n f hm hs
    exact ⟨List.mem_append_left _ this.1, by simp [this.2, hf n]⟩
  inj := h.inj
  own := allOwn_append h.own (by
    intro pre n fd post he
    exact absurd (he ▸ by simp) (hio n fd))
  once n := by
    rw [List.count_append, List.count_eq_zero.2 (hf n)]
    exact h.once n
  made n hn := by
    rcases List.mem_append.1 hn with hn | hn
    · exact List.mem_append_left _ (h.made n hn)
    · exact absurd hn (hf n)

/-- A step that ends the connection `fd` and frees its session. -/
theorem inv_end {m : SslMap} {tr : List SslEv} {fd : Int} {n : Nat} (h : SslInv m tr)
    (hm : m fd = some ⟨fd, .init, some (n, fd)⟩) (t : List SslEv) (x : Option SslSock)
    (ht : t = [.close fd, .shutdown n fd, .free n] ∨ t = [.shutdown n fd, .free n, .close fd])
    (hx : ∀ s, x = some s → s.ssl = none) : SslInv (m.put fd x) (tr ++ t) := by
  have hl := h.live fd _ n fd hm rfl
  have hacc : ∀ f, SslEv.accepted f ∉ t := by rcases ht with rfl | rfl <;> simp
  have hcl : ∀ f, SslEv.close f ∈ t → f = fd := by rcases ht with rfl | rfl <;> simp
  have hio : ∀ k f, SslEv.io k f ∉ t := by rcases ht with rfl | rfl <;> simp
  have hfr : ∀ k, SslEv.free k ∈ t → k = n := by rcases ht with rfl | rfl <;> simp
  have hcnt : t.count (.free n) = 1 := by rcases ht with rfl | rfl <;> simp [List.count_cons]
  have hclosed : isOpen fd (tr ++ t) = false := by
    rcases ht with rfl | rfl
    · exact isOpen_closed fd tr _ (by simp)
    · have := isOpen_closed fd (tr ++ [.shutdown n fd, .free n]) [] (by simp)
      rw [List.append_assoc] at this
      exact this
  have hne : ∀ f s k f', f ≠ fd → m f = some s → s.ssl = some (k, f') → k ≠ n := by
    intro f s k f' hf h1 h2 he
    subst he
    exact hf (h.inj f s k f' fd _ fd h1 h2 hm rfl)
  refine ⟨?_, ?_, ?_, ?_, ?_, ?_⟩
  · intro f hf
    by_cases he : f = fd
    · subst he; rw [hclosed] at hf; cases hf
    · rw [isOpen_append f tr t (hacc f) (fun h => he (hcl f h))] at hf
      obtain ⟨k, h1, h2⟩ := h.opn f hf
      refine ⟨k, by simp only [SslMap.put, if_neg he]; exact h1, own_append h2 (fun h => he (hcl f h)) ?_⟩
      exact fun hk => hne f _ k f he h1 rfl (hfr k hk)
  · intro f s k f' h1 h2
    by_cases he : f = fd
    · subst he
      simp only [SslMap.put, if_true] at h1
      rw [hx s h1] at h2
      cases h2
    · simp only [SslMap.put, if_neg he] at h1
      have := h.live f s k f' h1 h2
      refine ⟨List.mem_append_left _ this.1, ?_⟩
      intro hk
      rcases List.mem_append.1 hk with hk | hk
      · exact this.2 hk
      · exact hne f s k f' he h1 h2 (hfr k hk)
  · intro f s k f1 f' s' f2 h1 h2 h3 h4
    by_cases he : f = fd
    · subst he
      simp only [SslMap.put, if_true] at h1
      rw [hx s h1] at h2
      cases h2
    · by_cases he' : f' = fd
      · subst he'
        simp only [SslMap.put, if_true] at h3
        rw [hx s' h3] at h4
        cases h4
      · simp only [SslMap.put, if_neg he] at h1
        simp only [SslMap.put, if_neg he'] at h3
        exact h.inj f s k f1 f' s' f2 h1 h2 h3 h4
  · refine allOwn_append h.own ?_
    intro pre k f post he
    have : SslEv.io k f ∈ t := by rw [he]; simp
    exact absurd this (hio k f)
  · intro k
    rw [List.count_append]
    by_cases hk : k = n
    · subst hk
      rw [List.count_eq_zero.2 hl.2, hcnt]
      omega
    · rw [List.count_eq_zero.2 (fun h => hk (hfr k h))]
      exact h.once k
  · intro k hk
    rcases List.mem_append.1 hk with hk | hk
    · exact List.mem_append_left _ (h.made k hk)
    · rw [hfr k hk]
      exact List.mem_append_left _ hl.1

theorem sslReach_inv {ctx : Option Nat} {m : SslMap} {tr : List SslEv} (h : SslReach ctx m tr) : SslInv m tr := by
  induction h with
  | start =>
    exact ⟨by simp [isOpen], by simp, by simp, by intro pre n fd post h; simp at h, by simp, by simp⟩
  | @accept m tr fd addrRc new rc m' t hr hfd ho hnew hs ih =>
    have hfn : ¬ fd < 0 := by omega
    -- the connection is refused and closed at once; `x` frees at most the new session
    have refuse : ∀ x : List SslEv, (∀ n, .free n ∈ x → .sslNew n ∈ x ∧ .sslNew n ∉ tr) → (∀ n, x.count (.free n) ≤ 1) →
        (∀ n f, .io n f ∉ x) → (∀ f, .accepted f ∉ x) → (∀ f, .close f ∉ x) →
        SslInv m (tr ++ (.accepted fd :: x ++ [.close fd])) := by
      intro x hx1 hx2 hx3 hx4 hx5
      have hop : ∀ f, isOpen f (tr ++ (.accepted fd :: x ++ [.close fd])) = true → isOpen f tr = true ∧ f ≠ fd := by
        intro f hf
        by_cases he : f = fd
        · subst he
          have := isOpen_closed f (tr ++ .accepted f :: x) [] (by simp)
          rw [List.append_assoc] at this
          simp only [List.cons_append] at this hf
          rw [this] at hf
          cases hf
        · rw [isOpen_append f tr _ (by simp [he, hx4]) (by simp [he, hx5])] at hf
          exact ⟨hf, he⟩
      refine ⟨?_, ?_, ih.inj, ?_, ?_, ?_⟩
      · intro f hf
        obtain ⟨o1, o2⟩ := hop f hf
        obtain ⟨n, h1, h2⟩ := ih.opn f o1
        refine ⟨n, h1, own_append h2 (by simp [o2, hx5]) ?_⟩
        have hl := ih.live f _ n f h1 rfl
        intro hfree
        have : .free n ∈ x := by simpa using hfree
        exact (hx1 n this).2 hl.1
      · intro f s n f' hm hss
        have hl := ih.live f s n f' hm hss
        refine ⟨List.mem_append_left _ hl.1, ?_⟩
        intro hfree
        rcases List.mem_append.1 hfree with hfree | hfree
        · exact hl.2 hfree
        · have : .free n ∈ x := by simpa using hfree
          exact (hx1 n this).2 hl.1
      · refine allOwn_append ih.own ?_
        intro pre n f post he
        have : SslEv.io n f ∈ SslEv.accepted fd :: x ++ [.close fd] := by rw [he]; simp
        exact absurd this (by simp [hx3])
      · intro n
        have hc : (SslEv.accepted fd :: x ++ [SslEv.close fd]).count (SslEv.free n) = x.count (.free n) := by
          simp [List.count_cons, List.count_append]
        rw [List.count_append, hc]
        by_cases hx : .free n ∈ x
        · have : SslEv.free n ∉ tr := fun h => (hx1 n hx).2 (ih.made n h)
          rw [List.count_eq_zero.2 this]
          have := hx2 n
          omega
        · rw [List.count_eq_zero.2 hx]
          exact ih.once n
      · intro n hn
        rcases List.mem_append.1 hn with hn | hn
        · exact List.mem_append_left _ (ih.made n hn)
        · have : .free n ∈ x := by simpa using hn
          have := (hx1 n this).1
          exact List.mem_append_right _ (by simp [this])
    simp only [sslServe] at hs
    by_cases ha : addrRc ≠ kSuccess
    · rw [if_pos ha] at hs
      cases hs
      exact refuse [] (by simp) (by simp) (by simp) (by simp) (by simp)
    · rw [if_neg ha] at hs
      cases ctx with
      | none =>
        simp only [ctxAccept] at hs
        cases hs
        exact refuse [] (by simp) (by simp) (by simp) (by simp) (by simp)
      | some c =>
        cases new with
        | none =>
          simp only [ctxAccept] at hs
          cases hs
          exact refuse [] (by simp) (by simp) (by simp) (by simp) (by simp)
        | some n =>
          have hn := hnew n rfl
          by_cases hrc : rc < 0
          · simp only [ctxAccept, if_pos hrc] at hs
            cases hs
            refine refuse _ ?_ ?_ (by simp) (by simp) (by simp)
            · intro k hk
              have : k = n := by simpa using hk
              subst this
              exact ⟨by simp, hn⟩
            · intro k
              simp only [List.count_cons, List.count_nil]
              simp
              split <;> omega
          · simp only [ctxAccept, if_neg hrc, made_open n fd hfd] at hs
            have hmk : (SslSock.make (some n) (Sock.ofFd fd)).2 = [.setFd n fd] := by
              simp [SslSock.make, Sock.ofFd, hfn]
            rw [hmk] at hs
            cases hs
            have hfree : ∀ k, SslEv.free k ∉ [SslEv.accepted fd, .sslNew n, .setFd n (Sock.ofFd fd).fd, .sslAccept n rc, .setFd n fd] := by
              intro k; simp
            have hother : ∀ f, f ≠ fd → isOpen f (tr ++ (.accepted fd :: ([.sslNew n, .setFd n (Sock.ofFd fd).fd, .sslAccept n rc] ++ [.setFd n fd]))) = isOpen f tr := by
              intro f he
              exact isOpen_append f tr _ (by simp [he]) (by simp)
            refine ⟨?_, ?_, ?_, ?_, ?_, ?_⟩
            · intro f hf
              by_cases he : f = fd
              · subst he
                refine ⟨n, by simp [SslMap.put], tr, _, rc, rfl, by simp, by simp, by omega, by simp, by simp⟩
              · rw [hother f he] at hf
                obtain ⟨k, h1, h2⟩ := ih.opn f hf
                exact ⟨k, by simp only [SslMap.put, if_neg he]; exact h1, own_append h2 (by simp) (by simp)⟩
            · intro f s k f' hm hss
              by_cases he : f = fd
              · subst he
                simp only [SslMap.put, if_true, Option.some.injEq] at hm
                subst hm
                simp only [Option.some.injEq, Prod.mk.injEq] at hss
                obtain ⟨rfl, rfl⟩ := hss
                refine ⟨by simp, ?_⟩
                intro hfr
                rcases List.mem_append.1 hfr with hfr | hfr
                · exact hn (ih.made _ hfr)
                · simp at hfr
              · simp only [SslMap.put, if_neg he] at hm
                have := ih.live f s k f' hm hss
                exact ⟨List.mem_append_left _ this.1, by simp [this.2]⟩
            · intro f s k f1 f' s' f2 hm hss hm' hss'
              by_cases he : f = fd
              · by_cases he' : f' = fd
                · rw [he, he']
                · subst he
                  simp only [SslMap.put, if_true, Option.some.injEq] at hm
                  subst hm
                  simp only [Option.some.injEq, Prod.mk.injEq] at hss
                  obtain ⟨rfl, rfl⟩ := hss
                  simp only [SslMap.put, if_neg he'] at hm'
                  exact absurd (ih.live f' s' _ f2 hm' hss').1 hn
              · by_cases he' : f' = fd
                · subst he'
                  simp only [SslMap.put, if_true, Option.some.injEq] at hm'
                  subst hm'
                  simp only [Option.some.injEq, Prod.mk.injEq] at hss'
                  obtain ⟨rfl, rfl⟩ := hss'
                  simp only [SslMap.put, if_neg he] at hm
                  exact absurd (ih.live f s _ f1 hm hss).1 hn
                · simp only [SslMap.put, if_neg he] at hm
                  simp only [SslMap.put, if_neg he'] at hm'
                  exact ih.inj f s k f1 f' s' f2 hm hss hm' hss'
            · refine allOwn_append ih.own ?_
              intro pre k f post he
              have : SslEv.io k f ∈ (SslEv.accepted fd :: ([SslEv.sslNew n, .setFd n (Sock.ofFd fd).fd, .sslAccept n rc] ++ [.setFd n fd])) := by rw [he]; simp
              exact absurd this (by simp)
            · intro k
              have := List.count_eq_zero.2 (hfree k)
              rw [List.count_append]
              have := ih.once k
              simp only [List.cons_append, List.nil_append]
              omega
            · intro k hk
              rcases List.mem_append.1 hk with hk | hk
              · exact List.mem_append_left _ (ih.made k hk)
              · exact absurd hk (hfree k)
  | @read m tr fd uses drop m' t hr ho hs ih =>
    obtain ⟨n, hm, hown⟩ := ih.opn fd ho
    have hlive := ih.live fd _ n fd hm rfl
    simp only [sslServe, hm, sslUses_eq, bind, Except.bind] at hs
    -- first the uses
    have hi : SslInv m (tr ++ List.replicate uses (.io n fd)) := by
      have hopen : ∀ f, isOpen f (tr ++ List.replicate uses (.io n fd)) = isOpen f tr := fun f =>
        isOpen_append f tr _ (by simp [List.mem_replicate]) (by simp [List.mem_replicate])
      have hfr : ∀ k, SslEv.free k ∉ List.replicate uses (SslEv.io n fd) := by simp [List.mem_replicate]
      refine ⟨?_, ?_, ih.inj, ?_, ?_, ?_⟩
      · intro f hf
        rw [hopen f] at hf
        obtain ⟨k, h1, h2⟩ := ih.opn f hf
        exact ⟨k, h1, own_append h2 (by simp [List.mem_replicate]) (hfr k)⟩
      · intro f s k f' hm' hss
        have := ih.live f s k f' hm' hss
        exact ⟨List.mem_append_left _ this.1, by simp [this.2, hfr k]⟩
      · refine allOwn_append ih.own ?_
        intro pre k f post he
        have hmem : SslEv.io k f ∈ List.replicate uses (SslEv.io n fd) := by rw [he]; simp
        have hkf := List.eq_of_mem_replicate hmem
        simp only [SslEv.io.injEq] at hkf
        obtain ⟨rfl, rfl⟩ := hkf
        have hpre : ∀ e ∈ pre, e = SslEv.io k f := fun e hh =>
          List.eq_of_mem_replicate (show e ∈ List.replicate uses (SslEv.io k f) by rw [he]; simp [hh])
        exact own_append hown (fun hh => by cases hpre _ hh) (fun hh => by cases hpre _ hh)
      · intro k
        rw [List.count_append, List.count_eq_zero.2 (hfr k)]
        exact ih.once k
      · intro k hk
        rcases List.mem_append.1 hk with hk | hk
        · exact List.mem_append_left _ (ih.made k hk)
        · exact absurd hk (hfr k)
    cases drop with
    | false =>
      simp at hs
      rw [← hs.1, ← hs.2]
      exact hi
    | true =>
      simp [SslSock.close, SslSock.closeSSL] at hs
      rw [← hs.1, ← hs.2, ← List.append_assoc]
      exact inv_end hi hm _ (some ⟨fd, .closed, none⟩) (Or.inl rfl) (by intro s hs; cases hs; rfl)
  | @leave m tr fd m' t hr ho hs ih =>
    obtain ⟨n, hm, hown⟩ := ih.opn fd ho
    have hlive := ih.live fd _ n fd hm rfl
    simp [sslServe, hm, SslSock.closeSSL] at hs
    rw [← hs.1, ← hs.2]
    exact inv_end ih hm _ none (Or.inr rfl) (by simp)
  | @error m tr fd m' t hr ho hs ih =>
    simp only [sslServe] at hs
    cases hs
    refine inv_quiet ih ?_ (by simp) (by simp)
    intro f hf
    by_cases he : f = fd
    · subst he
      rw [isOpen_closed f tr [] (by simp)] at hf
      cases hf
    · rw [isOpen_append f tr _ (by simp) (by simp [he])] at hf
      exact ⟨hf, by simp [he]⟩

/-- C95: whenever the server reads or writes a TLS connection, it uses the session whose handshake was made on
this very connection since it was accepted, and which has not been freed. -/
theorem C95_own_session (ctx : Option Nat) (m : SslMap) (tr : List SslEv) (h : SslReach ctx m tr) (pre post : List SslEv)
    (n : Nat) (fd : Int) (he : tr = pre ++ .io n fd :: post) : OwnSession n fd pre :=
  (sslReach_inv h).own pre n fd post he

/-- C95: and the server never goes through a missing session: a readable event of an open connection is served. -/
theorem C95_served (ctx : Option Nat) (m : SslMap) (tr : List SslEv) (h : SslReach ctx m tr) (fd : Int)
    (ho : isOpen fd tr = true) (uses : Nat) (drop : Bool) : ∃ m' t, sslServe ctx m (.read fd uses drop) = .ok (m', t) := by
  obtain ⟨n, hm, _⟩ := (sslReach_inv h).opn fd ho
  simp only [sslServe, hm, sslUses_eq, bind, Except.bind]
  split <;> exact ⟨_, _, rfl⟩

/-- C96, what holds: no session is freed twice, and none is freed that was not made. -/
theorem C96_once_partial (ctx : Option Nat) (m : SslMap) (tr : List SslEv) (h : SslReach ctx m tr) (n : Nat) :
    tr.count (.free n) ≤ 1 ∧ (.free n ∈ tr → .sslNew n ∈ tr) :=
  ⟨(sslReach_inv h).once n, (sslReach_inv h).made n⟩

/-- C96, what holds: when a connection ends by leaving or by being dropped after a read, its session is freed and
its descriptor closed. -/
theorem C96_freed_partial (ctx : Option Nat) (m : SslMap) (tr : List SslEv) (h : SslReach ctx m tr) (fd : Int)
    (ho : isOpen fd tr = true) (c : SslCall) (hc : c = .leave fd ∨ ∃ uses, c = .read fd uses true) :
    ∃ n m' t, OwnSession n fd tr ∧ sslServe ctx m c = .ok (m', t) ∧ SslEv.free n ∈ t ∧ SslEv.close fd ∈ t := by
  obtain ⟨n, hm, hown⟩ := (sslReach_inv h).opn fd ho
  rcases hc with rfl | ⟨uses, rfl⟩
  · refine ⟨n, _, _, hown, by simp only [sslServe, hm]; rfl, ?_, ?_⟩ <;> simp [SslSock.closeSSL]
  · refine ⟨n, _, _, hown, by simp only [sslServe, hm, sslUses_eq, bind, Except.bind]; rfl, ?_, ?_⟩ <;>
      simp [SslSock.closeSSL, SslSock.close]

/-- A life of a TLS server: a connection is accepted, read twice and leaves; its descriptor is used again. -/
theorem ssl_life : ∃ m, SslReach (some 1) m [.accepted 5, .sslNew 7, .setFd 7 5, .sslAccept 7 1, .setFd 7 5, .io 7 5, .io 7 5,
    .shutdown 7 5, .free 7, .close 5, .accepted 5, .sslNew 8, .setFd 8 5, .sslAccept 8 1, .setFd 8 5, .io 8 5,
    .close 5, .shutdown 8 5, .free 8] := by
  have a := SslReach.start (ctx := some 1)
  have b := a.accept (fd := 5) (addrRc := kSuccess) (new := some 7) (rc := 1) (by omega) rfl (by simp) rfl
  have c := b.read (fd := 5) (uses := 2) (drop := false) (by decide +kernel) rfl
  have d := c.leave (fd := 5) (by decide +kernel) rfl
  have e := d.accept (fd := 5) (addrRc := kSuccess) (new := some 8) (rc := 1) (by omega) (by decide +kernel) (by
    intro n hn; cases hn; decide +kernel) rfl
  have f := e.read (fd := 5) (uses := 1) (drop := true) (by decide +kernel) rfl
  exact ⟨_, f⟩

/-- C96 is false: the session of a connection that ends with an error is not freed, and is lost when the descriptor
number is used again. -/
theorem C96_leak_refuted : ∃ m, SslReach (some 1) m [.accepted 5, .sslNew 7, .setFd 7 5, .sslAccept 7 1, .setFd 7 5, .close 5,
    .accepted 5, .sslNew 8, .setFd 8 5, .sslAccept 8 1, .setFd 8 5, .shutdown 8 5, .free 8, .close 5] ∧ m 5 = none := by
  have a := SslReach.start (ctx := some 1)
  have b := a.accept (fd := 5) (addrRc := kSuccess) (new := some 7) (rc := 1) (by omega) rfl (by simp) rfl
  have c := b.error (fd := 5) (by decide +kernel) rfl
  have d := c.accept (fd := 5) (addrRc := kSuccess) (new := some 8) (rc := 1) (by omega) (by decide +kernel) (by
    intro n hn; cases hn; decide +kernel) rfl
  have e := d.leave (fd := 5) (by decide +kernel) rfl
  exact ⟨_, e, rfl⟩

end Cppnet
