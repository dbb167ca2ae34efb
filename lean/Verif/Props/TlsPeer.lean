import Verif.Model.TlsPeer

/-!
# C189: a TLS client knows who is at the other end
-/

namespace Cppnet
open Spec

variable {Cert : Type}

theorem handshake_key {pki : Pki Cert} {w : TlsWants} {p : TlsPeer Cert} (h : 0 < handshake pki w p) : p.key = true := by
  unfold handshake at h
  cases hk : p.key with
  | true => rfl
  | false => simp [hk] at h

theorem connect_handshake {s : SslSock} {rc x : Int} (h : (s.connect rc x).2.1 = kSuccess) : 0 < x := by
  unfold SslSock.connect at h
  cases hs : s.ssl with
  | none => rw [hs] at h; first | exact absurd (show kLogicErr = kSuccess from h) (by decide) | exact absurd (show kSysErr = kSuccess from h) (by decide)
  | some y =>
    rw [hs] at h
    simp only at h
    by_cases h1 : s.status ≠ .init
    · rw [if_pos h1] at h; first | exact absurd (show kLogicErr = kSuccess from h) (by decide) | exact absurd (show kSysErr = kSuccess from h) (by decide)
    rw [if_neg h1] at h
    by_cases h2 : rc < 0
    · rw [if_pos h2] at h; first | exact absurd (show kLogicErr = kSuccess from h) (by decide) | exact absurd (show kSysErr = kSuccess from h) (by decide)
    rw [if_neg h2] at h
    by_cases h3 : x ≤ 0
    · rw [if_pos h3] at h; first | exact absurd (show kLogicErr = kSuccess from h) (by decide) | exact absurd (show kSysErr = kSuccess from h) (by decide)
    · omega

theorem httpsInit_handshake {pki : Pki Cert} {c : Client} {p : TlsPeer Cert} {ctxNew res sslNew rc}
    (h : (httpsInit pki c p ctxNew res sslNew rc).2.1 = kSuccess) : ∃ w, 0 < handshake pki w p := by
  unfold httpsInit clientInitSSL at h
  generalize hc : ctxCreate (ctxInitCli none ctxNew).1 res sslNew = x at h
  obtain ⟨o, t⟩ := x
  cases o with
  | none => simp only [hc] at h; first | exact absurd (show kLogicErr = kSuccess from h) (by decide) | exact absurd (show kSysErr = kSuccess from h) (by decide)
  | some s =>
    simp only [hc] at h
    refine ⟨(tlsCtxApply (fun _ => {}) {} (.initCli ctxNew)).1.wants, connect_handshake (s := s) (rc := rc) ?_⟩
    · by_cases h1 : (s.connect rc (handshake pki (tlsCtxApply (fun _ => {}) {} (.initCli ctxNew)).1.wants p)).2.1 ≠ kSuccess
      · rw [if_pos h1] at h; exact absurd h h1
      · exact Decidable.not_not.1 h1

/-- **C189**, what holds of `HttpClient::InitSSL`: it succeeds only if the peer has the key of the certificate that it shows.  Missing:
that the certificate is to be believed and is for the host that was asked for, see the refutation. -/
theorem C189_key_partial (pki : Pki Cert) (c : Client) (p : TlsPeer Cert) (ctxNew : Option Nat) (res : Int) (sslNew : Option Nat) (rc : Int)
    (h : (httpsInit pki c p ctxNew res sslNew rc).2.1 = kSuccess) : p.key = true := by
  obtain ⟨w, hw⟩ := httpsInit_handshake h
  exact handshake_key hw

/-- **C189**, refuted for `HttpClient::InitSSL`: it succeeds whoever answers, with whatever certificate (self-signed, expired, for
another name), and the client has no call that would change this. -/
theorem C189_client_refuted (pki : Pki Cert) (c : Client) (p : TlsPeer Cert) (hk : p.key = true) (k n : Nat) (fd : Int) (hf : 0 ≤ fd) :
    (httpsInit pki c p (some k) fd (some n) 0).2.1 = kSuccess := by
  have h1 : ¬ fd < 0 := by omega
  simp [httpsInit, clientInitSSL, ctxInitCli, ctxAdopt, ctxCreate, h1, ctxCreateOn, SslSock.make, Sock.ofFd, SslSock.connect, handshake,
    hk, tlsCtxApply, ctxApply, kSuccess]

/-- **C189**, refuted also for a `SSLContext` that made its context itself, by `InitCli`, `InitSvr` or `InitSvrFile`, whatever was called
before: a socket that it creates connects to whoever answers. -/
theorem C189_own_refuted (given : Nat → TlsWants) (m : TlsCtx) (op : CtxOp) (hop : ∀ c, op ≠ .init c) (hcl : op ≠ .close)
    (h : (tlsCtxApply given m op).2 = kSuccess) (pki : Pki Cert) (p : TlsPeer Cert) (hk : p.key = true) (fd : Int) (hf : 0 ≤ fd) (n : Nat) :
    tlsConnect pki (tlsCtxApply given m op).1 p fd (some n) 0 = some kSuccess := by
  have h1 : ¬ fd < 0 := by omega
  have hw : (tlsCtxApply given m op).1.wants = {} := by
    cases op with
    | init c => exact absurd rfl (hop c)
    | close => exact absurd rfl hcl
    | initCli new => simp only [tlsCtxApply] at h ⊢; rw [if_pos h]
    | initSvr a b d => simp only [tlsCtxApply] at h ⊢; rw [if_pos h]
    | initSvrFile a b d => simp only [tlsCtxApply] at h ⊢; rw [if_pos h]
  have hc : ∃ c, (tlsCtxApply given m op).1.ctx = some c := by
    cases op with
    | init c => exact absurd rfl (hop c)
    | close => exact absurd rfl hcl
    | initCli new =>
      simp only [tlsCtxApply, ctxApply, ctxInitCli] at h ⊢
      by_cases h2 : m.ctx ≠ none
      · rw [if_pos h2] at h; first | exact absurd (show kLogicErr = kSuccess from h) (by decide) | exact absurd (show kSysErr = kSuccess from h) (by decide)
      rw [if_neg h2] at h ⊢
      cases new with
      | none => first | exact absurd (show kLogicErr = kSuccess from h) (by decide) | exact absurd (show kSysErr = kSuccess from h) (by decide)
      | some c => exact ⟨c, rfl⟩
    | initSvr a b d =>
      simp only [tlsCtxApply, ctxApply, ctxInitSvr] at h ⊢
      by_cases h2 : m.ctx ≠ none
      · rw [if_pos h2] at h; first | exact absurd (show kLogicErr = kSuccess from h) (by decide) | exact absurd (show kSysErr = kSuccess from h) (by decide)
      rw [if_neg h2] at h ⊢
      by_cases h3 : a = [] ∨ b = []
      · rw [if_pos h3] at h; first | exact absurd (show kLogicErr = kSuccess from h) (by decide) | exact absurd (show kSysErr = kSuccess from h) (by decide)
      rw [if_neg h3] at h ⊢
      cases hn : d.new with
      | none => rw [hn] at h; first | exact absurd (show kLogicErr = kSuccess from h) (by decide) | exact absurd (show kSysErr = kSuccess from h) (by decide)
      | some c =>
        rw [hn] at h
        simp only at h ⊢
        cases h4 : d.bio <;> cases h5 : d.parsed <;> cases h6 : d.cert <;> simp [h4, h5, h6, kSuccess, kSysErr, ctxAdopt] at h ⊢
    | initSvrFile a b d =>
      simp only [tlsCtxApply, ctxApply, ctxInitSvrFile] at h ⊢
      by_cases h2 : m.ctx ≠ none
      · rw [if_pos h2] at h; first | exact absurd (show kLogicErr = kSuccess from h) (by decide) | exact absurd (show kSysErr = kSuccess from h) (by decide)
      rw [if_neg h2] at h ⊢
      by_cases h3 : a = [] ∨ b = []
      · rw [if_pos h3] at h; first | exact absurd (show kLogicErr = kSuccess from h) (by decide) | exact absurd (show kSysErr = kSuccess from h) (by decide)
      rw [if_neg h3] at h ⊢
      cases hn : d.new with
      | none => rw [hn] at h; first | exact absurd (show kLogicErr = kSuccess from h) (by decide) | exact absurd (show kSysErr = kSuccess from h) (by decide)
      | some c =>
        rw [hn] at h
        simp only at h ⊢
        cases h5 : d.key <;> cases h6 : d.cert <;> simp [h5, h6, kSuccess, kSysErr, ctxAdopt] at h ⊢
  obtain ⟨c, hc⟩ := hc
  unfold tlsConnect
  rw [hw, hc]
  simp [ctxCreate, h1, ctxCreateOn, SslSock.make, Sock.ofFd, SslSock.connect, handshake, hk, kSuccess]

/-- **C189**, what holds of a `SSLContext` that was given contexts by its user (`Init`): if all of them verify the peer and ask for the name
`host`, then after any calls of `Init` and `Close` a socket of it connects only to `host`. -/
theorem C189_given_partial (given : Nat → TlsWants) (host : Str) (hg : ∀ c, given c = { verify := true, host := some host }) (ops : List CtxOp)
    (hops : ∀ op ∈ ops, op = .close ∨ ∃ c, op = .init c) (pki : Pki Cert) (p : TlsPeer Cert) (res : Int) (new : Option Nat) (rc : Int)
    (h : tlsConnect pki (tlsCtxRun given {} ops) p res new rc = some kSuccess) : Genuine pki host p := by
  have inv : ∀ (ops : List CtxOp) (m : TlsCtx), (m.ctx = none ∨ m.wants = { verify := true, host := some host }) →
      (∀ op ∈ ops, op = .close ∨ ∃ c, op = .init c) →
      (tlsCtxRun given m ops).ctx = none ∨ (tlsCtxRun given m ops).wants = { verify := true, host := some host } := by
    intro ops
    induction ops with
    | nil => intro m hm _; exact hm
    | cons op ops ih =>
      intro m hm ho
      refine ih _ ?_ fun x hx => ho x (List.mem_cons_of_mem _ hx)
      rcases ho op (List.mem_cons_self ..) with rfl | ⟨c, rfl⟩
      · left
        obtain ⟨x, w⟩ := m
        cases x <;> rfl
      · right; exact hg c
  rcases inv ops {} (.inl rfl) hops with h1 | h1
  · unfold tlsConnect at h
    rw [h1] at h
    cases h
  · unfold tlsConnect at h
    cases hc : (ctxCreate (tlsCtxRun given {} ops).ctx res new).1 with
    | none => rw [hc] at h; cases h
    | some s =>
      rw [hc] at h
      simp only [Option.map_some, Option.some.injEq] at h
      have hh := connect_handshake h
      rw [h1] at hh
      have hk := handshake_key hh
      unfold handshake at hh
      cases ht : pki.trusted p.cert <;> cases hn : pki.names p.cert host <;> simp [hk, ht, hn] at hh
      exact ⟨hk, ht, hn⟩

/-- Two certificates, of which one is believed and for `a`. -/
def demoPki : Pki Bool := ⟨fun c => c, fun c n => c && n == b!"a"⟩

/-- An impostor with a certificate of their own is taken for anybody; a context that verifies takes only the right peer. -/
example : ¬ Genuine demoPki b!"a" ⟨false, true⟩ ∧ (httpsInit demoPki {} ⟨false, true⟩ (some 1) 5 (some 2) 0).2.1 = kSuccess ∧
    tlsConnect demoPki (tlsCtxRun (fun _ => ⟨true, some b!"a"⟩) {} [.init 1]) ⟨false, true⟩ 5 (some 2) 0 = some kSysErr ∧
    tlsConnect demoPki (tlsCtxRun (fun _ => ⟨true, some b!"a"⟩) {} [.init 1, .close, .init 2]) ⟨true, true⟩ 5 (some 2) 0 = some kSuccess ∧
    (tlsCtxApply (fun _ => {}) {} (.initCli (some 3))).2 = kSuccess := by
  refine ⟨fun h => absurd (show false = true from h.2.1) (by decide), by decide, by decide, by decide, by decide⟩

end Cppnet
