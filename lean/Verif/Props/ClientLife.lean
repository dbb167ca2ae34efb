import Verif.Model.ClientLife
import Verif.Props.Address
import Verif.Proofs.TcpRel

/-!
# C102–C104: the life of a HttpClient
-/

namespace Cppnet

namespace Spec

/-- The client holds no open connection. -/
def CliIdle (c : Client) : Prop :=
  match c.soc with
  | none => True
  | some (.plain s) => s.status ≠ .init
  | some (.tls s) => s.status ≠ .init

/-- How the calls follow each other: a connection is made only when none is open; either all connections are plain or
all are TLS (`tls`); OpenSSL can always make a session. -/
def Tidy (tls : Bool) : Client → List CliOp → Prop
  | _, [] => True
  | c, op :: ops =>
    (match op with
      | .init _ _ => tls = false ∧ CliIdle c
      | .initSSL _ _ b _ _ => tls = true ∧ b ≠ none ∧ CliIdle c
      | .close => True) ∧
    ∀ c' t, clientApply c op = .ok (c', t) → Tidy tls c' ops

end Spec

open Spec

/-! ### C102, C103 -/

/-- What the client still has to release. -/
def owes (c : Client) : List SslEv :=
  (match c.soc with
  | some (.plain s) => if s.status = .init then [SslEv.close s.fd] else []
  | some (.tls s) => if s.status = .init then .close s.fd :: (match s.ssl with | some (n, _) => [.free n] | none => []) else []
  | none => []) ++
  (match c.ctx with
  | some (some m) => [.ctxFree m]
  | _ => [])

/-- Which kind of client it is. -/
def KindOk (tls : Bool) (c : Client) : Prop :=
  match c.soc with
  | none => (tls = false → c.ctx = none)
  | some (.plain _) => tls = false ∧ c.ctx = none
  | some (.tls s) => tls = true ∧ c.ctx ≠ none ∧ (s.status ≠ .init → s.ssl = none ∧ ∀ m, c.ctx = some m → m = none)

/-- What opening asks to be released later. -/
def debt : SslEv → Option SslEv
  | .socket fd => some (.close fd)
  | .sslNew n => some (.free n)
  | .ctxNew m => some (.ctxFree m)
  | _ => none

/-- The releases among the events. -/
def releases (t : List SslEv) : List SslEv := t.filter fun e => match e with
  | .close _ | .free _ | .ctxFree _ => true
  | _ => false

/-- One call keeps the books balanced. -/
theorem client_step {tls : Bool} {c : Client} {op : CliOp} (hk : KindOk tls c)
    (ht : match op with
      | .init _ _ => tls = false ∧ CliIdle c
      | .initSSL _ _ b _ _ => tls = true ∧ b ≠ none ∧ CliIdle c
      | .close => True) :
    ∃ c' t, clientApply c op = .ok (c', t) ∧ KindOk tls c' ∧
      (owes c ++ t.filterMap debt).Perm (releases t ++ owes c') := by
  obtain ⟨soc, ctx⟩ := c
  cases op with
  | init res rc =>
    obtain ⟨h1, h2⟩ := ht
    subst h1
    have hc : ctx = none := by
      cases soc with
      | none => exact hk rfl
      | some x =>
        cases x with
        | plain s => exact hk.2
        | tls s => exact absurd hk.1 (by simp)
    subst hc
    have ho : owes ⟨soc, none⟩ = [] := by
      cases soc with
      | none => rfl
      | some x =>
        cases x with
        | plain s => simp only [CliIdle] at h2; simp [owes, h2]
        | tls s => exact absurd hk.1 (by simp)
    rw [ho]
    by_cases hr : res < 0
    · refine ⟨⟨some (.plain { fd := res }), none⟩, [], by simp [clientApply, clientInit, hr], by simp [KindOk], by simp [owes, releases]⟩
    · exact ⟨⟨some (.plain { fd := res, status := .init }), none⟩, [.socket res, .connect res rc], by simp [clientApply, clientInit, hr],
        by simp [KindOk], by simp [owes, releases, debt]⟩
  | initSSL a res b rc sslRc =>
    obtain ⟨h1, h2, h3⟩ := ht
    subst h1
    cases b with
    | none => exact absurd rfl h2
    | some n =>
      have ho : owes ⟨soc, ctx⟩ = releases (ctxDrop ctx) ∧ (ctxDrop ctx).filterMap debt = [] := by
        cases ctx with
        | none =>
          cases soc with
          | none => simp [owes, releases, ctxDrop]
          | some x =>
            cases x with
            | plain s => exact absurd hk.1 (by simp)
            | tls s => exact absurd rfl hk.2.1
        | some m =>
          have hs : owes ⟨soc, some m⟩ = (match some m with | some (some m) => [SslEv.ctxFree m] | _ => []) := by
            cases soc with
            | none => rfl
            | some x =>
              cases x with
              | plain s => exact absurd hk.1 (by simp)
              | tls s => simp only [CliIdle] at h3; simp [owes, h3]
          rw [hs]
          cases m <;> simp [ctxClose, releases, debt, ctxDrop]
      cases a with
      | none =>
        refine ⟨⟨none, some none⟩, ctxDrop ctx, by simp [clientApply, clientInitSSL, ctxInitCli, ctxCreate], by simp [KindOk], ?_⟩
        rw [ho.1, ho.2]
        simp [owes]
      | some m =>
        by_cases hr : res < 0
        · refine ⟨⟨none, some (some m)⟩, ctxDrop ctx ++ [.ctxNew m], by simp [clientApply, clientInitSSL, ctxInitCli, ctxCreate, ctxAdopt, hr], by simp [KindOk], ?_⟩
          rw [ho.1, List.filterMap_append, ho.2]
          simp [owes, releases, debt]
        · have hf : Sock.ofFd res = { fd := res, status := .init } := by simp [Sock.ofFd, hr]
          have key : ∃ t, clientApply ⟨soc, ctx⟩ (.initSSL (some m) res (some n) rc sslRc) = .ok (⟨some (.tls ⟨res, .init, some (n, res)⟩), some (some m)⟩,
              ctxDrop ctx ++ [.ctxNew m, .socket res, .sslNew n, .setFd n res] ++ t) ∧ t.filterMap debt = [] ∧ releases t = [] := by
            by_cases q1 : rc < 0
            · exact ⟨[.connect res rc], by simp [clientApply, clientInitSSL, ctxInitCli, ctxCreate, ctxCreateOn, ctxAdopt, hr, hf, SslSock.make, SslSock.connect, q1], rfl, rfl⟩
            · by_cases q2 : sslRc ≤ 0
              · exact ⟨[.connect res rc, .sslConnect n sslRc], by simp [clientApply, clientInitSSL, ctxInitCli, ctxCreate, ctxCreateOn, ctxAdopt, hr, hf, SslSock.make, SslSock.connect, q1, q2], rfl, rfl⟩
              · exact ⟨[.connect res rc, .sslConnect n sslRc], by simp [clientApply, clientInitSSL, ctxInitCli, ctxCreate, ctxCreateOn, ctxAdopt, hr, hf, SslSock.make, SslSock.connect, q1, q2], rfl, rfl⟩
          obtain ⟨t, h4, h5, h6⟩ := key
          refine ⟨_, _, h4, by simp [KindOk], ?_⟩
          have hrel : ∀ a b : List SslEv, releases (a ++ b) = releases a ++ releases b := fun a b => List.filter_append a b
          rw [ho.1, List.filterMap_append, List.filterMap_append, ho.2, h5, hrel, hrel, h6]
          simp only [List.append_nil, List.nil_append]
          rw [show releases [SslEv.ctxNew m, .socket res, .sslNew n, .setFd n res] = [] from rfl, List.append_nil]
          apply List.Perm.append_left
          simp only [owes, debt, List.filterMap_cons, List.filterMap_nil, if_true]
          exact List.perm_append_comm (l₁ := [SslEv.ctxFree m]) (l₂ := [SslEv.close res, SslEv.free n])
  | close =>
    cases soc with
    | none => exact ⟨_, _, rfl, hk, by simp [releases]⟩
    | some x =>
      cases x with
      | plain s =>
        obtain ⟨h1, h2⟩ := hk
        simp only at h2
        subst h2
        by_cases hs : s.status = .init
        · refine ⟨_, _, rfl, ?_, ?_⟩
          · simpa [KindOk] using h1
          · simp [owes, hs, releases, debt]
        · refine ⟨_, _, rfl, ?_, ?_⟩
          · simpa [KindOk] using h1
          · simp [owes, hs, releases]
      | tls s =>
        obtain ⟨h1, h2, h3⟩ := hk
        cases ctx with
        | none => exact absurd rfl h2
        | some m =>
          obtain ⟨fd, st, ssl⟩ := s
          simp only at h3
          by_cases hs : st = .init
          · subst hs
            cases ssl <;> cases m <;> refine ⟨_, _, rfl, ?_, ?_⟩ <;>
              simp [clientApply, clientClose, KindOk, SslSock.close, SslSock.closeSSL, ctxClose, owes, releases, debt, h1]
          · obtain ⟨e1, e2⟩ := h3 hs
            have e2 := e2 m rfl
            subst e1 e2
            refine ⟨⟨some (.tls ⟨fd, st, none⟩), some none⟩, [], ?_, ?_, ?_⟩
            · simp [clientApply, clientClose, SslSock.close, SslSock.closeSSL, ctxClose, hs]
            · simp [KindOk, h1]
            · simp [owes, hs, releases]


theorem releases_append (a b : List SslEv) : releases (a ++ b) = releases a ++ releases b := List.filter_append a b

theorem idle_owes {c : Client} (h : CliIdle c) : owes c = ctxDrop c.ctx := by
  obtain ⟨soc, ctx⟩ := c
  cases soc with
  | none => cases ctx with
    | none => rfl
    | some m => cases m <;> rfl
  | some x =>
    cases x with
    | plain s =>
      simp only [CliIdle] at h
      cases ctx with
      | none => simp [owes, h, ctxDrop]
      | some m => cases m <;> simp [owes, h, ctxDrop, ctxClose]
    | tls s =>
      simp only [CliIdle] at h
      cases ctx with
      | none => simp [owes, h, ctxDrop]
      | some m => cases m <;> simp [owes, h, ctxDrop, ctxClose]

theorem close_not_init (s : SslSock) : s.close.1.status ≠ .init := by
  unfold SslSock.close
  split
  · assumption
  · simp only [SslSock.closeSSL]
    split <;> simp

theorem close_idle {c c' : Client} {t : List SslEv} (h : clientClose c = .ok (c', t)) : CliIdle c' := by
  unfold clientClose at h
  obtain ⟨soc, ctx⟩ := c
  cases soc with
  | none => simp at h; rw [← h.1]; trivial
  | some x =>
    cases x with
    | plain s =>
      cases ctx with
      | none =>
        simp at h
        rw [← h.1]
        by_cases hs : s.status = .init <;> simp [CliIdle, hs]
      | some m => simp at h
    | tls s =>
      have h1 := close_not_init s
      cases ctx with
      | none => simp at h; rw [← h.1]; exact h1
      | some m =>
        simp at h
        rw [← h.1]
        have : s.close.1.closeSSL.1.status = s.close.1.status := by
          unfold SslSock.closeSSL
          split <;> rfl
        show s.close.1.closeSSL.1.status ≠ _
        rw [this]
        exact h1

theorem client_life {tls : Bool} (ops : List CliOp) : ∀ {c : Client}, KindOk tls c → Tidy tls c ops →
    ∃ t, clientLife c ops = .ok t ∧ (owes c ++ t.filterMap debt).Perm (releases t) := by
  induction ops with
  | nil =>
    intro c hk _
    obtain ⟨c', t, h1, h2, h3⟩ := client_step (op := .close) hk trivial
    simp only [clientApply] at h1
    refine ⟨t ++ ctxDrop c'.ctx, by simp only [clientLife, clientDestroy, h1, bind, Except.bind], ?_⟩
    have hd : (ctxDrop c'.ctx).filterMap debt = [] ∧ releases (ctxDrop c'.ctx) = ctxDrop c'.ctx := by
      cases c'.ctx with
      | none => exact ⟨rfl, rfl⟩
      | some m => cases m <;> exact ⟨rfl, rfl⟩
    rw [List.filterMap_append, hd.1, List.append_nil, releases_append, hd.2]
    have ho : owes c' = ctxDrop c'.ctx := idle_owes (close_idle h1)
    rw [← ho]
    exact h3
  | cons op ops ih =>
    intro c hk ht
    obtain ⟨ht1, ht2⟩ := ht
    obtain ⟨c', t, h1, h2, h3⟩ := client_step (op := op) hk ht1
    obtain ⟨t', h4, h5⟩ := ih h2 (ht2 c' t h1)
    refine ⟨t ++ t', by simp only [clientLife, h1, h4, bind, Except.bind], ?_⟩
    rw [List.filterMap_append, releases_append, ← List.append_assoc]
    refine (h3.append_right _).trans ?_
    rw [List.append_assoc]
    exact List.Perm.append_left _ h5

/-- C102 and C103, when the calls are in order: the client does not crash, and by the end of its life every descriptor, TLS
session and TLS context that it opened is released exactly once. -/
theorem C102_released_partial (tls : Bool) (ops : List CliOp) (h : Tidy tls {} ops) :
    ∃ t, clientLife {} ops = .ok t ∧
      (∀ fd, t.count (.close fd) = t.count (.socket fd)) ∧ (∀ n, t.count (.free n) = t.count (.sslNew n)) ∧
      (∀ m, t.count (.ctxFree m) = t.count (.ctxNew m)) := by
  obtain ⟨t, h1, h2⟩ := client_life (tls := tls) (c := {}) ops (by simp [KindOk]) h
  have h2 : (t.filterMap debt).Perm (releases t) := by simpa [owes] using h2
  have hcount : ∀ e d, debt d = some e → (∀ x, debt x = some e → x = d) → (match e with
      | .close _ | .free _ | .ctxFree _ => true
      | _ => false) = true → t.count e = t.count d := by
    intro e d hd hu he
    have a : (releases t).count e = t.count e := by
      unfold releases
      exact List.count_filter he
    have b : ∀ l : List SslEv, (l.filterMap debt).count e = l.count d := by
      intro l
      induction l with
      | nil => rfl
      | cons x l ih =>
        by_cases hx : x = d
        · subst hx
          rw [List.filterMap_cons_some hd, List.count_cons_self, List.count_cons_self, ih]
        · rw [List.count_cons_of_ne hx]
          cases hdx : debt x with
          | none => rw [List.filterMap_cons_none hdx, ih]
          | some y =>
            rw [List.filterMap_cons_some hdx, List.count_cons_of_ne, ih]
            rintro rfl
            exact hx (hu x hdx)
    rw [← a, ← b, h2.count_eq]
  refine ⟨t, h1, fun fd => hcount _ (.socket fd) rfl ?_ rfl, fun n => hcount _ (.sslNew n) rfl ?_ rfl, fun m => hcount _ (.ctxNew m) rfl ?_ rfl⟩ <;>
    · intro x hx
      cases x <;> simp [debt] at hx
      rw [hx]

/-- An orderly life: two plain connections, the second of which fails. -/
example : Tidy false {} [.init 5 0, .close, .close, .init 6 (-1)] ∧
    clientLife {} [.init 5 0, .close, .close, .init 6 (-1)] = .ok [.socket 5, .connect 5 0, .close 5, .socket 6, .connect 6 (-1), .close 6] := by
  refine ⟨?_, by decide +kernel⟩
  simp [Tidy, CliIdle, clientApply, clientInit, clientClose]

/-- An orderly life of a TLS client. -/
example : Tidy true {} [.initSSL (some 1) 5 (some 2) 0 1, .close, .initSSL (some 3) 5 (some 4) 0 1] ∧
    clientLife {} [.initSSL (some 1) 5 (some 2) 0 1, .close, .initSSL (some 3) 5 (some 4) 0 1] =
      .ok [.ctxNew 1, .socket 5, .sslNew 2, .setFd 2 5, .connect 5 0, .sslConnect 2 1, .close 5, .shutdown 2 5, .free 2, .ctxFree 1,
        .ctxNew 3, .socket 5, .sslNew 4, .setFd 4 5, .connect 5 0, .sslConnect 4 1, .close 5, .shutdown 4 5, .free 4, .ctxFree 3] := by
  refine ⟨?_, by decide +kernel⟩
  simp [Tidy, CliIdle, clientApply, clientInitSSL, ctxInitCli, ctxCreate, ctxCreateOn, ctxAdopt, Sock.ofFd, SslSock.make, SslSock.connect,
    kSuccess, clientClose, SslSock.close, SslSock.closeSSL, ctxClose]

/-- C102 is false: a second `Init` loses the first connection; a second `InitSSL` loses descriptor and session. -/
theorem C102_leak_refuted :
    clientLife {} [.init 5 0, .init 6 0] = .ok [.socket 5, .connect 5 0, .socket 6, .connect 6 0, .close 6] ∧
    (∃ t, clientLife {} [.initSSL (some 1) 5 (some 2) 0 1, .initSSL (some 3) 6 (some 4) 0 1] = .ok t ∧ .socket 5 ∈ t ∧
      .close 5 ∉ t ∧ .sslNew 2 ∈ t ∧ .free 2 ∉ t) := by
  refine ⟨by decide +kernel, _, rfl, ?_⟩
  decide +kernel

/-- C103 is false: after `InitSSL` and then `Init`, `Close` and the destructor go through a null pointer. -/
theorem C103_null_refuted (a : Option Nat) (fd : Int) (b : Option Nat) (rc sslRc res rc' : Int) :
    clientLife {} [.initSSL a fd b rc sslRc, .init res rc', .close] = .error .ub ∧
    clientLife {} [.initSSL a fd b rc sslRc, .init res rc'] = .error .ub := by
  have h : ∃ m t, (clientInitSSL {} a fd b rc sslRc).1.ctx = some m ∧ clientApply {} (.initSSL a fd b rc sslRc) =
      .ok ((clientInitSSL {} a fd b rc sslRc).1, t) := by
    unfold clientInitSSL
    cases hc : ctxCreate (ctxInitCli none a).1 fd b with
    | mk x t2 =>
      cases x with
      | none => exact ⟨_, _, by simp only [hc]; rfl, by simp only [clientApply, clientInitSSL, hc]; rfl⟩
      | some s => exact ⟨_, _, by simp only [hc]; rfl, by simp only [clientApply, clientInitSSL, hc]; rfl⟩
  obtain ⟨m, t, h1, h2⟩ := h
  have h3 : ∃ s t', clientApply (clientInitSSL {} a fd b rc sslRc).1 (.init res rc') = .ok (⟨some (.plain s), some m⟩, t') := by
    by_cases hr : res < 0
    · exact ⟨_, _, by simp only [clientApply, clientInit, if_pos hr, h1]; rfl⟩
    · exact ⟨_, _, by simp only [clientApply, clientInit, if_neg hr, h1]; rfl⟩
  obtain ⟨s, t', h3⟩ := h3
  have h4 : ∀ s, clientClose ⟨some (.plain s), some m⟩ = .error .ub := fun s => rfl
  constructor
  · simp only [clientLife, h2, h3, bind, Except.bind]
    simp only [clientApply, h4]
  · simp only [clientLife, clientDestroy, h2, h3, bind, Except.bind, h4]

/-- C103, when the calls are in order. -/
theorem C103_no_crash_partial (tls : Bool) (ops : List CliOp) (h : Tidy tls {} ops) : ∃ t, clientLife {} ops = .ok t := by
  obtain ⟨t, h1, _⟩ := C102_released_partial tls ops h
  exact ⟨t, h1⟩

/-! ### C104 -/

/-- C104: the connection goes to the given address, and to the default port exactly when the given port is 0. -/
theorem C104_port (s : Str) (a b c d : Nat) (port dflt : UInt16) (h : DottedQuad s a b c d) :
    addressIP (clientAddr dflt (addressInit s port).1) = s ∧
    addressPort (clientAddr dflt (addressInit s port).1) = if port = 0 then dflt else port := by
  obtain ⟨-, h1, h2, -⟩ := C65_round_trip s a b c d port h
  obtain ⟨-, h3, h4, -⟩ := C65_round_trip s a b c d dflt h
  unfold clientAddr
  rw [h2]
  by_cases hp : port = 0
  · rw [if_pos hp, if_pos hp, h1]
    exact ⟨h3, h4⟩
  · rw [if_neg hp, if_neg hp]
    exact ⟨h1, h2⟩

example : addressToString (clientAddr 443 (addressInit b!"10.0.0.1" 0).1) = b!"10.0.0.1:443" ∧
    addressToString (clientAddr 80 (addressInit b!"10.0.0.1" 8080).1) = b!"10.0.0.1:8080" := by decide +kernel

end Cppnet
