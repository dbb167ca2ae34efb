import Verif.Proofs.Tcp

/-!
# C60–C64: the TCP server
-/

namespace Cppnet
open Spec

/-! ### C61 -/

theorem opens_closes {k : Kern} {tr : List NetEv} (hp : Possible k tr) (hc : ClosesOnlyOpen k tr) (fd : Int)
    (hfd : 0 ≤ fd) : opens fd tr + (k.opn fd).toNat = closes fd tr + ((k.run tr).opn fd).toNat := by
  induction tr generalizing k with
  | nil => simp [opens, closes]
  | cons e tr ih =>
    have ih := ih hp.2 hc.2
    rw [kern_run_cons]
    have key : (opens fd [e]) + (k.opn fd).toNat = closes fd [e] + ((k.step e).opn fd).toNat := by
      have h1 := hp.1
      have h2 := hc.1
      have opened : ∀ r : Int, (0 ≤ r → k.opn r = false) →
          (if r = fd then 1 else 0) + (k.opn fd).toNat =
          ((if r < 0 then k else { k with opn := fun i => i == r || k.opn i }).opn fd).toNat := by
        intro r hr
        by_cases hrf : r = fd
        · subst hrf
          simp [hr hfd, show ¬ r < 0 by omega]
        · have : (fd == r) = false := by simpa using Ne.symm hrf
          by_cases hr0 : r < 0 <;> simp [hrf, hr0, this]
      cases e with
      | socket r =>
        have := opened r h1
        by_cases hrf : r = fd <;> simp [opens, closes, Kern.step, hrf] at this ⊢ <;> exact this
      | epollCreate r =>
        have := opened r h1
        by_cases hrf : r = fd <;> simp [opens, closes, Kern.step, hrf] at this ⊢ <;> exact this
      | accept l r =>
        have := opened r h1
        by_cases hrf : r = fd <;> simp [opens, closes, Kern.step, hrf] at this ⊢ <;> exact this
      | close f =>
        have := h2 f rfl
        by_cases hf : f = fd
        · subst hf; simp [opens, closes, Kern.step, this]
        · have : (fd != f) = true := by simpa using Ne.symm hf
          simp [opens, closes, Kern.step, hf, this]
      | _ => first | (simp [opens, closes, Kern.step]; done) | (simp only [opens, closes, Kern.step]; split <;> simp)
    have e1 : opens fd (e :: tr) = opens fd [e] + opens fd tr := by
      unfold opens; rw [← List.length_append, ← List.filter_append]; rfl
    have e2 : closes fd (e :: tr) = closes fd [e] + closes fd tr := by
      unfold closes; rw [← List.count_append]; rfl
    omega

theorem closedOnLeave_of {tr : List NetEv} (h : Follows afterCall tr) : ClosedOnLeave tr :=
  fun _ _ _ _ he => follows_pre h he

theorem closedOnError_of {tr : List NetEv} (h : Follows afterCall tr) : ClosedOnError tr :=
  fun _ _ _ _ h0 he => follows_pre h he h0

/-- `Init` in the I/O multiplexing mode, when it succeeds. -/
theorem tcpInit_io {s : TcpSrv} {a : InitAns} (hm : s.mode = .io) (h : (tcpInit s a).2.1 = kSuccess) :
    0 ≤ a.socket ∧ 0 ≤ a.epoll ∧ 0 ≤ a.add ∧
    tcpInit s a = ({ s with loop := true, listen := ⟨a.socket, .init⟩, io := some { fd := ⟨a.epoll, .init⟩ }, cb := .quiet },
      kSuccess, [.socket a.socket, .setReuse a.socket a.reuse, .bind a.socket a.bind,
        .listen a.socket s.maxQueue a.listen, .epollCreate a.epoll, .ctlAdd a.epoll a.socket a.add false]) := by
  have hneg : ∀ {x y : Int}, x < 0 → ¬ (Sock.ofFd x).status = .init := by
    intro x _ hx; simp [Sock.ofFd, hx]
  unfold tcpInit createSocket at h ⊢
  by_cases h1 : a.socket < 0
  · simp [h1, Sock.ofFd, kSysErr, kSuccess] at h
  · by_cases h2 : a.reuse < 0
    · simp [h1, h2, Sock.ofFd, kSysErr, kSuccess] at h
    · by_cases h3 : addressIP s.addr = [] ∨ addressPort s.addr = 0
      · simp [h1, h2, h3, Sock.ofFd, kLogicErr, kSysErr, kSuccess] at h
      · by_cases h4 : a.bind < 0
        · simp [h1, h2, h3, h4, Sock.ofFd, kSysErr, kSuccess] at h
        · by_cases h5 : a.listen < 0
          · simp [h1, h2, h3, h4, h5, Sock.ofFd, kSysErr, kSuccess, closeListen] at h
          · by_cases h6 : a.epoll < 0
            · simp [h1, h2, h3, h4, h5, h6, hm, Sock.ofFd, kSysErr, kSuccess, closeListen, initMode, initEpoll, epInit] at h
            · by_cases h7 : a.add < 0
              · simp [h1, h2, h3, h4, h5, h6, h7, hm, Sock.ofFd, kSysErr, kSuccess, closeListen, initMode, initEpoll, epInit,
                  epMonitor, epollTrigger] at h
              · refine ⟨by omega, by omega, by omega, ?_⟩
                simp [h1, h2, h3, h4, h5, h6, h7, hm, Sock.ofFd, kSuccess, initMode, initEpoll, epInit,
                  epMonitor, epollTrigger]

/-- C61, while the server runs: whatever `epoll_wait` reports in whatever order and however `accept` and
`epoll_ctl` fail, a server in I/O multiplexing mode whose callback is polite never closes a descriptor that is
not open, ends watching and closes a connection right after its leave or error callback, and whenever it
waits, the only descriptors open besides those of the rest of the process are its epoll descriptor and the
watched ones (so nothing is leaked); each number is closed as often as it was opened, except that the open
ones are still to be closed.  Missing: connections that are still open when the server is stopped (below). -/
theorem C61_closed_once_partial (s0 : TcpSrv) (a : InitAns) (n : Nat) (rounds : List Round) (k0 : Kern)
    (hk : ∀ fd, k0.mon fd = false) (hm : s0.mode = .io) (hi : (tcpInit s0 a).2.1 = kSuccess)
    (hp : PoliteRounds rounds) :
    ∃ s tr, s0.history [.init a, .register n, .eventLoop rounds []] = .ok (s, tr) ∧ (Possible k0 tr →
      ClosesOnlyOpen k0 tr ∧ ClosedOnLeave tr ∧ ClosedOnError tr ∧
      (∀ pre ep ready post, tr = pre ++ .wait ep ready :: post → ∀ fd, (k0.run pre).opn fd = true ↔
        k0.opn fd = true ∨ fd = ep ∨ (k0.run pre).mon fd = true) ∧
      (∀ fd, (k0.run tr).opn fd = true ↔ k0.opn fd = true ∨ fd = a.epoll ∨ (k0.run tr).mon fd = true) ∧
      (∀ fd, 0 ≤ fd → opens fd tr + (k0.opn fd).toNat =
        closes fd tr + ((k0.run tr).opn fd).toNat)) := by
  obtain ⟨hs, he, hadd, hinit⟩ := tcpInit_io hm hi
  let t0 : List NetEv := [.socket a.socket, .setReuse a.socket a.reuse, .bind a.socket a.bind,
        .listen a.socket s0.maxQueue a.listen, .epollCreate a.epoll, .ctlAdd a.epoll a.socket a.add false]
  let s1 : TcpSrv := { s0 with loop := true, listen := ⟨a.socket, .init⟩, io := some { fd := ⟨a.epoll, .init⟩ }, cb := .user n }
  have hr : Ready s1 a.socket { fd := ⟨a.epoll, .init⟩ } n := ⟨rfl, rfl, rfl, hm⟩
  have hsn : ¬ a.socket < 0 := by omega
  have hen : ¬ a.epoll < 0 := by omega
  have han : ¬ a.add < 0 := by omega
  have hloop : ∀ rounds, Cppnet.eventLoop s1 rounds [] = ioLoop s1 rounds := by
    intro rounds
    simp only [Cppnet.eventLoop, s1, hm]
    simp
  have hhist : ∀ s t o, ioLoop s1 rounds = .ok (s, t, o) →
      s0.history [.init a, .register n, .eventLoop rounds []] = .ok (s, t0 ++ t) := by
    intro s t o h
    have h' := (hloop rounds).trans h
    simp only [TcpSrv.history, TcpSrv.apply, hinit, bind, Except.bind, reduceCtorEq, if_false]
    simp only [s1] at h'
    rw [h']
    cases o <;> simp [t0]
  by_cases hpos : Possible k0 t0
  · have hso : k0.opn a.socket = false := hpos.1 hs
    have heo : ((k0.step (.socket a.socket)).opn a.epoll) = false := hpos.2.2.2.2.1 he
    simp only [Kern.step, if_neg hsn, Bool.or_eq_false_iff, beq_eq_false_iff_ne, ne_eq] at heo
    have hrun : k0.run t0 = ⟨fun i => i == a.epoll || (i == a.socket || k0.opn i), fun i => i == a.socket || k0.mon i⟩ := by
      simp only [t0, kern_run_cons, kern_run_nil, Kern.step, if_neg hsn, if_neg hen, if_neg han]
    have hinv : FdInv k0 (k0.run t0) a.socket a.epoll := by
      rw [hrun]
      refine ⟨by simp, by simp [hk, heo.1], ?_, ?_, heo.2⟩
      · intro fd
        simp only [Bool.or_eq_true, beq_iff_eq, hk, Bool.false_eq_true, or_false]
        constructor
        · rintro (h | h | h)
          · exact Or.inr (Or.inl h)
          · exact Or.inr (Or.inr h)
          · exact Or.inl h
        · rintro (h | h | h)
          · exact Or.inr (Or.inr h)
          · exact Or.inl h
          · exact Or.inr (Or.inl h)
      · intro fd h
        simp only [Bool.or_eq_true, beq_iff_eq, hk, Bool.false_eq_true, or_false] at h
        rw [h]; exact hso
    obtain ⟨s, t, o, ep', e1, _, _, e2⟩ := ioLoop_piece rounds hr hinv hp
    refine ⟨s, t0 ++ t, hhist s t o e1, fun hpos' => ?_⟩
    have p := e2 (throughout_append.1 hpos').2
    have p0 : Piece k0 k0 a.socket a.epoll t0 :=
      ⟨hinv, by simp [t0, ClosesOnlyOpen, Throughout], ⟨trivial, trivial, trivial, trivial, trivial, trivial, trivial⟩,
        by simp [t0, Throughout, AtWait]⟩
    have q := loop_append p0 p
    refine ⟨q.closes, closedOnLeave_of q.follows, closedOnError_of q.follows, ?_, q.inv.opn,
      fun fd hfd => opens_closes hpos' q.closes fd hfd⟩
    intro pre ep ready post htr fd
    have hw := throughout_pre (P := AtWait k0) (htr ▸ q.waits)
    exact hw ep ready rfl fd
  · obtain ⟨s, t, o, e1⟩ := ioLoop_total rounds hr hp
    exact ⟨s, t0 ++ t, hhist s t o e1, fun hpos' => absurd (throughout_append.1 hpos').1 hpos⟩

/-- The callback of `HttpServer` is polite, whatever it is answered. -/
theorem C61_http_server_partial (addrRc : Int) (dropped : Bool) (del : Int) : Polite (httpActs addrRc dropped del) := by
  intro ev fd
  cases ev with
  | accept =>
    by_cases h : addrRc ≠ kSuccess
    · right; exact ⟨Or.inl rfl, del, by simp only [httpActs, if_pos h]⟩
    · left; simp only [httpActs, if_neg h]
  | read =>
    cases dropped with
    | true => right; exact ⟨Or.inr rfl, del, rfl⟩
    | false => left; rfl
  | leave => left; rfl
  | error => left; rfl

/-- A server with an address. -/
def demoSrv (m : SrvMode) : TcpSrv := { addr := (addressInit b!"127.0.0.1" 8080).1, mode := m }

/-- Answers for a successful `Init`: listening on 3, epoll is 4. -/
def demoInit : InitAns := { socket := 3, epoll := 4 }

def bitsIn : EpBits := { inn := true }
def bitsLeave : EpBits := { inn := true, rdhup := true }

/-- Two connections, one dropped by the callback when it becomes readable, the other leaving; the first
number is used again. -/
def demoRounds : List Round :=
  [{ res := .events [(3, bitsIn, { accept := 5 })] }, { res := .intr },
   { res := .events [(3, bitsIn, { accept := 6, acts := httpActs 0 false 0 })] },
   { res := .events [(6, bitsLeave, { acts := httpActs 0 false 0 }), (5, bitsIn, { acts := httpActs 0 true 0 }),
      (3, bitsIn, { accept := 5, acts := httpActs 0 false 0 })] },
   { res := .events [(3, bitsIn, { accept := -1 }), (5, { err := true }, {})], stopped := true }]

/-- What happens, without the final state. -/
def eventsOf (r : Out (TcpSrv × List NetEv)) : Out (List NetEv) := r.map (·.2)

def demoTrace : List NetEv :=
  [.socket 3, .setReuse 3 0, .bind 3 0, .listen 3 10 0, .epollCreate 4, .ctlAdd 4 3 0 false,
   .wait 4 [(3, bitsIn)], .accept 3 5, .ctlAdd 4 5 0 false, .call (.user 1) .accept 5,
   .waitFailed 4,
   .wait 4 [(3, bitsIn)], .accept 3 6, .ctlAdd 4 6 0 false, .call (.user 1) .accept 6,
   .wait 4 [(6, bitsLeave), (5, bitsIn), (3, bitsIn)], .call (.user 1) .leave 6, .ctlDel 4 6 0, .close 6,
   .call (.user 1) .read 5, .ctlDel 4 5 0, .close 5, .accept 3 5, .ctlAdd 4 5 0 false, .call (.user 1) .accept 5,
   .wait 4 [(3, bitsIn), (5, { err := true })], .accept 3 (-1), .call (.user 1) .error (-1), .call (.user 1) .error 5,
   .ctlDel 4 5 0, .close 5]

example : eventsOf ((demoSrv .io).history [.init demoInit, .register 1, .eventLoop demoRounds []]) = .ok demoTrace := by
  decide +kernel

instance (k : Kern) (e : NetEv) : Decidable (k.allows e) := by
  cases e <;> simp only [Kern.allows] <;> infer_instance

instance possibleDec : (k : Kern) → (tr : List NetEv) → Decidable (Possible k tr)
  | _, [] => .isTrue trivial
  | k, e :: es =>
    have := possibleDec (k.step e) es
    inferInstanceAs (Decidable (k.allows e ∧ Possible (k.step e) es))

example : Possible {} demoTrace := by decide +kernel
example : (tcpInit (demoSrv .io) demoInit).2.1 = kSuccess := by decide +kernel
theorem demoRounds_polite : PoliteRounds demoRounds := by
  have hq : Polite fun _ _ => [] := fun _ _ => Or.inl rfl
  intro r hr evs he x hx
  simp only [demoRounds, List.mem_cons, List.not_mem_nil, or_false] at hr
  rcases hr with rfl | rfl | rfl | rfl | rfl <;> cases he <;>
    simp only [List.mem_cons, List.not_mem_nil, or_false] at hx
  · subst hx; exact hq
  · subst hx; exact C61_http_server_partial _ _ _
  · rcases hx with rfl | rfl | rfl <;> exact C61_http_server_partial _ _ _
  · rcases hx with rfl | rfl <;> exact hq

/-- C61 is false when the server ends: stopping, leaving the loop and destroying the server (`Stop`, `Clean`)
closes no connection, so one that is still there is leaked. -/
theorem C61_stop_leaks_refuted :
    ∃ tr, eventsOf ((demoSrv .io).history [.init demoInit, .register 1,
      .eventLoop [{ res := .events [(3, bitsIn, { accept := 5 })], stopped := true }] [], .stop, .clean]) = .ok tr ∧
      Possible {} tr ∧ .call (.user 1) .accept 5 ∈ tr ∧ .close 3 ∈ tr ∧ .close 4 ∈ tr ∧
      (Kern.run {} tr).opn 5 = true := by
  refine ⟨[.socket 3, .setReuse 3 0, .bind 3 0, .listen 3 10 0, .epollCreate 4, .ctlAdd 4 3 0 false,
   .wait 4 [(3, bitsIn)], .accept 3 5, .ctlAdd 4 5 0 false, .call (.user 1) .accept 5, .close 3, .close 4], ?_⟩
  decide +kernel

/-! ### C60 -/

theorem play_shut {s : TcpSrv} {l : Int} {ep : Ep} {n : Nat} (hr : Ready s l ep n) (hl : ep.loop = true) {fd : Int}
    (hfd : fd ≠ l) (post : List Peer) (hw : .wait ∈ post) (unread : Str) :
    play s fd unread true post = .ok [.leave] := by
  induction post generalizing unread with
  | nil => cases hw
  | cons p post ih =>
    cases p with
    | send d => exact ih (by simpa using hw) _
    | shut => exact ih (by simpa using hw) _
    | wait =>
      have hb : epEvent (connBits unread true) = some .leave := by simp [connBits, epEvent]
      have hf : ¬ fd = s.listen.fd := by rw [hr.listen]; exact hfd
      simp only [play, ioLoop, hr.io, hl, if_true, ioBatch, hb, ioEvent, if_neg hf, handleGone, callCb, hr.cb, cbActs,
        tcpRemove, epRemove, stopIf, bind, Except.bind]
      simp [hr.io]

theorem play_open {s : TcpSrv} {l : Int} {ep : Ep} {n : Nat} (hr : Ready s l ep n) (hl : ep.loop = true) {fd : Int}
    (hfd : fd ≠ l) (unread : Str) (hne : unread ≠ []) (rest : List Peer) (seen : List Seen)
    (h : play s fd [] false rest = .ok seen) : play s fd unread false (.wait :: rest) = .ok (.read unread :: seen) := by
  have hb : epEvent (connBits unread false) = some .read := by
    cases unread with
    | nil => exact absurd rfl hne
    | cons c u => simp [connBits, epEvent]
  have hf : ¬ fd = s.listen.fd := by rw [hr.listen]; exact hfd
  have hmode : ¬ s.mode = .mixed := by rw [hr.mode]; simp
  simp only [play, ioLoop, hr.io, hl, if_true, ioBatch, hb, ioEvent, if_neg hf, if_neg hmode, handleReadEv, callCb, hr.cb,
    cbActs, stopIf, bind, Except.bind, hne, false_and, if_false, h]
  simp [hr.io]

theorem dropWhile_nil {α : Type} {p : α → Bool} {l : List α} : l.dropWhile p = [] ↔ ∀ x ∈ l, p x = true := by
  induction l with
  | nil => simp
  | cons x l ih =>
    rw [List.dropWhile_cons]
    by_cases h : p x = true
    · rw [if_pos h, ih]; simp [h]
    · rw [if_neg h]; simp [h]

theorem upToLastWait_cons (x : Peer) (pre : List Peer) : upToLastWait (x :: pre) =
    if .wait ∈ pre then x :: upToLastWait pre else if x = .wait then [.wait] else [] := by
  unfold upToLastWait
  rw [List.reverse_cons, List.dropWhile_append]
  by_cases h : Peer.wait ∈ pre
  · have hne : (pre.reverse.dropWhile fun x => decide (x ≠ .wait)).isEmpty = false := by
      cases he : (pre.reverse.dropWhile fun x => decide (x ≠ .wait)) with
      | cons => rfl
      | nil =>
        have := (dropWhile_nil.1 he) .wait (by simpa using h)
        simp at this
    rw [if_pos h, hne]
    simp
  · have he : (pre.reverse.dropWhile fun x => decide (x ≠ .wait)) = [] := by
      rw [dropWhile_nil]
      intro y hy
      simp only [List.mem_reverse] at hy
      simp only [decide_eq_true_eq]
      rintro rfl
      exact h hy
    rw [if_neg h, he]
    by_cases hx : x = .wait
    · simp [hx]
    · simp [hx]

theorem play_story {s : TcpSrv} {l : Int} {ep : Ep} {n : Nat} (hr : Ready s l ep n) (hl : ep.loop = true) {fd : Int}
    (hfd : fd ≠ l) (pre post : List Peer) (hn : .shut ∉ pre) (hw : .wait ∈ post) (unread : Str) :
    ∃ seen, play s fd unread false (pre ++ .shut :: post) = .ok (seen ++ [.leave]) ∧ .leave ∉ seen ∧
      delivered seen = if .wait ∈ pre then unread ++ sent (upToLastWait pre) else [] := by
  induction pre generalizing unread with
  | nil => exact ⟨[], play_shut hr hl hfd post hw unread, by simp, rfl⟩
  | cons x pre ih =>
    have hn' : .shut ∉ pre := by simp at hn; exact hn.2
    rw [upToLastWait_cons]
    cases x with
    | shut => simp at hn
    | send d =>
      obtain ⟨seen, h1, h2, h3⟩ := ih hn' (unread ++ d)
      refine ⟨seen, h1, h2, ?_⟩
      by_cases hp : Peer.wait ∈ pre
      · simp [hp] at h3 ⊢
        rw [h3]; simp [sent]
      · simp [hp] at h3 ⊢
        exact h3
    | wait =>
      by_cases hu : unread = []
      · subst hu
        obtain ⟨seen, h1, h2, h3⟩ := ih hn' []
        refine ⟨seen, by simpa [play] using h1, h2, ?_⟩
        by_cases hp : Peer.wait ∈ pre
        · simp [hp] at h3 ⊢
          rw [h3]; simp [sent]
        · simp [hp] at h3 ⊢
          rw [h3]; simp [sent]
      · obtain ⟨seen, h1, h2, h3⟩ := ih hn' []
        refine ⟨.read unread :: seen, play_open hr hl hfd unread hu _ _ h1, by simp [h2], ?_⟩
        by_cases hp : Peer.wait ∈ pre
        · simp [hp] at h3 ⊢
          simp [delivered] at h3 ⊢
          rw [h3]; simp [sent]
        · have hd : delivered (.read unread :: seen) = unread ++ delivered seen := by simp [delivered]
          rw [if_neg hp] at h3
          rw [hd, h3]
          simp [hp, sent]

/-- The server after `Init` and `Register`. -/
theorem started_ready {s0 s : TcpSrv} {a : InitAns} {n : Nat} {tr : List NetEv} (hm : s0.mode = .io)
    (hi : (tcpInit s0 a).2.1 = kSuccess) (h : s0.history [.init a, .register n] = .ok (s, tr)) :
    Ready s a.socket { fd := ⟨a.epoll, .init⟩ } n := by
  obtain ⟨_, _, _, hinit⟩ := tcpInit_io hm hi
  simp only [TcpSrv.history, TcpSrv.apply, hinit, bind, Except.bind, reduceCtorEq, if_false, Except.ok.injEq,
    Prod.mk.injEq] at h
  obtain ⟨rfl, _⟩ := h
  exact ⟨rfl, rfl, rfl, hm⟩

/-- C60, exactly: the read callbacks before the leave callback deliver the bytes the peer had sent by the
last wait before it closed, all of them and in order; what was sent after that wait is never delivered. -/
theorem C60_delivered_partial (s0 s : TcpSrv) (a : InitAns) (n : Nat) (tr : List NetEv) (hm : s0.mode = .io)
    (hi : (tcpInit s0 a).2.1 = kSuccess) (h : s0.history [.init a, .register n] = .ok (s, tr))
    (fd : Int) (hfd : fd ≠ a.socket) (pre post : List Peer) (hpre : .shut ∉ pre) (hpost : .wait ∈ post) :
    ∃ seen, play s fd [] false (pre ++ .shut :: post) = .ok (seen ++ [.leave]) ∧ .leave ∉ seen ∧
      delivered seen = sent (upToLastWait pre) := by
  obtain ⟨seen, h1, h2, h3⟩ := play_story (started_ready hm hi h) rfl hfd pre post hpre hpost []
  refine ⟨seen, h1, h2, ?_⟩
  rw [h3]
  by_cases hp : Peer.wait ∈ pre
  · rw [if_pos hp]; simp
  · rw [if_neg hp]
    have : upToLastWait pre = [] := by
      unfold upToLastWait
      rw [List.reverse_eq_nil_iff, dropWhile_nil]
      intro y hy
      simp only [List.mem_reverse] at hy
      simp only [decide_eq_true_eq]
      rintro rfl
      exact hp hy
    rw [this]; rfl

/-- In particular: if the server waits between the last data and the close, everything is delivered. -/
theorem C60_all_partial (s0 s : TcpSrv) (a : InitAns) (n : Nat) (tr : List NetEv) (hm : s0.mode = .io)
    (hi : (tcpInit s0 a).2.1 = kSuccess) (h : s0.history [.init a, .register n] = .ok (s, tr))
    (fd : Int) (hfd : fd ≠ a.socket) (pre post : List Peer) (hpre : .shut ∉ pre) (hpost : .wait ∈ post) :
    ∃ seen, play s fd [] false (pre ++ [.wait] ++ .shut :: post) = .ok (seen ++ [.leave]) ∧ .leave ∉ seen ∧
      delivered seen = sent pre := by
  obtain ⟨seen, h1, h2, h3⟩ := C60_delivered_partial s0 s a n tr hm hi h fd hfd (pre ++ [.wait]) post
    (by simpa using hpre) hpost
  refine ⟨seen, h1, h2, ?_⟩
  rw [h3]
  have : upToLastWait (pre ++ [.wait]) = pre ++ [.wait] := by
    unfold upToLastWait
    simp
  rw [this]
  simp [sent]

/-- C60 is false: a peer that sends and closes before the server looks again is reported as gone; its data
is never offered. -/
theorem C60_lost_refuted (s0 s : TcpSrv) (a : InitAns) (n : Nat) (tr : List NetEv) (hm : s0.mode = .io)
    (hi : (tcpInit s0 a).2.1 = kSuccess) (h : s0.history [.init a, .register n] = .ok (s, tr))
    (fd : Int) (hfd : fd ≠ a.socket) (data : Str) :
    play s fd [] false [.send data, .shut, .wait] = .ok [.leave] :=
  play_shut (started_ready hm hi h) rfl hfd [.wait] (by simp) data

example : ((demoSrv .io).history [.init demoInit, .register 1]).map (fun r => play r.1 7 [] false
    [.send b!"ab", .wait, .send b!"c", .send b!"d", .wait, .wait, .send b!"e", .shut, .wait]) =
    .ok (.ok [.read b!"ab", .read b!"cd", .leave]) := by decide +kernel

end Cppnet
