import Verif.Spec.Tcp

/-!
# Invariants of the event loop
-/

namespace Cppnet
open Spec

/-! ### Bookkeeping -/

theorem kern_run_append (k : Kern) (a b : List NetEv) : k.run (a ++ b) = (k.run a).run b := by
  simp [Kern.run]

@[simp] theorem kern_run_nil (k : Kern) : k.run [] = k := rfl

@[simp] theorem kern_run_cons (k : Kern) (e : NetEv) (es : List NetEv) : k.run (e :: es) = (k.step e).run es := rfl

theorem throughout_append {P : Kern → NetEv → Prop} {k : Kern} {a b : List NetEv} :
    Throughout P k (a ++ b) ↔ Throughout P k a ∧ Throughout P (k.run a) b := by
  induction a generalizing k with
  | nil => simp [Throughout]
  | cons e a ih => simp [Throughout, ih, and_assoc]

theorem throughout_pre {P : Kern → NetEv → Prop} {k : Kern} {pre : List NetEv} {e : NetEv} {post : List NetEv}
    (h : Throughout P k (pre ++ e :: post)) : P (k.run pre) e := (throughout_append.1 h).2.1

theorem throughout_of {P : Kern → NetEv → Prop} {k : Kern} {tr : List NetEv}
    (h : ∀ pre e post, tr = pre ++ e :: post → P (k.run pre) e) : Throughout P k tr := by
  induction tr generalizing k with
  | nil => trivial
  | cons e tr ih =>
    refine ⟨h [] e tr rfl, ih fun pre e' post he => ?_⟩
    exact h (e :: pre) e' post (by simp [he])

/-- Following a callback: the pattern of `ClosedOnLeave`/`ClosedOnError` as a recursion. -/
def Follows (P : NetEv → List NetEv → Prop) : List NetEv → Prop
  | [] => True
  | e :: es => P e es ∧ Follows P es

theorem follows_pre {P : NetEv → List NetEv → Prop} {tr pre : List NetEv} {e : NetEv} {post : List NetEv}
    (h : Follows P tr) (he : tr = pre ++ e :: post) : P e post := by
  induction pre generalizing tr with
  | nil => subst he; exact h.1
  | cons x pre ih =>
    subst he
    exact ih h.2 rfl

/-- What follows a callback. -/
def afterCall (e : NetEv) (post : List NetEv) : Prop :=
  match e with
  | .call _ .leave fd => ∃ ep r post', post = .ctlDel ep fd r :: .close fd :: post'
  | .call _ .error fd =>
    0 ≤ fd → ∃ post', post = .close fd :: post' ∨ ∃ ep r, post = .ctlDel ep fd r :: .close fd :: post'
  | _ => True

theorem afterCall_append {e : NetEv} {post : List NetEv} (b : List NetEv) (h : afterCall e post) :
    afterCall e (post ++ b) := by
  unfold afterCall at h ⊢
  split at h
  · obtain ⟨ep, r, post', rfl⟩ := h
    exact ⟨ep, r, post' ++ b, by simp⟩
  · intro h0
    obtain ⟨post', rfl | ⟨ep, r, rfl⟩⟩ := h h0
    · exact ⟨post' ++ b, Or.inl (by simp)⟩
    · exact ⟨post' ++ b, Or.inr ⟨ep, r, by simp⟩⟩
  · trivial

theorem follows_append {a b : List NetEv} (ha : Follows afterCall a) (hb : Follows afterCall b) :
    Follows afterCall (a ++ b) := by
  induction a with
  | nil => exact hb
  | cons e a ih => exact ⟨afterCall_append b ha.1, ih ha.2⟩

/-! ### The event loop -/

/-- The server is set up: listening on `l`, watching with `ep`, callback `n`. -/
structure Ready (s : TcpSrv) (l : Int) (ep : Ep) (n : Nat) : Prop where
  listen : s.listen = ⟨l, .init⟩
  io : s.io = some ep
  cb : s.cb = .user n
  mode : s.mode = .io

/-- Open are: the descriptors of the rest of the process (`k0`), epoll, and the watched ones. -/
structure FdInv (k0 : Kern) (k : Kern) (l ep : Int) : Prop where
  listen : k.mon l = true
  epoll : k.mon ep = false
  opn : ∀ fd, k.opn fd = true ↔ k0.opn fd = true ∨ fd = ep ∨ k.mon fd = true
  own : ∀ fd, k.mon fd = true → k0.opn fd = false
  ownEp : k0.opn ep = false

/-- The bookkeeping when the server waits. -/
def AtWait (k0 : Kern) (k : Kern) (e : NetEv) : Prop :=
  ∀ ep ready, e = .wait ep ready → ∀ fd, k.opn fd = true ↔ k0.opn fd = true ∨ fd = ep ∨ k.mon fd = true

/-- What a piece of the loop guarantees. -/
structure Piece (k0 k : Kern) (l ep : Int) (t : List NetEv) : Prop where
  inv : FdInv k0 (k.run t) l ep
  closes : ClosesOnlyOpen k t
  follows : Follows afterCall t
  waits : Throughout (AtWait k0) k t

theorem polite_call {s : TcpSrv} {l : Int} {ep : Ep} {n : Nat} (hr : Ready s l ep n) {acts} (hp : Polite acts)
    (ev : SrvEvent) (fd : Int) :
    callCb s ev fd (acts ev fd) = .ok (s, [.call (.user n) ev fd]) ∨
    ((ev = .accept ∨ ev = .read) ∧ ∃ r, callCb s ev fd (acts ev fd) =
      .ok (s, [.call (.user n) ev fd, .ctlDel ep.fd.fd fd r, .close fd])) := by
  rcases hp ev fd with h | ⟨h, r, h'⟩
  · left
    simp only [callCb, hr.cb, h, cbActs]
    rfl
  · right
    refine ⟨h, r, ?_⟩
    simp only [callCb, hr.cb, h', cbActs, cbAct, tcpRemove, hr.io, epRemove]
    rfl

theorem closes_nil (k : Kern) : ClosesOnlyOpen k [] := trivial

theorem fdInv_drop {k0 k : Kern} {l ep fd : Int} (h : FdInv k0 k l ep) (hl : fd ≠ l) (he : fd ≠ ep)
    (h0 : k0.opn fd = false) :
    FdInv k0 ⟨fun i => i != fd && k.opn i, fun i => i != fd && k.mon i⟩ l ep := by
  refine ⟨?_, ?_, ?_, ?_, h.ownEp⟩
  · simp [h.listen, Ne.symm hl]
  · simp [h.epoll]
  · intro i
    simp only [Bool.and_eq_true, bne_iff_ne, ne_eq, h.opn]
    constructor
    · rintro ⟨h1, h2 | h2 | h2⟩
      · exact Or.inl h2
      · exact Or.inr (Or.inl h2)
      · exact Or.inr (Or.inr ⟨h1, h2⟩)
    · rintro (h1 | h1 | h1)
      · refine ⟨?_, Or.inl h1⟩
        rintro rfl
        rw [h0] at h1; cases h1
      · refine ⟨?_, Or.inr (Or.inl h1)⟩
        rintro rfl
        exact he h1
      · exact ⟨h1.1, Or.inr (Or.inr h1.2)⟩
  · intro i hi
    simp only [Bool.and_eq_true] at hi
    exact h.own i hi.2

theorem fdInv_add {k0 k : Kern} {l ep fd : Int} (h : FdInv k0 k l ep) (he : fd ≠ ep) (h0 : k0.opn fd = false) :
    FdInv k0 ⟨fun i => i == fd || k.opn i, fun i => i == fd || k.mon i⟩ l ep := by
  refine ⟨?_, ?_, ?_, ?_, h.ownEp⟩
  · simp [h.listen]
  · simp [h.epoll, Ne.symm he]
  · intro i
    simp only [Bool.or_eq_true, beq_iff_eq, h.opn]
    constructor
    · rintro (h1 | h1 | h1 | h1)
      · exact Or.inr (Or.inr (Or.inl h1))
      · exact Or.inl h1
      · exact Or.inr (Or.inl h1)
      · exact Or.inr (Or.inr (Or.inr h1))
    · rintro (h1 | h1 | h1 | h1)
      · exact Or.inr (Or.inl h1)
      · exact Or.inr (Or.inr (Or.inl h1))
      · exact Or.inl h1
      · exact Or.inr (Or.inr (Or.inr h1))
  · intro i hi
    simp only [Bool.or_eq_true, beq_iff_eq] at hi
    rcases hi with rfl | hi
    · exact h0
    · exact h.own i hi

theorem run_drop (k : Kern) (e fd r : Int) :
    k.run [.ctlDel e fd r, .close fd] = ⟨fun i => i != fd && k.opn i, fun i => i != fd && k.mon i⟩ := by
  simp only [kern_run_cons, kern_run_nil, Kern.step, Kern.mk.injEq, true_and]
  funext i
  cases (i != fd) <;> simp

theorem run_call (k : Kern) (c : Cb) (ev : SrvEvent) (fd : Int) (t : List NetEv) :
    k.run (.call c ev fd :: t) = k.run t := rfl

theorem run_added (k : Kern) {l e fd r : Int} (h : 0 ≤ fd) (hr : 0 ≤ r) :
    k.run [.accept l fd, .ctlAdd e fd r false] = ⟨fun i => i == fd || k.opn i, fun i => i == fd || k.mon i⟩ := by
  simp only [kern_run_cons, kern_run_nil, Kern.step]
  rw [if_neg (by omega), if_neg (by omega)]

theorem run_refused (k : Kern) {l e fd r : Int} (h : 0 ≤ fd) (hr : r < 0) (ho : k.opn fd = false)
    (hm : k.mon fd = false) :
    k.run [.accept l fd, .ctlAdd e fd r false, .close fd] = k := by
  simp only [kern_run_cons, kern_run_nil, Kern.step]
  rw [if_neg (by omega : ¬ fd < 0), if_pos hr]
  cases k with
  | mk o m =>
    simp only [Kern.mk.injEq]
    constructor
    · funext i
      by_cases hi : i = fd
      · subst hi; simpa using ho.symm
      · have : (i != fd) = true := by simpa using hi
        have h2 : (i == fd) = false := by simpa using hi
        rw [this, h2]; rfl
    · funext i
      by_cases hi : i = fd
      · subst hi; simpa using hm.symm
      · have : (i != fd) = true := by simpa using hi
        rw [this]; rfl

theorem closed_open {k0 k : Kern} {l ep fd : Int} (h : FdInv k0 k l ep) (ho : k.opn fd = false) :
    k.mon fd = false ∧ k0.opn fd = false ∧ fd ≠ ep := by
  have := h.opn fd
  rw [ho] at this
  simp only [Bool.false_eq_true, false_iff, not_or] at this
  exact ⟨by simpa using this.2.2, by simpa using this.1, this.2.1⟩

/-- One reported event. -/
theorem ioEvent_piece {s : TcpSrv} {l : Int} {ep : Ep} {n : Nat} (hr : Ready s l ep n) {k0 k : Kern}
    (hi : FdInv k0 k l ep.fd.fd) {fd : Int} (hm : k.mon fd = true) {ev : SrvEvent} {a : EvAns} (hp : Polite a.acts)
    (hev : ev ≠ .accept) :
    ∃ t, ioEvent s fd ev a = .ok (s, t) ∧ (Possible k t → Piece k0 k l ep.fd.fd t ∧
      ∀ g, g ≠ fd → k.mon g = true → (k.run t).mon g = true) := by
  have hopn : k.opn fd = true := (hi.opn fd).2 (Or.inr (Or.inr hm))
  have h0 : k0.opn fd = false := hi.own fd hm
  have hne : fd ≠ ep.fd.fd := by rintro rfl; rw [hi.epoll] at hm; cases hm
  by_cases hl : fd = l
  · -- a connection to accept
    have hf : fd = s.listen.fd := by rw [hr.listen]; exact hl
    have hls : ¬ s.listen.status ≠ .init := by rw [hr.listen]; simp
    simp only [ioEvent, if_pos hf, handleAccept, if_neg hls]
    by_cases ha : a.accept < 0
    · rw [if_pos ha]
      rcases polite_call hr hp .error a.accept with h | ⟨h, _⟩
      · refine ⟨[.accept s.listen.fd a.accept, .call (.user n) .error a.accept], by rw [h]; rfl, fun _ => ⟨⟨?_, ?_, ?_, ?_⟩, ?_⟩⟩
        · simpa [Kern.step, ha] using hi
        · simp [ClosesOnlyOpen, Throughout]
        · refine ⟨trivial, fun h0 => ?_, trivial⟩
          omega
        · simp [Throughout, AtWait]
        · intro g _ hg
          simpa [Kern.step, ha] using hg
      · rcases h with h | h <;> cases h
    · rw [if_neg ha]
      have ha0 : 0 ≤ a.accept := by omega
      simp only [hr.io, epMonitor, epollTrigger, Bool.false_eq_true, if_false]
      by_cases hadd : a.add < 0
      · rw [if_pos hadd]
        rcases polite_call hr hp .error a.accept with h | ⟨h, _⟩
        · refine ⟨[.accept s.listen.fd a.accept, .ctlAdd ep.fd.fd a.accept a.add false, .call (.user n) .error a.accept,
            .close a.accept], by rw [h]; rfl, fun hpos => ?_⟩
          have hopn' : k.opn a.accept = false := hpos.1 ha0
          obtain ⟨c1, c2, c3⟩ := closed_open hi hopn'
          have hrun : k.run [.accept s.listen.fd a.accept, .ctlAdd ep.fd.fd a.accept a.add false,
              .call (.user n) .error a.accept, .close a.accept] = k := run_refused (e := ep.fd.fd) k ha0 hadd hopn' c1
          refine ⟨⟨by rw [hrun]; exact hi, ?_, ?_, by simp [Throughout, AtWait]⟩, fun g _ hg => by rw [hrun]; exact hg⟩
          · simp [ClosesOnlyOpen, Throughout, Kern.step, hadd, ha]
          · exact ⟨trivial, trivial, fun _ => ⟨[], Or.inl rfl⟩, trivial, trivial⟩
        · rcases h with h | h <;> cases h
      · rw [if_neg hadd]
        have hadd0 : 0 ≤ a.add := by omega
        rcases polite_call hr hp .accept a.accept with h | ⟨_, r, h⟩
        · refine ⟨[.accept s.listen.fd a.accept, .ctlAdd ep.fd.fd a.accept a.add false, .call (.user n) .accept a.accept],
            by rw [h]; rfl, fun hpos => ?_⟩
          have hopn' : k.opn a.accept = false := hpos.1 ha0
          obtain ⟨c1, c2, c3⟩ := closed_open hi hopn'
          have hrun : k.run [.accept s.listen.fd a.accept, .ctlAdd ep.fd.fd a.accept a.add false,
              .call (.user n) .accept a.accept] =
              ⟨fun i => i == a.accept || k.opn i, fun i => i == a.accept || k.mon i⟩ := run_added (e := ep.fd.fd) k ha0 hadd0
          refine ⟨⟨by rw [hrun]; exact fdInv_add hi c3 c2, ?_, ⟨trivial, trivial, trivial, trivial⟩, by simp [Throughout, AtWait]⟩, fun g _ hg => ?_⟩
          · simp [ClosesOnlyOpen, Throughout]
          · rw [hrun]; simp [hg]
        · refine ⟨[.accept s.listen.fd a.accept, .ctlAdd ep.fd.fd a.accept a.add false, .call (.user n) .accept a.accept,
            .ctlDel ep.fd.fd a.accept r, .close a.accept], by rw [h]; rfl, fun hpos => ?_⟩
          have hopn' : k.opn a.accept = false := hpos.1 ha0
          obtain ⟨c1, c2, c3⟩ := closed_open hi hopn'
          have hnl : a.accept ≠ l := by
            intro e; rw [e, hi.listen] at c1; cases c1
          have hrun : k.run [.accept s.listen.fd a.accept, .ctlAdd ep.fd.fd a.accept a.add false,
              .call (.user n) .accept a.accept, .ctlDel ep.fd.fd a.accept r, .close a.accept] =
              (k.run [.accept s.listen.fd a.accept, .ctlAdd ep.fd.fd a.accept a.add false]).run
                [.ctlDel ep.fd.fd a.accept r, .close a.accept] := rfl
          rw [run_added k ha0 hadd0, run_drop] at hrun
          refine ⟨⟨by rw [hrun]; exact fdInv_drop (fdInv_add hi c3 c2) hnl c3 c2, ?_,
            ⟨trivial, trivial, trivial, trivial, trivial, trivial⟩, by simp [Throughout, AtWait]⟩, fun g _ hg => ?_⟩
          · simp [ClosesOnlyOpen, Throughout, Kern.step, ha, hadd]
          · rw [hrun]
            have : g ≠ a.accept := by
              rintro rfl; rw [hg] at c1; cases c1
            simp [hg, this]
  · have hf : ¬ fd = s.listen.fd := by rw [hr.listen]; exact hl
    have hdrop : FdInv k0 ⟨fun i => i != fd && k.opn i, fun i => i != fd && k.mon i⟩ l ep.fd.fd :=
      fdInv_drop hi hl hne h0
    have gone : ∀ ev', (ev' = .leave ∨ ev' = .error) → ∃ t, handleGone s ev' fd a = .ok (s, t) ∧
        (Possible k t → Piece k0 k l ep.fd.fd t ∧ ∀ g, g ≠ fd → k.mon g = true → (k.run t).mon g = true) := by
      intro ev' hev'
      rcases polite_call hr hp ev' fd with h | ⟨h, _⟩
      · refine ⟨[.call (.user n) ev' fd, .ctlDel ep.fd.fd fd a.del, .close fd], ?_, fun _ => ?_⟩
        · simp only [handleGone, h, bind, Except.bind, tcpRemove, hr.io, epRemove]
          rfl
        · have hrun := run_drop k ep.fd.fd fd a.del
          refine ⟨⟨by rw [run_call, hrun]; exact hdrop, ?_, ?_, by simp [Throughout, AtWait]⟩, fun g hg hg' => ?_⟩
          · simp [ClosesOnlyOpen, Throughout, Kern.step, hopn]
          · refine ⟨?_, trivial, trivial, trivial⟩
            rcases hev' with rfl | rfl
            · exact ⟨_, _, [], rfl⟩
            · exact fun _ => ⟨[], Or.inr ⟨_, _, rfl⟩⟩
          · rw [run_call, hrun]
            simp [hg, hg']
      · rcases hev' with rfl | rfl <;> rcases h with h | h <;> cases h
    simp only [ioEvent, if_neg hf]
    cases ev with
    | accept => exact absurd rfl hev
    | leave => exact gone .leave (Or.inl rfl)
    | error => exact gone .error (Or.inr rfl)
    | read =>
      have hmode : ¬ s.mode = .mixed := by rw [hr.mode]; simp
      simp only [if_neg hmode, handleReadEv]
      rcases polite_call hr hp .read fd with h | ⟨_, r, h⟩
      · refine ⟨_, h, fun _ => ⟨⟨by simpa [Kern.step] using hi, ?_, ⟨trivial, trivial⟩, by simp [Throughout, AtWait]⟩, fun g _ hg => hg⟩⟩
        simp [ClosesOnlyOpen, Throughout]
      · refine ⟨_, h, fun _ => ?_⟩
        have hrun := run_drop k ep.fd.fd fd r
        refine ⟨⟨by rw [run_call, hrun]; exact hdrop, ?_, ⟨trivial, trivial, trivial, trivial⟩, by simp [Throughout, AtWait]⟩, fun g hg hg' => ?_⟩
        · simp [ClosesOnlyOpen, Throughout, Kern.step, hopn]
        · rw [run_call, hrun]
          simp [hg, hg']

theorem polite_total {s : TcpSrv} {l : Int} {ep : Ep} {n : Nat} (hr : Ready s l ep n) {acts} (hp : Polite acts)
    (ev : SrvEvent) (fd : Int) : ∃ t, callCb s ev fd (acts ev fd) = .ok (s, t) := by
  rcases polite_call hr hp ev fd with h | ⟨_, r, h⟩ <;> exact ⟨_, h⟩

theorem ioEvent_total {s : TcpSrv} {l : Int} {ep : Ep} {n : Nat} (hr : Ready s l ep n) {a : EvAns} (hp : Polite a.acts)
    (fd : Int) (ev : SrvEvent) : ∃ t, ioEvent s fd ev a = .ok (s, t) := by
  have gone : ∀ ev', ∃ t, handleGone s ev' fd a = .ok (s, t) := by
    intro ev'
    obtain ⟨t, h⟩ := polite_total hr hp ev' fd
    simp only [handleGone, h, bind, Except.bind]
    exact ⟨_, rfl⟩
  unfold ioEvent
  by_cases hf : fd = s.listen.fd
  · rw [if_pos hf]
    unfold handleAccept
    by_cases hs : s.listen.status ≠ .init
    · rw [if_pos hs]; exact polite_total hr hp _ _
    · rw [if_neg hs]
      by_cases ha : a.accept < 0
      · obtain ⟨t, h⟩ := polite_total hr hp .error a.accept
        rw [if_pos ha, h]; exact ⟨_, rfl⟩
      · rw [if_neg ha]
        simp only [hr.io, epMonitor, epollTrigger, Bool.false_eq_true, if_false]
        by_cases hadd : a.add < 0
        · obtain ⟨t, h⟩ := polite_total hr hp .error a.accept
          rw [if_pos hadd, h]; exact ⟨_, rfl⟩
        · obtain ⟨t, h⟩ := polite_total hr hp .accept a.accept
          rw [if_neg hadd, h]; exact ⟨_, rfl⟩
  · rw [if_neg hf]
    cases ev with
    | accept => exact ⟨_, rfl⟩
    | leave => exact gone _
    | error => exact gone _
    | read =>
      have hmode : ¬ s.mode = .mixed := by rw [hr.mode]; simp
      simp only [if_neg hmode]
      exact polite_total hr hp _ _

theorem ioBatch_total {s : TcpSrv} {l : Int} {ep : Ep} {n : Nat} (hr : Ready s l ep n)
    (evs : List (Int × EpBits × EvAns)) (hp : ∀ x ∈ evs, Polite x.2.2.acts) : ∃ t, ioBatch s evs = .ok (s, t) := by
  induction evs with
  | nil => exact ⟨_, rfl⟩
  | cons x evs ih =>
    obtain ⟨fd, b, a⟩ := x
    obtain ⟨t2, h2⟩ := ih (fun x hx => hp x (by simp [hx]))
    simp only [ioBatch]
    cases epEvent b with
    | none => exact ⟨t2, h2⟩
    | some ev =>
      obtain ⟨t1, h1⟩ := ioEvent_total hr (hp (fd, b, a) (by simp)) fd ev
      simp only [h1, h2, bind, Except.bind]
      exact ⟨_, rfl⟩

/-- One batch of reported events. -/
theorem ioBatch_piece {s : TcpSrv} {l : Int} {ep : Ep} {n : Nat} (hr : Ready s l ep n) {k0 : Kern}
    (evs : List (Int × EpBits × EvAns)) : ∀ {k : Kern}, FdInv k0 k l ep.fd.fd → (evs.map (·.1)).Nodup →
    (∀ x ∈ evs, k.mon x.1 = true) → (∀ x ∈ evs, Polite x.2.2.acts) →
    ∃ t, ioBatch s evs = .ok (s, t) ∧ (Possible k t → Piece k0 k l ep.fd.fd t) := by
  induction evs with
  | nil => exact fun hi _ _ _ => ⟨[], rfl, fun _ => ⟨hi, trivial, trivial, trivial⟩⟩
  | cons x evs ih =>
    obtain ⟨fd, b, a⟩ := x
    intro k hi hnd hm hp
    simp only [List.map_cons, List.nodup_cons] at hnd
    simp only [ioBatch]
    cases hev : epEvent b with
    | none => exact ih hi hnd.2 (fun x hx => hm x (by simp [hx])) (fun x hx => hp x (by simp [hx]))
    | some ev =>
      have hne : ev ≠ .accept := by
        rintro rfl
        unfold epEvent at hev
        split at hev
        · cases hev
        · split at hev
          · cases hev
          · split at hev <;> cases hev
      obtain ⟨t1, h1, h2⟩ := ioEvent_piece (fd := fd) (a := a) hr hi (hm (fd, b, a) (by simp)) (hp (fd, b, a) (by simp)) hne
      by_cases hpos : Possible k t1
      · obtain ⟨p1, p2⟩ := h2 hpos
        obtain ⟨t2, h3, h4⟩ := ih p1.inv hnd.2
          (fun x hx => p2 x.1 (fun e => hnd.1 (List.mem_map.2 ⟨x, hx, e⟩)) (hm x (by simp [hx])))
          (fun x hx => hp x (by simp [hx]))
        refine ⟨t1 ++ t2, by simp only [h1, h3, bind, Except.bind], fun hpos' => ?_⟩
        have hq := throughout_append.1 hpos'
        have p3 := h4 hq.2
        exact ⟨by rw [kern_run_append]; exact p3.inv, throughout_append.2 ⟨p1.closes, p3.closes⟩,
          follows_append p1.follows p3.follows, throughout_append.2 ⟨p1.waits, p3.waits⟩⟩
      · obtain ⟨t2, h3⟩ := ioBatch_total hr evs (fun x hx => hp x (by simp [hx]))
        refine ⟨t1 ++ t2, by simp only [h1, h3, bind, Except.bind], fun hpos' => ?_⟩
        exact absurd (throughout_append.1 hpos').1 hpos

/-- `Stop` only changes the loop flags. -/
theorem stopIf_ready {s : TcpSrv} {l : Int} {ep : Ep} {n : Nat} (hr : Ready s l ep n) (b : Bool) :
    ∃ s' ep', stopIf b s = .ok s' ∧ Ready s' l ep' n ∧ ep'.fd = ep.fd ∧ (b = true → ep'.loop = false) ∧
      (b = false → s' = s ∧ ep' = ep) := by
  cases b with
  | false => exact ⟨s, ep, rfl, hr, rfl, by simp, fun _ => ⟨rfl, rfl⟩⟩
  | true =>
    refine ⟨{ s with loop := false, io := some { ep with loop := false } }, { ep with loop := false }, ?_, ?_, rfl, ?_, ?_⟩
    · simp only [stopIf, if_true, tcpStop, hr.listen, hr.mode, hr.io]
      simp
    · exact ⟨hr.listen, rfl, hr.cb, hr.mode⟩
    · simp
    · simp

theorem loop_append {k0 k : Kern} {l ep : Int} {t1 t2 : List NetEv} (h1 : Piece k0 k l ep t1)
    (h2 : Piece k0 (k.run t1) l ep t2) : Piece k0 k l ep (t1 ++ t2) :=
  ⟨by rw [kern_run_append]; exact h2.inv, throughout_append.2 ⟨h1.closes, h2.closes⟩,
    follows_append h1.follows h2.follows, throughout_append.2 ⟨h1.waits, h2.waits⟩⟩

theorem piece_nil {k0 k : Kern} {l ep : Int} (h : FdInv k0 k l ep) : Piece k0 k l ep [] :=
  ⟨h, trivial, trivial, trivial⟩

/-- The whole loop. -/
theorem ioLoop_piece {l : Int} {n : Nat} {k0 : Kern} (rounds : List Round) :
    ∀ {s : TcpSrv} {ep : Ep} {k : Kern}, Ready s l ep n → FdInv k0 k l ep.fd.fd → PoliteRounds rounds →
    ∃ s' t o ep', ioLoop s rounds = .ok (s', t, o) ∧ Ready s' l ep' n ∧ ep'.fd = ep.fd ∧
      (Possible k t → Piece k0 k l ep.fd.fd t) := by
  induction rounds with
  | nil =>
    intro s ep k hr hi _
    exact ⟨s, [], _, ep, by simp only [ioLoop, hr.io]; rfl, hr, rfl, fun _ => piece_nil hi⟩
  | cons r rs ih =>
    intro s ep k hr hi hp
    have hp' : PoliteRounds rs := fun r' h' => hp r' (by simp [h'])
    simp only [ioLoop, hr.io]
    by_cases hl : ep.loop = true
    · rw [if_pos hl]
      obtain ⟨s1, ep1, e1, r1, f1, _, _⟩ := stopIf_ready hr r.stopped
      cases hres : r.res with
      | never =>
        simp only [e1, bind, Except.bind]
        exact ⟨_, _, _, ep1, rfl, r1, f1, fun _ => piece_nil hi⟩
      | fail => exact ⟨_, _, _, ep, rfl, hr, rfl, fun _ => ⟨by simpa [Kern.step] using hi, by simp [ClosesOnlyOpen, Throughout],
          ⟨trivial, trivial⟩, by simp [Throughout, AtWait]⟩⟩
      | intr =>
        obtain ⟨s2, t, o, ep2, e2, r2, f2, p2⟩ := ih (k := k) r1 (by rw [f1]; exact hi) hp'
        simp only [e1, e2, bind, Except.bind]
        refine ⟨_, _, _, ep2, rfl, r2, by rw [f2, f1], fun hpos => ?_⟩
        have p := p2 hpos.2
        rw [f1] at p
        exact ⟨p.inv, ⟨by simp, p.closes⟩, ⟨trivial, p.follows⟩, ⟨by simp [AtWait], p.waits⟩⟩
      | events evs =>
        by_cases hpos1 : (evs.map (·.1)).Nodup ∧ ∀ x ∈ evs, k.mon x.1 = true
        · obtain ⟨t1, b1, b2⟩ := ioBatch_piece hr evs hi hpos1.1 hpos1.2 (hp r (by simp) evs hres)
          by_cases hpos2 : Possible k t1
          · have p1 := b2 hpos2
            obtain ⟨s2, t, o, ep2, e2, r2, f2, p2⟩ := ih (k := k.run t1) r1 (by rw [f1]; exact p1.inv) hp'
            simp only [b1, e1, e2, bind, Except.bind]
            refine ⟨_, _, _, ep2, rfl, r2, by rw [f2, f1], fun hpos => ?_⟩
            have hq := (throughout_append (a := .wait ep.fd.fd _ :: t1)).1 hpos
            have p3 := p2 hq.2
            rw [f1] at p3
            refine loop_append (t1 := .wait ep.fd.fd _ :: t1)
              ⟨p1.inv, ⟨by simp, p1.closes⟩, ⟨trivial, p1.follows⟩, ⟨?_, p1.waits⟩⟩ p3
            intro ep' ready he
            cases he
            exact hi.opn
          · obtain ⟨s2, t, o, ep2, e2, r2, f2, p2⟩ := ih (k := k) r1 (by rw [f1]; exact hi) hp'
            simp only [b1, e1, e2, bind, Except.bind]
            refine ⟨_, _, _, ep2, rfl, r2, by rw [f2, f1], fun hpos => absurd ?_ hpos2⟩
            exact ((throughout_append (a := t1)).1 hpos.2).1
        · obtain ⟨t1, b1⟩ := ioBatch_total hr evs (hp r (by simp) evs hres)
          obtain ⟨s2, t, o, ep2, e2, r2, f2, p2⟩ := ih (k := k) r1 (by rw [f1]; exact hi) hp'
          simp only [b1, e1, e2, bind, Except.bind]
          refine ⟨_, _, _, ep2, rfl, r2, by rw [f2, f1], fun hpos => absurd ?_ hpos1⟩
          have := hpos.1
          simp only [Kern.allows, List.map_map] at this
          refine ⟨this.1, fun x hx => ?_⟩
          have := this.2 (x.1, x.2.1) (List.mem_map.2 ⟨x, hx, rfl⟩)
          exact this
    · rw [if_neg hl]
      exact ⟨_, _, _, ep, rfl, hr, rfl, fun _ => piece_nil hi⟩

theorem ioLoop_total {l : Int} {n : Nat} (rounds : List Round) :
    ∀ {s : TcpSrv} {ep : Ep}, Ready s l ep n → PoliteRounds rounds → ∃ s' t o, ioLoop s rounds = .ok (s', t, o) := by
  induction rounds with
  | nil =>
    intro s ep hr _
    exact ⟨s, [], _, by simp only [ioLoop, hr.io]; rfl⟩
  | cons r rs ih =>
    intro s ep hr hp
    have hp' : PoliteRounds rs := fun r' h' => hp r' (by simp [h'])
    simp only [ioLoop, hr.io]
    by_cases hl : ep.loop = true
    · rw [if_pos hl]
      obtain ⟨s1, ep1, e1, r1, _⟩ := stopIf_ready hr r.stopped
      obtain ⟨s2, t, o, e2⟩ := ih r1 hp'
      cases hres : r.res with
      | never => simp only [e1, bind, Except.bind]; exact ⟨_, _, _, rfl⟩
      | fail => exact ⟨_, _, _, rfl⟩
      | intr => simp only [e1, e2, bind, Except.bind]; exact ⟨_, _, _, rfl⟩
      | events evs =>
        obtain ⟨t1, b1⟩ := ioBatch_total hr evs (hp r (by simp) evs hres)
        simp only [b1, e1, e2, bind, Except.bind]
        exact ⟨_, _, _, rfl⟩
    · rw [if_neg hl]
      exact ⟨_, _, _, rfl⟩

end Cppnet
