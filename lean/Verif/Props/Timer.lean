import Verif.Proofs.TimerCount

/-!
# C118–C121: timers and datagrams
-/

namespace Cppnet
open Spec

/-- The object is open and its timer fires from `t0` every `p`; everything up to `last` has been read. -/
def Ticking (t0 p last : Nat) (o : TimerObj) : Prop :=
  o.sock.status = .init ∧ t0 ≤ last ∧ o.tm = some { base := t0, period := p, seen := (last - t0) / p }

theorem reads_reported (t0 p : Nat) (hp : 0 < p) : ∀ (rs : List (Nat × Nat)) (last : Nat) (o : TimerObj),
    Ticking t0 p last o → (∀ r ∈ rs, 8 ≤ r.2) → Reported t0 p last (timerReads o last rs) := by
  intro rs
  induction rs with
  | nil => intro last o _ _; exact .nil last
  | cons r rs ih =>
    obtain ⟨w, len⟩ := r
    intro last o ⟨hs, hl, ht⟩ hr
    have h8 : ¬ len < 8 := by have := hr (w, len) (by simp); simp only at this; omega
    have hr' : ∀ r ∈ rs, 8 ≤ r.2 := fun r h => hr r (List.mem_cons_of_mem _ h)
    have hp0 : p ≠ 0 := by omega
    have mono := Nat.div_le_div_right (c := p) (show last - t0 ≤ last + w - t0 by omega)
    rcases Nat.lt_or_ge ((last - t0) / p) ((last + w - t0) / p) with c | c
    · have q : o.read (last + w) len = ({ o with tm := some { base := t0, period := p, seen := (last + w - t0) / p } },
          .got ((last + w - t0) / p - (last - t0) / p) (last + w), [.read o.sock.fd]) := by
        unfold TimerObj.read
        rw [if_neg (by simp [hs]), ht]
        simp only [KTimer.read, h8, KTimer.expired, hp0, if_false, c, if_true]
      unfold timerReads
      rw [q]
      refine .atOnce last (last + w) _ _ (by omega) (by omega) ?_ (ih _ _ ⟨hs, by omega, rfl⟩ hr')
      rw [firings_eq t0 p last hp hl _ (by omega)]
    · have e : (last + w - t0) / p = (last - t0) / p := by omega
      generalize hn : (last - t0) / p = n at *
      have hlt : last + w - t0 < (n + 1) * p := by
        have := Nat.lt_mul_div_succ (last + w - t0) hp
        rw [e] at this
        rw [Nat.mul_comm]
        exact this
      have q : o.read (last + w) len = ({ o with tm := some { base := t0, period := p, seen := n + 1 } },
          .got 1 (t0 + (n + 1) * p), [.read o.sock.fd]) := by
        unfold TimerObj.read
        rw [if_neg (by simp [hs]), ht]
        have c' : ¬ n < n := by omega
        simp only [KTimer.read, h8, KTimer.expired, hp0, if_false, e, c']
      unfold timerReads
      rw [q]
      have d1 : (t0 + (n + 1) * p - t0) / p = n + 1 := by
        rw [Nat.add_sub_cancel_left, Nat.mul_div_cancel _ hp]
      have d2 : (t0 + (n + 1) * p - 1 - t0) / p = n := by
        have : t0 + (n + 1) * p - 1 - t0 = (p - 1) + p * n := by rw [Nat.add_mul, Nat.mul_comm n p]; omega
        rw [this, Nat.add_mul_div_left _ _ hp, Nat.div_eq_of_lt (by omega), Nat.zero_add]
      refine .waits last (last + w) _ _ (by omega) (by omega) ?_ ?_ (ih _ _ ⟨hs, by omega, by simp only [d1]⟩ hr')
      · rw [firings_eq t0 p last hp hl _ (by omega), d2, hn, Nat.sub_self]
      · rw [firings_eq t0 p last hp hl _ (by omega), d1, hn]; omega

/-! ### C118 -/

/-- **C118**, what holds: after `Init` with a well formed period and a positive descriptor, the reads of the timer (of 8
bytes or more, starting at any times) report exactly the firings every `sec * 10^9 + nsec` nanoseconds since `Init`.
Missing: other periods, see the refutation. -/
theorem C118_firings_partial (o : TimerObj) (now : Nat) (res sec nsec : Int) (hres : 0 < res)
    (hw : WellFormedPeriod sec nsec) (rs : List (Nat × Nat)) (h8 : ∀ r ∈ rs, 8 ≤ r.2) :
    (o.init now res sec nsec).2.1 = kSuccess ∧
    Reported now (nanos sec nsec).toNat now (timerReads (o.init now res sec nsec).1 now rs) := by
  obtain ⟨h1, h2, h3, h4⟩ := hw
  have a1 : ¬ (sec < 0 ∨ nsec < 0 ∨ 1000000000 ≤ nsec) := by omega
  have a2 : ¬ res ≤ 0 := by omega
  have a3 : ¬ res < 0 := by omega
  have q : o.init now res sec nsec = (⟨{ fd := res, status := .init },
      some { base := now, period := (nanos sec nsec).toNat, seen := 0 }⟩, kSuccess,
      [.create res, .settime res]) := by
    simp only [TimerObj.init, TimerObj.reset, a2, a3, if_false, Option.map_some, KTimer.set, a1, nanos]
  rw [q]
  refine ⟨rfl, reads_reported now _ (by unfold nanos; omega) rs now _ ⟨rfl, Nat.le_refl _, ?_⟩ h8⟩
  simp

/-- **C118**, what holds: `Reset` of an open timer starts it afresh: the firings reported are those of the new period
since `Reset`, and none of those before. -/
theorem C118_reset_partial (o : TimerObj) (hs : o.sock.status = .init) (k : KTimer) (hk : o.tm = some k) (now : Nat)
    (sec nsec : Int) (hw : WellFormedPeriod sec nsec) (rs : List (Nat × Nat)) (h8 : ∀ r ∈ rs, 8 ≤ r.2) :
    (o.reset now sec nsec).2.1 = kSuccess ∧
    Reported now (nanos sec nsec).toNat now (timerReads (o.reset now sec nsec).1 now rs) := by
  obtain ⟨h1, h2, h3, h4⟩ := hw
  have a1 : ¬ (sec < 0 ∨ nsec < 0 ∨ 1000000000 ≤ nsec) := by omega
  have q : o.reset now sec nsec = (⟨o.sock,
      some { base := now, period := (nanos sec nsec).toNat, seen := 0 }⟩, kSuccess, [.settime o.sock.fd]) := by
    simp only [TimerObj.reset, hk, Option.map_some, KTimer.set, a1, if_false, nanos]
  rw [q]
  refine ⟨rfl, reads_reported now _ (by unfold nanos; omega) rs now _ ⟨hs, Nat.le_refl _, ?_⟩ h8⟩
  simp

/-- A disarmed open timer. -/
def DeadTimer (o : TimerObj) : Prop := o.sock.status = .init ∧ ∃ k, o.tm = some k ∧ k.period = 0

theorem dead_reads (o : TimerObj) (h : DeadTimer o) (t len : Nat) (h8 : 8 ≤ len) :
    o.read t len = (o, .never, [.read o.sock.fd]) := by
  obtain ⟨hs, k, hk, hp⟩ := h
  have : ¬ len < 8 := by omega
  have e : ({ o with tm := some k } : TimerObj) = o := by cases o; simp_all
  unfold TimerObj.read
  rw [if_neg (by simp [hs]), hk]
  simp only [KTimer.read, this, KTimer.expired, hp, if_false, if_true, Nat.not_lt_zero, e]

/-- **C118**, the dark side: whenever the period is not well formed `Init` reports success all the same, and no read of
the timer ever returns. -/
theorem C118_silent_partial (o : TimerObj) (now : Nat) (res sec nsec : Int) (hres : 0 < res)
    (hw : ¬ WellFormedPeriod sec nsec) (t len : Nat) (h8 : 8 ≤ len) :
    (o.init now res sec nsec).2.1 = kSuccess ∧ ((o.init now res sec nsec).1.read t len).2.1 = .never := by
  have a2 : ¬ res ≤ 0 := by omega
  have a3 : ¬ res < 0 := by omega
  refine ⟨by simp only [TimerObj.init, TimerObj.reset, a2, if_false], ?_⟩
  rw [dead_reads _ _ t len h8]
  by_cases a1 : sec < 0 ∨ nsec < 0 ∨ 1000000000 ≤ nsec
  · refine ⟨by simp only [TimerObj.init, TimerObj.reset, a2, if_false], {}, ?_, rfl⟩
    simp only [TimerObj.init, TimerObj.reset, a2, a3, if_false, Option.map_some, KTimer.set, a1, if_true]
  · refine ⟨by simp only [TimerObj.init, TimerObj.reset, a2, if_false],
      { base := now, period := (nanos sec nsec).toNat, seen := 0 }, ?_, ?_⟩
    · simp only [TimerObj.init, TimerObj.reset, a2, a3, if_false, Option.map_some, KTimer.set, a1, nanos]
    · unfold WellFormedPeriod at hw
      simp only [nanos]
      omega

/-- **C118**, refuted as stated: `Init(0, 1000000000)` asks for one second, reports success, and the timer never fires. -/
theorem C118_period_refuted : ¬ ∀ (o : TimerObj) (now : Nat) (res sec nsec : Int) (len : Nat),
    0 < res → 0 ≤ sec → 0 ≤ nsec → 0 < nanos sec nsec → 8 ≤ len →
    (o.init now res sec nsec).2.1 = kSuccess →
    Reported now (nanos sec nsec).toNat now (timerReads (o.init now res sec nsec).1 now [(0, len)]) := by
  intro h
  have := h {} 0 7 0 1000000000 8 (by decide) (by decide) (by decide) (by decide) (by decide) (by decide)
  have e : timerReads (({} : TimerObj).init 0 7 0 1000000000).1 0 [(0, 8)] = [(0, .never)] := by decide +kernel
  rw [e] at this
  cases this

/-- A failing `Reset` of a running timer leaves the old period in force and reports success. -/
theorem C118_reset_ignored_partial (o : TimerObj) (now : Nat) (sec nsec : Int)
    (hbad : sec < 0 ∨ nsec < 0 ∨ 1000000000 ≤ nsec) :
    o.reset now sec nsec = (o, kSuccess, [.settime o.sock.fd]) := by
  cases o with
  | mk s tm =>
    cases tm with
    | none => rfl
    | some k => simp only [TimerObj.reset, Option.map_some, KTimer.set, hbad, if_true]

/-- The hypotheses are met: a period of 3 ns, first read late, second waiting. -/
example : WellFormedPeriod 0 3 ∧ timerReads (({} : TimerObj).init 100 7 0 3).1 100 [(10, 8), (0, 8), (1, 9)] =
    [(110, .got 3 110), (110, .got 1 112), (113, .got 1 115)] := ⟨by unfold WellFormedPeriod; decide, by decide +kernel⟩
example : firings 100 3 100 110 = 3 ∧ firings 100 3 110 112 = 1 := by decide +kernel
example : ¬ WellFormedPeriod (-1) 5 ∧ ¬ WellFormedPeriod 0 0 ∧ ¬ WellFormedPeriod 0 1000000000 := by
  unfold WellFormedPeriod; decide

/-! ### C119 -/

theorem le64_eq (n : Nat) : le64 n = [UInt8.ofNat n, UInt8.ofNat (n / 256), UInt8.ofNat (n / 65536),
    UInt8.ofNat (n / 16777216), UInt8.ofNat (n / 4294967296), UInt8.ofNat (n / 1099511627776),
    UInt8.ofNat (n / 281474976710656), UInt8.ofNat (n / 72057594037927936)] := by
  simp [le64, List.range_succ_eq_map]

/-- **C119**, what holds: the eight bytes a read leaves in the caller's buffer are the number of firings. -/
theorem C119_buffer_partial (n : Nat) (h : n < 2 ^ 64) : (le64 n).length = 8 ∧ numberOf (le64 n) = n := by
  rw [le64_eq]
  refine ⟨rfl, ?_⟩
  simp only [numberOf, UInt8.toNat_ofNat']
  omega

/-- **C119**, what holds: the string form of `Read` gives the number of firings when it is below 256. -/
theorem C119_string_partial (n : Nat) (h : n < 256) : numberOf (timerText n) = n := by
  have d : ∀ k, 256 ≤ k → n / k = 0 := fun k hk => Nat.div_eq_of_lt (by omega)
  unfold timerText
  rw [le64_eq]
  rw [d 256 (by omega), d 65536 (by omega), d 16777216 (by omega), d 4294967296 (by omega), d 1099511627776 (by omega),
    d 281474976710656 (by omega), d 72057594037927936 (by omega)]
  by_cases h0 : n = 0
  · subst h0; rfl
  · have : (UInt8.ofNat n != 0) = true := by
      simp only [bne_iff_ne, ne_eq]
      intro e
      have := congrArg UInt8.toNat e
      simp only [UInt8.toNat_ofNat'] at this
      have z : (0 : UInt8).toNat = 0 := rfl
      omega
    simp only [cString, List.cons_append, List.takeWhile_cons, this, if_true]
    have z : ((UInt8.ofNat 0 != 0) = true) = False := by decide
    simp only [z, if_false, numberOf, UInt8.toNat_ofNat']
    omega

/-- **C119**, refuted as stated: after 256 firings the string form of `Read` yields the empty string: all firings look
lost, and they are not reported again. -/
theorem C119_string_refuted : ¬ ∀ n, n < 2 ^ 64 → numberOf (timerText n) = n :=
  fun h => absurd (h 256 (by decide)) (by decide +kernel)

example : timerText 256 = [] ∧ timerText 3 = [3] := by decide +kernel

/-- **C119**, refuted as stated: `ReadPeek` takes the firings away. -/
theorem C119_peek_refuted : ¬ ∀ (o : TimerObj) (t len : Nat), (o.peek t len).1 = o := fun h =>
  absurd (h (({} : TimerObj).init 100 7 0 3).1 110 8) (by decide +kernel)

/-! ### C120 -/

/-- **C120**, what holds: `Init` succeeds exactly when the system gave a positive descriptor, and the object is open
then, with that descriptor. -/
theorem C120_init_partial (o : TimerObj) (now : Nat) (res sec nsec : Int) :
    ((o.init now res sec nsec).2.1 = kSuccess ↔ 0 < res) ∧
    (0 < res → (o.init now res sec nsec).1.sock = { fd := res, status := .init }) ∧
    (¬ 0 < res → (o.init now res sec nsec).2.1 = kSysErr ∧
      (o.init now res sec nsec).1.sock = { fd := res, status := o.sock.status }) := by
  by_cases a : res ≤ 0
  · have : ¬ 0 < res := by omega
    simp only [TimerObj.init, a, if_true, this, iff_false, false_imp_iff, not_false_eq_true, true_imp_iff, and_self,
      and_true, true_and]
    decide
  · have : 0 < res := by omega
    simp only [TimerObj.init, TimerObj.reset, a, if_false, this, not_true_eq_false, false_imp_iff, true_imp_iff,
      and_self, true_iff]

/-- **C120**, what holds: a timer object whose only `Init` failed makes no system call on reading. -/
theorem C120_failed_partial (now t len : Nat) (res sec nsec : Int) (h : ¬ 0 < res) :
    ((({} : TimerObj).init now res sec nsec).1.read t len).2 = (.failed, []) := by
  have a : res ≤ 0 := by omega
  simp only [TimerObj.init, a, if_true, TimerObj.read, ne_eq, reduceCtorEq, not_false_eq_true]

/-- **C120**, refuted as stated (the documentation: "return: timerfd, -1 if failed"): `Init` never returns the
descriptor. -/
theorem C120_descriptor_refuted : ¬ ∃ (o : TimerObj) (now : Nat) (res sec nsec : Int),
    0 < res ∧ (o.init now res sec nsec).2.1 = res := by
  rintro ⟨o, now, res, sec, nsec, h, e⟩
  have := ((C120_init_partial o now res sec nsec).1).mpr h
  rw [this] at e
  rw [← e] at h
  exact absurd h (by decide)

/-- **C120**, refuted as stated (the documentation of `Reset`: "-1 if failed"): `Reset` of an object that was never
initialised calls the system with descriptor -1 and reports success. -/
theorem C120_reset_refuted : ¬ ∀ (o : TimerObj) (now : Nat) (sec nsec : Int),
    o.sock.status ≠ .init → (o.reset now sec nsec).2.1 ≠ kSuccess := fun h =>
  h {} 0 1 0 (by decide) (by decide)

/-- **C120**, refuted as stated: a descriptor 0 is a success of the system and reported as a failure; the object is not
open and cannot be closed, so the descriptor stays open for good. -/
theorem C120_zero_refuted : ¬ ∀ (o : TimerObj) (now : Nat) (res sec nsec : Int),
    0 ≤ res → (o.init now res sec nsec).1.sock.status = .init := fun h =>
  absurd (h {} 0 0 1 0 (by decide)) (by decide)

/-- **C120**, refuted as stated: after a failed second `Init` the object still counts as open, and reading calls the
system with descriptor -1; the first descriptor is lost. -/
theorem C120_again_refuted : ¬ ∀ (o : TimerObj) (now : Nat) (res sec nsec : Int) (t len : Nat),
    (o.init now res sec nsec).2.1 ≠ kSuccess → ((o.init now res sec nsec).1.read t len).2.2 = [] := fun h =>
  absurd (h (({} : TimerObj).init 0 7 1 0).1 5 (-1) 1 0 6 8 (by decide)) (by decide)

/-- **C120**, on macOS and Windows: whatever is called on a new timer, in any order, every `Init` and `Reset` returns a negative
result, every read fails, and no system call is made. -/
theorem C120_elsewhere_partial (cs : List TimerCall) :
    (elsewhereCalls {} cs).1.length = cs.length ∧ (elsewhereCalls {} cs).2 = [] ∧
    ∀ r ∈ (elsewhereCalls {} cs).1, match r with
      | .inl rc => rc < 0
      | .inr x => x = .failed := by
  induction cs with
  | nil => exact ⟨rfl, rfl, fun r hr => by cases hr⟩
  | cons c cs ih =>
    obtain ⟨h1, h2, h3⟩ := ih
    have key : ∃ r, ({} : TimerObj).elsewhere c = ({}, r, []) ∧ match r with
        | .inl rc => rc < 0
        | .inr x => x = .failed := by
      cases c with
      | init a b => exact ⟨_, rfl, by decide⟩
      | reset a b => exact ⟨_, rfl, by decide⟩
      | read a b => exact ⟨_, rfl, rfl⟩
      | peek a b => exact ⟨_, rfl, rfl⟩
    obtain ⟨r, e, hr⟩ := key
    simp only [elsewhereCalls, e]
    refine ⟨by simp [h1], by simp [h2], fun x hx => ?_⟩
    rcases List.mem_cons.1 hx with rfl | hx
    · exact hr
    · exact h3 x hx

example : elsewhereCalls {} [.init 1 0, .read 5 8, .reset 2 0] = ([.inl (-3), .inr .failed, .inl (-3)], []) := by decide

/-! ### C121 -/

theorem writeUdps_eq {α : Type} : ∀ (ms : List (Str × α)) (q : List (Dgram α)), (∀ m ∈ ms, m.1.length ≤ maxUdp) →
    writeUdps ms q = (ms.map fun m => (m.1.length : Int), q ++ ms.map fun m => ⟨m.1, m.2⟩) := by
  intro ms
  induction ms with
  | nil => intro q _; simp [writeUdps]
  | cons m ms ih =>
    obtain ⟨d, a⟩ := m
    intro q h
    have hd : ¬ maxUdp < d.length := by have := h (d, a) (by simp); simp only at this; omega
    simp only [writeUdps, sockWriteUdp, hd, if_false]
    rw [ih _ (fun m hm => h m (List.mem_cons_of_mem _ hm))]
    simp

theorem cString_zeros (s : Str) (k : Nat) (h : 0 < k) : cString (s ++ List.replicate k 0) = cString s := by
  induction s with
  | nil =>
    cases k with
    | zero => omega
    | succ k => rfl
  | cons c s ih =>
    simp only [cString, List.cons_append, List.takeWhile_cons] at ih ⊢
    split
    · rw [ih]
    · rfl

theorem cString_id (s : Str) (h : 0 ∉ s) : cString s = s := by
  induction s with
  | nil => rfl
  | cons c s ih =>
    simp only [List.mem_cons, not_or] at h
    have : (c != 0) = true := by simp only [bne_iff_ne, ne_eq]; exact fun e => h.1 e.symm
    simp only [cString, List.takeWhile_cons, this, if_true, List.cons.injEq, true_and]
    exact ih h.2

theorem readUdps_eq {α : Type} (len : Nat) : ∀ (q more : List (Dgram α)),
    readUdps len q.length (q ++ more) =
      some (q.map fun d => (((min len d.data.length : Nat) : Int), cString (d.data.take len), d.from_)) := by
  intro q
  induction q with
  | nil => intro more; rfl
  | cons d q ih =>
    intro more
    simp only [List.length_cons, List.cons_append, readUdps, sockReadUdp, sockReadUdpRaw, recvfrom, ih, Option.map_some,
      List.map_cons]
    rw [cString_zeros _ _ (by have := List.length_take_le len d.data; omega), List.length_take]

/-- **C121**, what holds: the datagrams that any senders wrote are read one per call, in order, each with its sender,
whole and unchanged, when none is longer than the length asked for or the largest UDP payload and none contains a NUL. -/
theorem C121_round_trip_partial {α : Type} (ms : List (Str × α)) (len : Nat)
    (hm : ∀ m ∈ ms, m.1.length ≤ 65507 ∧ m.1.length ≤ len ∧ 0 ∉ m.1) :
    (writeUdps ms []).1 = ms.map (fun m => (m.1.length : Int)) ∧
    readUdps len ms.length (writeUdps ms []).2 = some (ms.map fun m => ((m.1.length : Int), m.1, m.2)) := by
  rw [writeUdps_eq ms [] (fun m h => (hm m h).1)]
  refine ⟨rfl, ?_⟩
  have := readUdps_eq len (ms.map fun m => (⟨m.1, m.2⟩ : Dgram α)) []
  rw [List.length_map, List.append_nil] at this
  simp only [List.nil_append]
  rw [this, List.map_map]
  congr 1
  refine List.map_congr_left fun m h => ?_
  obtain ⟨_, h2, h3⟩ := hm m h
  simp only [Function.comp, Nat.min_eq_right h2, List.take_of_length_le h2, cString_id _ h3]

/-- **C121**, what holds of every length: `WriteUdp` returns the length and one datagram is sent, or it returns -1 and none is, exactly
when it is longer than the largest UDP payload. -/
theorem C121_length_partial {α : Type} (ms : List (Str × α)) : ∀ q : List (Dgram α),
    (writeUdps ms q).1 = ms.map (fun m => if 65507 < m.1.length then (-1 : Int) else m.1.length) ∧
    (writeUdps ms q).2 = q ++ (ms.filter fun m => decide (m.1.length ≤ 65507)).map fun m => ⟨m.1, m.2⟩ := by
  induction ms with
  | nil => intro q; simp [writeUdps]
  | cons m ms ih =>
    obtain ⟨d, a⟩ := m
    intro q
    by_cases h : 65507 < d.length
    · have h' : ¬ d.length ≤ 65507 := by omega
      simp [writeUdps, sockWriteUdp, maxUdp, h, h', ih]
    · have h' : d.length ≤ 65507 := by omega
      simp [writeUdps, sockWriteUdp, maxUdp, h, h', ih]

example : (writeUdps [(List.replicate 65508 97, 1), (b!"two", 2)] []).1 = [-1, 3] := by
  rw [(C121_length_partial _ _).1, List.map_cons, List.length_replicate]
  rfl

/-- **C121**, what holds of every datagram: each call takes exactly one from the queue, reports its sender and as many
bytes as fit; the rest of it is lost and is not mixed with the next one. -/
theorem C121_one_per_call_partial {α : Type} (len : Nat) (d : Dgram α) (q : List (Dgram α)) :
    sockReadUdpRaw len (d :: q) = some (((min len d.data.length : Nat) : Int), d.data.take len, d.from_, q) ∧
    ∃ text, sockReadUdp len (d :: q) = some (((min len d.data.length : Nat) : Int), text, d.from_, q) ∧
      text <+: d.data := by
  have e : sockReadUdpRaw len (d :: q) = some (((min len d.data.length : Nat) : Int), d.data.take len, d.from_, q) := by
    simp only [sockReadUdpRaw, recvfrom, List.length_take]
  refine ⟨e, cString (d.data.take len), ?_, ?_⟩
  · unfold sockReadUdp
    rw [e]
    simp only
    rw [cString_zeros _ _ (by have := List.length_take_le len d.data; omega)]
  · exact (List.takeWhile_prefix _).trans (List.take_prefix _ _)

/-- **C121**, refuted as stated: `WriteUdp` sends a NUL byte and `ReadUdp` into a string drops it and what follows,
though it returns the full length. -/
theorem C121_round_trip_refuted : ¬ ∀ (data : Str) (len : Nat), data.length ≤ 65507 → data.length ≤ len →
    readUdps len 1 (writeUdps [(data, ())] []).2 = some [((data.length : Int), data, ())] := fun h =>
  absurd (h [97, 0, 98] 10 (by decide) (by decide)) (by decide +kernel)

example : readUdps 10 2 (writeUdps [(b!"one", 1), (b!"two", 2)] []).2 = some [(3, b!"one", 1), (3, b!"two", 2)] := by
  decide +kernel

end Cppnet
