import Verif.Spec.TimerWatch
import Verif.Proofs.TimerCount

/-!
# C179: a server tells of every firing of a timer that it watches, once
-/

namespace Cppnet
open Spec

theorem expired_mono (k : KTimer) {t t' : Nat} (h : t ≤ t') : k.expired t ≤ k.expired t' := by
  unfold KTimer.expired
  split
  · exact Nat.le_refl _
  · exact Nat.div_le_div_right (by omega)

/-- What holds between the rounds of callbacks that read. -/
structure WatchInv (base period : Nat) (t : Nat) (w : Watched) : Prop where
  kbase : w.k.base = base
  kperiod : w.k.period = period
  low : w.k.seen ≤ firedBy base period t
  told : w.told = false

theorem firedBy_eq {base period : Nat} (hp : 0 < period) (t : Nat) : firedBy base period t = (t - base) / period := by
  rcases Nat.lt_or_ge t base with h | h
  · rw [show t - base = 0 by omega, Nat.zero_div]
    simp only [firedBy, firings, List.length_eq_zero_iff, List.filter_eq_nil_iff, List.mem_range, decide_eq_true_eq]
    omega
  · rw [firedBy, firings_eq base period base hp (Nat.le_refl _) t h, Nat.sub_self, Nat.zero_div, Nat.sub_zero]

theorem expired_firings {base period t : Nat} {k : KTimer} (h1 : k.base = base) (h2 : k.period = period) (hp : 0 < period) :
    k.expired t = firedBy base period t := by
  unfold KTimer.expired
  rw [firedBy_eq hp, if_neg (by omega), h1, h2]

theorem round_inv {edge : Bool} {base period t r : Nat} {w : Watched} {x : TimerRound} (hp : 0 < period) (hi : WatchInv base period t w)
    (ht : t ≤ x.wait) (hr : x.read = some r) (hw : x.wait ≤ r) :
    WatchInv base period r (w.round edge x).1 ∧ firedBy base period x.wait ≤ (w.round edge x).1.k.seen ∧
    ((w.round edge x).2 = none ∧ (w.round edge x).1 = w ∧ w.k.seen = firedBy base period x.wait ∨
      ∃ n, 0 < n ∧ (w.round edge x).2 = some (some (.got n r)) ∧ (w.round edge x).1.k.seen = w.k.seen + n ∧
        (w.round edge x).1.k.seen = firedBy base period r) := by
  have he : ∀ t, w.k.expired t = firedBy base period t := fun t => expired_firings hi.kbase hi.kperiod hp
  have hmono : ∀ {a b : Nat}, a ≤ b → firedBy base period a ≤ firedBy base period b := fun {a b} h => by
    rw [firedBy_eq hp, firedBy_eq hp]
    exact Nat.div_le_div_right (by omega)
  have h1 := hmono ht
  have h2 := hmono hw
  have h3 := hi.low
  unfold Watched.round Watched.reports
  rw [hi.told, he]
  by_cases hc : w.k.seen < firedBy base period x.wait
  · simp only [hc, decide_true, Bool.and_false, Bool.not_false, Bool.and_true, if_true, hr]
    have hlt : w.k.seen < firedBy base period r := by omega
    simp only [KTimer.read, if_neg (show ¬ (8 < 8) by omega), he, if_pos hlt]
    refine ⟨⟨hi.kbase, hi.kperiod, Nat.le_refl _, rfl⟩, h2, .inr ⟨_, ?_, rfl, ?_, trivial⟩⟩ <;> omega
  · simp only [hc, decide_false, Bool.false_and, Bool.false_eq_true, if_false]
    refine ⟨⟨hi.kbase, hi.kperiod, by omega, hi.told⟩, by omega, .inl ⟨trivial, trivial, by omega⟩⟩

theorem rounds_inv {edge : Bool} {base period : Nat} (hp : 0 < period) : ∀ (xs : List TimerRound) (t : Nat) (w : Watched),
    WatchInv base period t w → Reading t xs →
    (w.rounds edge xs).1.k.seen = w.k.seen + toldFirings (w.rounds edge xs).2 ∧
    (∀ c ∈ (w.rounds edge xs).2, ∀ y, c = some y → ∃ n r, 0 < n ∧ y = some (.got n r) ∧ ∃ x ∈ xs, x.read = some r) ∧
    (∀ x ∈ xs, firedBy base period x.wait ≤ (w.rounds edge xs).1.k.seen) ∧
    ((w.rounds edge xs).1.k.seen = w.k.seen ∨ ∃ x ∈ xs, ∃ r, x.read = some r ∧ (w.rounds edge xs).1.k.seen = firedBy base period r) ∧
    w.k.seen ≤ (w.rounds edge xs).1.k.seen
  | [], _, w, _, _ => ⟨rfl, by simp [Watched.rounds], by simp, .inl rfl, Nat.le_refl _⟩
  | x :: xs, t, w, hi, ⟨h1, r, h2, h3, h4⟩ => by
    obtain ⟨i1, i2, i3⟩ := round_inv (edge := edge) hp hi h1 h2 h3
    obtain ⟨j1, j2, j3, j4, j5⟩ := rounds_inv (edge := edge) hp xs r _ i1 h4
    simp only [Watched.rounds]
    refine ⟨?_, ?_, ?_, ?_, ?_⟩
    · rw [j1]
      rcases i3 with ⟨e1, e2, _⟩ | ⟨n, _, e1, e2, _⟩
      · rw [e1, e2]; simp [toldFirings]
      · rw [e1, e2]; simp [toldFirings]; omega
    · intro c hc y hy
      rcases List.mem_cons.1 hc with rfl | hc
      · rcases i3 with ⟨e1, _⟩ | ⟨n, hn, e1, _⟩
        · rw [e1] at hy; cases hy
        · rw [e1] at hy; cases hy
          exact ⟨n, r, hn, rfl, x, by simp, h2⟩
      · obtain ⟨n, r', a, b, x', c, d⟩ := j2 c hc y hy
        exact ⟨n, r', a, b, x', by simp [c], d⟩
    · intro x' hx
      rcases List.mem_cons.1 hx with rfl | hx
      · exact Nat.le_trans i2 j5
      · exact j3 x' hx
    · rcases j4 with e | ⟨x', a, b⟩
      · rcases i3 with ⟨_, e2, _⟩ | ⟨n, _, _, _, e3⟩
        · rw [e, e2]; exact .inl rfl
        · exact .inr ⟨x, by simp, r, h2, by rw [e, e3]⟩
      · exact .inr ⟨x', by simp [a], b⟩
    · rcases i3 with ⟨_, e2, _⟩ | ⟨n, _, _, e2, _⟩
      · have : (w.round edge x).1.k.seen = w.k.seen := by rw [e2]
        omega
      · omega

/-- **C179** (what holds): in the mode without threads, level- or edge-triggered, with a callback that reads the timer as a `TimerSocket`,
for all times of the waits and the reads: the numbers that the callbacks get add up to at least the firings until each wait and to no
more than the firings until the last read; every call gets at least one firing, and no read waits (it ends at the time it began). -/
theorem C179_firings_partial (edge : Bool) (base period : Nat) (hp : 0 < period) (xs : List TimerRound) (hr : Reading base xs)
    (cs : List (Option (Option TimerRead))) (hcs : (Watched.rounds edge { k := { base, period } } xs).2 = cs) :
    (∀ x ∈ xs, firedBy base period x.wait ≤ toldFirings cs) ∧
    (toldFirings cs = 0 ∨ ∃ x ∈ xs, ∃ r, x.read = some r ∧ toldFirings cs = firedBy base period r) ∧
    ∀ c ∈ cs, ∀ y, c = some y → ∃ n r, 0 < n ∧ y = some (.got n r) ∧ ∃ x ∈ xs, x.read = some r := by
  have hi : WatchInv base period base { k := { base, period } } := ⟨rfl, rfl, Nat.zero_le _, rfl⟩
  obtain ⟨j1, j2, j3, j4, _⟩ := rounds_inv (edge := edge) hp xs base _ hi hr
  rw [hcs] at j1 j2
  simp only [Nat.zero_add] at j1
  rw [j1] at j3 j4
  exact ⟨j3, j4, j2⟩

theorem sum_pos_ge : ∀ (l : List (Option (Option TimerRead))), (∀ c ∈ l, ∀ y, c = some y → ∃ n r, 0 < n ∧ y = some (.got n r)) →
    timerCalls l ≤ toldFirings l
  | [], _ => by simp [timerCalls, toldFirings]
  | c :: l, h => by
    have ih := sum_pos_ge l fun c hc => h c (by simp [hc])
    cases c with
    | none => simpa [timerCalls, toldFirings] using ih
    | some y =>
      obtain ⟨n, r, hn, rfl⟩ := h (some y) (by simp) y rfl
      simp only [timerCalls, toldFirings, List.filter_cons, Option.isSome_some, if_true, List.length_cons, List.map_cons, List.sum_cons] at ih ⊢
      omega

/-- **C179** (what holds): such a callback is not called more often than the timer fires. -/
theorem C179_calls_partial (edge : Bool) (base period : Nat) (hp : 0 < period) (xs : List TimerRound) (hr : Reading base xs) :
    timerCalls (Watched.rounds edge { k := { base, period } } xs).2 ≤ toldFirings (Watched.rounds edge { k := { base, period } } xs).2 :=
  sum_pos_ge _ fun c hc y hy =>
    let ⟨n, r, h1, h2, _⟩ := (C179_firings_partial edge base period hp xs hr _ rfl).2.2 c hc y hy
    ⟨n, r, h1, h2⟩

/-- **C179 is false** for a callback that reads from the `Socket` that it is given, as that of the README's server does: level-triggered (the default), after
one firing it is called in every round, as often as the loop goes round. -/
theorem C179_level_refuted (base period : Nat) (hp : 0 < period) (n : Nat) :
    timerCalls (Watched.rounds false { k := { base, period } } (List.replicate n ⟨base + period, none⟩)).2 = n ∧
    firedBy base period (base + period) = 1 := by
  have h1 : firedBy base period (base + period) = 1 := by rw [firedBy_eq hp, Nat.add_sub_cancel_left, Nat.div_self hp]
  refine ⟨?_, h1⟩
  have key : ∀ (n : Nat) (w : Watched), w.k = { base, period } →
      timerCalls (w.rounds false (List.replicate n ⟨base + period, none⟩)).2 = n := by
    intro n
    induction n with
    | zero => intro w _; rfl
    | succ n ih =>
      intro w hw
      have hrep : w.reports false (base + period) = true := by
        unfold Watched.reports
        rw [hw, expired_firings (base := base) (period := period) rfl rfl hp, h1]
        simp
      simp only [List.replicate_succ, Watched.rounds, Watched.round, hrep, if_true]
      have := ih { w with told := true } hw
      simp only [timerCalls, List.filter_cons, Option.isSome_some, if_true, List.length_cons] at this ⊢
      rw [this]
  exact key n _ rfl

/-- **C179 is false** for that callback edge-triggered: it is called at most once, however often the timer fires. -/
theorem C179_edge_refuted (base period : Nat) (xs : List TimerRound) (hx : ∀ x ∈ xs, x.read = none) :
    timerCalls (Watched.rounds true { k := { base, period } } xs).2 ≤ 1 := by
  have key0 : ∀ (xs : List TimerRound) (w : Watched), w.told = true → timerCalls (w.rounds true xs).2 = 0 := by
    intro xs
    induction xs with
    | nil => intro w _; rfl
    | cons x xs ih =>
      intro w hw
      have hrep : w.reports true x.wait = false := by simp [Watched.reports, hw]
      simp only [Watched.rounds, Watched.round, hrep, Bool.false_eq_true, if_false]
      simpa [timerCalls] using ih w hw
  have key : ∀ (xs : List TimerRound) (w : Watched), (∀ x ∈ xs, x.read = none) → timerCalls (w.rounds true xs).2 ≤ 1 := by
    intro xs
    induction xs with
    | nil => intro w _; simp [Watched.rounds, timerCalls]
    | cons x xs ih =>
      intro w hx
      simp only [Watched.rounds, Watched.round]
      split
      · rw [hx x (by simp)]
        have := key0 xs { w with told := true } rfl
        simp only [timerCalls, List.filter_cons, Option.isSome_some, if_true, List.length_cons] at this ⊢
        omega
      · simpa [timerCalls] using ih w fun x h => hx x (by simp [h])
  exact key xs _ hx

/-- **C179 is false** in the mixed mode (level-triggered): before the task of the first report has read, the loop reports the timer `n`
times, and `n` tasks are queued for one firing.  Their reads end only with the following firings: the last of them keeps its worker for
`n - 1` periods. -/
theorem C179_mixed_refuted (base period : Nat) (hp : 0 < period) (n : Nat) :
    timerCalls (Watched.rounds false { k := { base, period } } (List.replicate (n + 1) ⟨base + period, none⟩)).2 = n + 1 ∧
    (({ base, period } : KTimer).readAll (base + period) (n + 1)).2 = (List.range (n + 1)).map fun i => .got 1 (base + (i + 1) * period) := by
  refine ⟨(C179_level_refuted base period hp (n + 1)).1, ?_⟩
  have h1 : (base + period - base) / period = 1 := by rw [Nat.add_sub_cancel_left, Nat.div_self hp]
  have hne : ¬ period = 0 := by omega
  have key : ∀ (n m : Nat), (({ base, period, seen := m + 1 } : KTimer).readAll (base + period) n).2 =
      (List.range n).map fun i => .got 1 (base + (i + (m + 1) + 1) * period) := by
    intro n
    induction n with
    | zero => intro m; rfl
    | succ n ih =>
      intro m
      have hr : (({ base, period, seen := m + 1 } : KTimer).read (base + period) 8) =
          ({ base, period, seen := m + 1 + 1 }, .got 1 (base + (m + 1 + 1) * period)) := by
        simp only [KTimer.read, KTimer.expired, hne, h1, if_false, if_neg (show ¬ (8 < 8) by omega), if_neg (show ¬ m + 1 < 1 by omega)]
      simp only [KTimer.readAll, hr, ih (m + 1), List.range_succ_eq_map, List.map_cons, List.map_map]
      congr 1
      · simp
      · apply List.map_congr_left
        intro i _
        simp only [Function.comp, Nat.succ_eq_add_one]
        congr 2
        rw [show i + 1 + (m + 1) + 1 = i + (m + 1 + 1) + 1 by omega]
  have hr0 : (({ base, period } : KTimer).read (base + period) 8) = ({ base, period, seen := 1 }, .got 1 (base + period)) := by
    simp only [KTimer.read, KTimer.expired, hne, h1, if_false, if_neg (show ¬ (8 < 8) by omega), if_pos (show 0 < 1 by omega)]
  simp only [KTimer.readAll, hr0, key n 0, List.range_succ_eq_map, List.map_cons, List.map_map]
  simp [Function.comp_def]

/-- The hypotheses can be met: a timer of 10 ms, rounds at 5, 12, 14 and 47 ms; the callback is called twice and gets 1 and 3. -/
example : Reading 0 [⟨5, some 5⟩, ⟨12, some 13⟩, ⟨14, some 14⟩, ⟨47, some 49⟩] ∧
    (Watched.rounds false { k := { base := 0, period := 10 } } [⟨5, some 5⟩, ⟨12, some 13⟩, ⟨14, some 14⟩, ⟨47, some 49⟩]).2 =
      [none, some (some (.got 1 13)), none, some (some (.got 3 49))] := by
  constructor
  · simp [Reading]
  · decide +kernel

end Cppnet
