import Verif.Spec.LogClock
import Verif.Props.Logger

/-!
# C186: the times in a log sort as the clock
-/

namespace Cppnet
open Spec

/-! ### The calendar goes forward -/

/-- A day that exists. -/
def Date.Real (d : Date) : Prop := 1970 ≤ d.year ∧ 1 ≤ d.month ∧ d.month ≤ 12 ∧ 1 ≤ d.day ∧ d.day ≤ daysIn d.year d.month

theorem daysIn_le (y m : Nat) : 1 ≤ daysIn y m ∧ daysIn y m ≤ 31 := by
  unfold daysIn
  split
  · split <;> omega
  · split <;> omega

/-- Earlier in the calendar. -/
def DateLt (a b : Date) : Prop :=
  a.year < b.year ∨ a.year = b.year ∧ (a.month < b.month ∨ a.month = b.month ∧ a.day < b.day)

theorem DateLt.trans {a b c : Date} (h : DateLt a b) (h' : DateLt b c) : DateLt a c := by unfold DateLt at *; omega

theorem next_real {d : Date} (h : Date.Real d) : Date.Real d.next := by
  obtain ⟨h1, h2, h3, h4, h5⟩ := h
  unfold Date.next
  by_cases a : d.day < daysIn d.year d.month
  · rw [if_pos a]; exact ⟨h1, h2, h3, by show 1 ≤ d.day + 1; omega, a⟩
  · rw [if_neg a]
    by_cases b : d.month < 12
    · rw [if_pos b]
      exact ⟨h1, by show 1 ≤ d.month + 1; omega, b, Nat.le_refl 1, (daysIn_le _ _).1⟩
    · rw [if_neg b]
      exact ⟨by show 1970 ≤ d.year + 1; omega, Nat.le_refl 1, by show 1 ≤ 12; omega, Nat.le_refl 1, (daysIn_le _ _).1⟩

theorem next_lt (d : Date) : DateLt d d.next := by
  unfold Date.next DateLt
  by_cases a : d.day < daysIn d.year d.month
  · rw [if_pos a]; simp
  · rw [if_neg a]
    by_cases b : d.month < 12
    · rw [if_pos b]; simp
    · rw [if_neg b]; simp

theorem dateAfter_real (n : Nat) : Date.Real (dateAfter n) := by
  induction n with
  | zero => exact ⟨Nat.le_refl _, Nat.le_refl _, by decide, Nat.le_refl _, by decide⟩
  | succ n ih => exact next_real ih

theorem dateAfter_lt {a b : Nat} (h : a < b) : DateLt (dateAfter a) (dateAfter b) := by
  induction b with
  | zero => omega
  | succ b ih =>
    rcases Nat.lt_or_ge a b with h1 | h1
    · exact (ih h1).trans (next_lt _)
    · have : a = b := by omega
      subst this; exact next_lt _

/-! ### Texts of fixed width sort as their numbers -/

theorem sb_right {x y : Str} (h : SortsBefore x y) (r s : Str) : SortsBefore (x ++ r) (y ++ s) := by
  obtain ⟨p, a, b, u, v, rfl, rfl, h⟩ := h
  exact ⟨p, a, b, u ++ r, v ++ s, by simp, by simp, h⟩

theorem sb_left {x y : Str} (h : SortsBefore x y) (p : Str) : SortsBefore (p ++ x) (p ++ y) := by
  obtain ⟨q, a, b, u, v, rfl, rfl, h⟩ := h
  exact ⟨p ++ q, a, b, u, v, by simp, by simp, h⟩

theorem digit_lt {a b : Nat} (h : a < b) (hb : b < 10) : UInt8.ofNat (48 + a) < UInt8.ofNat (48 + b) := by
  rw [UInt8.lt_iff_toNat_lt, UInt8.toNat_ofNat', UInt8.toNat_ofNat']
  omega

theorem twoDigits_lt {a b : Nat} (h : a < b) (hb : b < 100) : SortsBefore (twoDigits a) (twoDigits b) := by
  unfold twoDigits
  rcases Nat.lt_or_ge (a / 10) (b / 10) with h1 | h1
  · exact ⟨[], _, _, _, _, rfl, rfl, digit_lt h1 (by omega)⟩
  · have e : a / 10 = b / 10 := by omega
    rw [e]
    exact ⟨[_], _, _, [], [], rfl, rfl, digit_lt (by omega) (by omega)⟩

theorem yearDigits {y : Nat} (h : 1000 ≤ y) (h' : y ≤ 9999) : natToStr y = twoDigits (y / 100) ++ twoDigits (y % 100) := by
  have e : ∀ n : Nat, (48 : UInt8) + UInt8.ofNat n = UInt8.ofNat (48 + n) := fun n => by simp [UInt8.ofNat_add]
  obtain ⟨k, rfl⟩ : ∃ k, y = k + 4 := ⟨y - 4, by omega⟩
  unfold natToStr
  rw [decDigits, if_neg (by omega), decDigits, if_neg (by omega), decDigits, if_neg (by omega), decDigits, if_pos (by omega)]
  simp only [e, twoDigits, List.cons_append, List.nil_append]
  have e1 : (k + 4) / 10 / 10 / 10 = (k + 4) / 100 / 10 := by omega
  have e2 : (k + 4) / 10 / 10 % 10 = (k + 4) / 100 % 10 := by omega
  have e3 : (k + 4) / 10 % 10 = (k + 4) % 100 / 10 := by omega
  have e4 : (k + 4) % 10 = (k + 4) % 100 % 10 := by omega
  rw [e1, e2, e3, ← e4]

theorem year_lt {a b : Nat} (h : a < b) (ha : 1000 ≤ a) (hb : b ≤ 9999) : SortsBefore (natToStr a) (natToStr b) := by
  rw [yearDigits ha (by omega), yearDigits (by omega) hb]
  rcases Nat.lt_or_ge (a / 100) (b / 100) with h1 | h1
  · exact sb_right (twoDigits_lt h1 (by omega)) _ _
  · have e : a / 100 = b / 100 := by omega
    rw [e]
    exact sb_left (twoDigits_lt (a := a % 100) (b := b % 100) (by omega) (by omega)) _

/-- The times on the wall sort as the seconds. -/
theorem stamp_lt {a b : Nat} (h : a < b) (hy : (wallTime b).date.year ≤ 9999) :
    SortsBefore (strftimeStamp (wallTime a)) (strftimeStamp (wallTime b)) := by
  have ra := dateAfter_real (a / 86400)
  have rb := dateAfter_real (b / 86400)
  have la := (daysIn_le (dateAfter (a / 86400)).year (dateAfter (a / 86400)).month).2
  have lb := (daysIn_le (dateAfter (b / 86400)).year (dateAfter (b / 86400)).month).2
  obtain ⟨a1, a2, a3, a4, a5⟩ := ra
  obtain ⟨b1, b2, b3, b4, b5⟩ := rb
  simp only [strftimeStamp, wallTime, List.append_assoc] at hy ⊢
  rcases Nat.lt_or_ge (a / 86400) (b / 86400) with h1 | h1
  · rcases dateAfter_lt h1 with h2 | ⟨e2, h2⟩
    · exact sb_right (year_lt h2 (by omega) hy) _ _
    rw [e2]
    refine sb_left (sb_left ?_ _) _
    rcases h2 with h3 | ⟨e3, h3⟩
    · exact sb_right (twoDigits_lt h3 (by omega)) _ _
    rw [e3]
    exact sb_left (sb_left (sb_right (twoDigits_lt h3 (by omega)) _ _) _) _
  · have e : a / 86400 = b / 86400 := by omega
    rw [e]
    refine sb_left (sb_left (sb_left (sb_left
      (sb_left (sb_left ?_ _) _) _) _) _) _
    rcases Nat.lt_or_ge (a % 86400 / 3600) (b % 86400 / 3600) with h4 | h4
    · exact sb_right (twoDigits_lt h4 (by omega)) _ _
    have e4 : a % 86400 / 3600 = b % 86400 / 3600 := by omega
    rw [e4]
    refine sb_left (sb_left ?_ _) _
    rcases Nat.lt_or_ge (a % 3600 / 60) (b % 3600 / 60) with h5 | h5
    · exact sb_right (twoDigits_lt h5 (by omega)) _ _
    have e5 : a % 3600 / 60 = b % 3600 / 60 := by omega
    rw [e5]
    exact sb_left (sb_left (twoDigits_lt (by omega) (by omega)) _) _

theorem sb_irrefl {x : Str} : ¬ SortsBefore x x := by
  rintro ⟨p, a, b, r, s, h1, h2, h⟩
  have := List.append_cancel_left (h1.symm.trans h2)
  simp only [List.cons.injEq] at this
  rw [this.1, UInt8.lt_iff_toNat_lt] at h
  omega

theorem year_le {a b : Nat} (h : a ≤ b) : (wallTime a).date.year ≤ (wallTime b).date.year := by
  rcases Nat.lt_or_ge (a / 86400) (b / 86400) with h1 | h1
  · have := dateAfter_lt h1
    unfold DateLt at this
    simp only [wallTime]
    omega
  · have e : a / 86400 = b / 86400 := by have := Nat.div_le_div_right (c := 86400) h; omega
    simp only [wallTime, e]
    exact Nat.le_refl _

/-! ### C186 -/

/-- **C186**, the order, if the clocks on the wall are not set back between the two calls (`z t₁ ≤ z t₂`; so always in a zone
without summer time): of two calls at different seconds the earlier one gets the time that sorts first.  (Missing: a clock that is
set back, see `C186_back_refuted`; years with more than four digits, see `C186_year_refuted`.) -/
theorem C186_order_partial (z : Zone) (t₁ t₂ : Nat) (h : t₁ < t₂) (hz : z t₁ ≤ z t₂) (h0 : 0 ≤ (t₁ : Int) + z t₁)
    (hy : (z.shows t₂).date.year ≤ 9999) : SortsBefore (getNowTime z t₁) (getNowTime z t₂) :=
  stamp_lt (by omega) hy

/-- Hypotheses met, in Central Europe on new year's eve 1971. -/
example : ∃ z : Zone, z.Fixed 3600 ∧ (z.shows 63068400).date.year ≤ 9999 ∧
    getNowTime z 63068399 = b!"1971-12-31 23:59:59" ∧ getNowTime z 63068400 = b!"1972-01-01 00:00:00" :=
  ⟨fun _ => 3600, fun _ => rfl, by decide +kernel, by decide +kernel, by decide +kernel⟩

/-- **C186**, the second: in a zone whose clocks are never changed, the text tells the second of the call, in every year of four
digits.  (Missing: the hour that is shown twice when the clocks are set back, see `C186_twice_refuted`.) -/
theorem C186_second_partial (z : Zone) (off : Int) (hz : z.Fixed off) (t₁ t₂ : Nat) (h1 : 0 ≤ (t₁ : Int) + off) (h2 : 0 ≤ (t₂ : Int) + off)
    (y1 : (z.shows t₁).date.year ≤ 9999) (y2 : (z.shows t₂).date.year ≤ 9999) (h : getNowTime z t₁ = getNowTime z t₂) : t₁ = t₂ := by
  rcases Nat.lt_trichotomy t₁ t₂ with h3 | h3 | h3
  · exact absurd (h ▸ C186_order_partial z t₁ t₂ h3 (by rw [hz, hz]; omega) (by rw [hz]; exact h1) y2) sb_irrefl
  · exact h3
  · exact absurd (h ▸ C186_order_partial z t₂ t₁ h3 (by rw [hz, hz]; omega) (by rw [hz]; exact h2) y1) sb_irrefl

/-- Hypotheses met, on a leap day, west of Greenwich. -/
example : ∃ z : Zone, z.Fixed (-18000) ∧ (0 : Int) ≤ (68252400 : Nat) + (-18000) ∧ (z.shows 68252400).date.year ≤ 9999 ∧
    getNowTime z 68252400 = b!"1972-02-29 18:00:00" :=
  ⟨fun _ => -18000, fun _ => rfl, by decide, by decide +kernel, by decide +kernel⟩

/-- Neither text sorts after the other: `x` sorts before `y`, or they are the same. -/
theorem stamps_sorted (z : Zone) (off : Int) (hz : z.Fixed off) (t₁ t₂ : Nat) (h : t₁ ≤ t₂) (h1 : 0 ≤ (t₁ : Int) + off)
    (y2 : (z.shows t₂).date.year ≤ 9999) : SortsBefore (getNowTime z t₁) (getNowTime z t₂) ∨ getNowTime z t₁ = getNowTime z t₂ := by
  rcases Nat.lt_or_ge t₁ t₂ with h3 | h3
  · exact .inl (C186_order_partial z t₁ t₂ h3 (by rw [hz, hz]; omega) (by rw [hz]; exact h1) y2)
  · exact .inr (by rw [show t₁ = t₂ by omega])

/-- **C186**, the log file: if the clock does not go back and the zone's clocks are never changed, then at every moment until the
first `Stop` returns, what the logger has added to the file is lines with times that never go back.  (Every line is that of a call
`(level, time, text)`; no file operation fails.  Missing: the lines that `Stop` itself writes, see `C56_order_refuted`.) -/
theorem C186_file_partial (z : Zone) (off : Int) (hz : z.Fixed off) (prev : Str) (tr : List LLabel) (s : FLog)
    (h : LRun (newLogger prev) tr s) (hnum : ∀ l ∈ tr, NumOk l) (hf : ∀ l ∈ tr, NoFault l) (hs : stopsIn tr = 0)
    (calls : List (Level × Nat × Str)) (hc : loggedLines tr = calls.map (logText z))
    (hclock : calls.Pairwise fun c d => c.2.1 ≤ d.2.1)
    (hold : ∀ c ∈ calls, 0 ≤ (c.2.1 : Int) + off ∧ (z.shows c.2.1).date.year ≤ 9999) :
    ∃ n, s.file = prev ++ ((calls.take n).map (logText z)).flatten ∧
      (calls.take n).Pairwise fun c d => SortsBefore (getNowTime z c.2.1) (getNowTime z d.2.1) ∨ getNowTime z c.2.1 = getNowTime z d.2.1 := by
  obtain ⟨n, hn⟩ := C56_prefix_partial prev tr s h hnum hf hs
  refine ⟨n, by rw [hn, hc, List.map_take], ?_⟩
  have hsub : (calls.take n).Sublist calls := List.take_sublist _ _
  refine (List.Pairwise.and_mem.1 (hclock.sublist hsub)).imp ?_
  rintro c d ⟨m1, m2, h3⟩
  exact stamps_sorted z off hz _ _ h3 (hold c (hsub.subset m1)).1 (hold d (hsub.subset m2)).2

/-- Hypotheses met: a logger whose worker has written the first of two lines. -/
example : ∃ (z : Zone) (tr : List LLabel) (s : FLog) (calls : List (Level × Nat × Str)), z.Fixed 0 ∧ LRun (newLogger []) tr s ∧
    (∀ l ∈ tr, NumOk l) ∧ (∀ l ∈ tr, NoFault l) ∧ stopsIn tr = 0 ∧ loggedLines tr = calls.map (logText z) ∧
    calls = [(.info, 86399, b!"a"), (.info, 86400, b!"b")] ∧ s.file = b!"[INFO]1970-01-01 23:59:59|a\n" := by
  obtain ⟨v, hv⟩ : ∃ v, lshown (lcmdRun (newLogger []) (linit ++ [.log .info b!"1970-01-01 23:59:59" b!"a", .main true, .main true, .main true] ++ lcl 5 ++
        lwk 6 ++ [.flush] ++ [.log .info b!"1970-01-02 00:00:00" b!"b", .main false])) = some v ∧
      v.trace.any numBad = false ∧ v.trace.any isFault = false ∧ stopsIn v.trace = 0 ∧
      loggedLines v.trace = [b!"[INFO]1970-01-01 23:59:59|a\n", b!"[INFO]1970-01-02 00:00:00|b\n"] ∧ v.file = b!"[INFO]1970-01-01 23:59:59|a\n" := by
    refine ⟨_, rfl, ?_⟩
    decide +kernel
  obtain ⟨s, h1, h2, _⟩ := lshown_run hv.1
  refine ⟨fun _ => 0, _, s, [(.info, 86399, b!"a"), (.info, 86400, b!"b")], fun _ => rfl, h1, numOk_of hv.2.1, noFault_of hv.2.2.1,
    hv.2.2.2.1, hv.2.2.2.2.1.trans ?_, rfl, h2.trans hv.2.2.2.2.2⟩
  decide +kernel

/-- **C186**, refuted: whenever the clocks on the wall are set back by more than the time between two calls (the end of summer
time, in whatever year of four digits), the later line carries the time that sorts first. -/
theorem C186_back_refuted (z : Zone) (t₁ t₂ : Nat) (hb : (t₂ : Int) + z t₂ < t₁ + z t₁) (h0 : 0 ≤ (t₂ : Int) + z t₂)
    (hy : (z.shows t₁).date.year ≤ 9999) : SortsBefore (getNowTime z t₂) (getNowTime z t₁) :=
  stamp_lt (by omega) hy

/-- **C186**, refuted: the hour before the clocks are set back by an hour is shown twice, each second of it by two seconds of the
clock. -/
theorem C186_twice_refuted (z : Zone) (t : Nat) (hb : z (t + 3600) = z t - 3600) : getNowTime z t = getNowTime z (t + 3600) := by
  unfold getNowTime Zone.shows
  rw [hb]
  congr 3
  omega

/-- Hypotheses of both met: at the end of summer time of 1970 the Italian clocks go from 3 to 2. -/
example : ∃ (z : Zone) (t₁ t₂ : Nat), t₁ < t₂ ∧ (t₂ : Int) + z t₂ < t₁ + z t₁ ∧ 0 ≤ (t₂ : Int) + z t₂ ∧ (z.shows t₁).date.year ≤ 9999 ∧
    z (t₁ + 3600) = z t₁ - 3600 ∧ getNowTime z t₁ = b!"1970-09-27 02:59:59" ∧ getNowTime z t₂ = b!"1970-09-27 02:00:00" :=
  ⟨fun t => if t < 23245200 then 7200 else 3600, 23245199, 23245200, by decide, by decide, by decide, by decide +kernel, by decide,
    by decide +kernel, by decide +kernel⟩

/-! ### The year 10000 -/

theorem fiveDigits {y : Nat} (h : 10000 ≤ y) (h' : y ≤ 99999) : ∃ r, natToStr y = UInt8.ofNat (48 + y / 10000) :: r := by
  have e : ∀ n : Nat, (48 : UInt8) + UInt8.ofNat n = UInt8.ofNat (48 + n) := fun n => by simp [UInt8.ofNat_add]
  obtain ⟨k, rfl⟩ : ∃ k, y = k + 5 := ⟨y - 5, by omega⟩
  unfold natToStr
  rw [decDigits, if_neg (by omega), decDigits, if_neg (by omega), decDigits, if_neg (by omega), decDigits, if_neg (by omega),
    decDigits, if_pos (by omega)]
  simp only [e, List.cons_append, List.nil_append]
  have e1 : (k + 5) / 10 / 10 / 10 / 10 = (k + 5) / 10000 := by omega
  rw [e1]
  exact ⟨_, rfl⟩

/-- **C186**, refuted: from the year 10000 on, whatever the zone: every line of the years 10000 to 19999 carries a time that sorts
before that of every line of the years 2000 to 9999. -/
theorem C186_year_refuted (z : Zone) (t₁ t₂ : Nat) (h1 : 2000 ≤ (z.shows t₁).date.year) (h1' : (z.shows t₁).date.year ≤ 9999)
    (h2 : 10000 ≤ (z.shows t₂).date.year) (h2' : (z.shows t₂).date.year ≤ 19999) :
    SortsBefore (getNowTime z t₂) (getNowTime z t₁) := by
  obtain ⟨r, hr⟩ := fiveDigits h2 (by omega)
  unfold getNowTime strftimeStamp
  rw [hr, yearDigits (by omega) h1']
  have e2 : (z.shows t₂).date.year / 10000 = 1 := by omega
  rw [e2]
  exact ⟨[], _, _, _, _, rfl, rfl, digit_lt (by omega) (by omega)⟩

theorem dateAfter_days {n y m d : Nat} (h : dateAfter n = ⟨y, m, d⟩) (k : Nat) (hk : d + k ≤ daysIn y m) :
    dateAfter (n + k) = ⟨y, m, d + k⟩ := by
  induction k with
  | zero => exact h
  | succ k ih =>
    show (dateAfter (n + k)).next = _
    rw [ih (by omega)]
    unfold Date.next
    rw [if_pos (by show d + k < daysIn y m; omega)]
    rfl

theorem dateAfter_month {n y m : Nat} (h : dateAfter n = ⟨y, m, 1⟩) (hm : m < 12) : ∃ n', n < n' ∧ dateAfter n' = ⟨y, m + 1, 1⟩ := by
  have h1 := (daysIn_le y m).1
  have h2 := dateAfter_days h (daysIn y m - 1) (by omega)
  refine ⟨n + (daysIn y m - 1) + 1, by omega, ?_⟩
  show (dateAfter _).next = _
  rw [h2]
  unfold Date.next
  rw [if_neg (by show ¬ 1 + (daysIn y m - 1) < daysIn y m; omega), if_pos hm]

theorem dateAfter_year {n y : Nat} (h : dateAfter n = ⟨y, 1, 1⟩) : ∃ n', n < n' ∧ dateAfter n' = ⟨y + 1, 1, 1⟩ := by
  have hs : ∀ m, m < 12 → ∃ n', n ≤ n' ∧ dateAfter n' = ⟨y, m + 1, 1⟩ := by
    intro m hm
    induction m with
    | zero => exact ⟨n, Nat.le_refl _, h⟩
    | succ m ih =>
      obtain ⟨n1, l1, e1⟩ := ih (by omega)
      obtain ⟨n2, l2, e2⟩ := dateAfter_month e1 hm
      exact ⟨n2, by omega, e2⟩
  obtain ⟨n1, l1, e1⟩ : ∃ n', n ≤ n' ∧ dateAfter n' = ⟨y, 12, 1⟩ := hs 11 (by omega)
  have h1 := (daysIn_le y 12).1
  have h2 := dateAfter_days e1 (daysIn y 12 - 1) (by omega)
  refine ⟨n1 + (daysIn y 12 - 1) + 1, by omega, ?_⟩
  show (dateAfter _).next = _
  rw [h2]
  unfold Date.next
  rw [if_neg (by show ¬ 1 + (daysIn y 12 - 1) < daysIn y 12; omega), if_neg (by show ¬ 12 < 12; omega)]

/-- Every year comes. -/
theorem year_comes (k : Nat) : ∃ n, dateAfter n = ⟨1970 + k, 1, 1⟩ := by
  induction k with
  | zero => exact ⟨0, rfl⟩
  | succ k ih =>
    obtain ⟨n, h⟩ := ih
    obtain ⟨n', _, h'⟩ := dateAfter_year h
    exact ⟨n', h'⟩

/-- Hypotheses met: the years come, and the one of `t₂` after that of `t₁`. -/
example : ∃ (z : Zone) (t₁ t₂ : Nat), t₁ < t₂ ∧ (z.shows t₁).date = ⟨9999, 1, 1⟩ ∧ (z.shows t₂).date = ⟨10000, 1, 1⟩ := by
  obtain ⟨n, h⟩ := year_comes 8029
  obtain ⟨n', l, h'⟩ := dateAfter_year h
  refine ⟨fun _ => 0, n * 86400, n' * 86400, by omega, ?_, ?_⟩
  · show dateAfter ((((n * 86400 : Nat) : Int) + 0).toNat / 86400) = _
    rw [show (((n * 86400 : Nat) : Int) + 0).toNat / 86400 = n by omega, h]
  · show dateAfter ((((n' * 86400 : Nat) : Int) + 0).toNat / 86400) = _
    rw [show (((n' * 86400 : Nat) : Int) + 0).toNat / 86400 = n' by omega, h']

end Cppnet
