import Verif.Cpp.Basic

/-!
# The calendar, time zones, and the order of texts (C186)
-/

namespace Cppnet.Spec

/-- A day of the Gregorian calendar. -/
structure Date where
  year : Nat
  month : Nat
  day : Nat
  deriving DecidableEq

/-- A leap year: divisible by 4, but by 100 only if by 400. -/
def Leap (y : Nat) : Prop := y % 4 = 0 ∧ (y % 100 = 0 → y % 400 = 0)

instance (y : Nat) : Decidable (Leap y) := inferInstanceAs (Decidable (_ ∧ _))

/-- How many days a month has. -/
def daysIn (y m : Nat) : Nat :=
  if m = 2 then (if Leap y then 29 else 28)
  else if m = 4 ∨ m = 6 ∨ m = 9 ∨ m = 11 then 30
  else 31

/-- The day after. -/
def Date.next (d : Date) : Date :=
  if d.day < daysIn d.year d.month then ⟨d.year, d.month, d.day + 1⟩
  else if d.month < 12 then ⟨d.year, d.month + 1, 1⟩
  else ⟨d.year + 1, 1, 1⟩

/-- The day that is `n` days after the 1st of January 1970. -/
def dateAfter : Nat → Date
  | 0 => ⟨1970, 1, 1⟩
  | n + 1 => (dateAfter n).next

/-- What a clock on the wall shows. -/
structure WallTime where
  date : Date
  hour : Nat
  min : Nat
  sec : Nat
  deriving DecidableEq

/-- What a clock on the wall shows `s` seconds after it showed the start of 1970. -/
def wallTime (s : Nat) : WallTime := ⟨dateAfter (s / 86400), s % 86400 / 3600, s % 3600 / 60, s % 60⟩

/-- A time zone: how many seconds the clocks on the wall are ahead of UTC, at each time (in seconds since the start of 1970, UTC).
Times are those at which the clocks on the wall show 1970 or later. -/
abbrev Zone := Nat → Int

/-- What the clocks on the wall show. -/
def Zone.shows (z : Zone) (t : Nat) : WallTime := wallTime ((t : Int) + z t).toNat

/-- The clocks of this zone are never changed. -/
def Zone.Fixed (z : Zone) (off : Int) : Prop := ∀ t, z t = off

/-- Text `x` sorts before text `y` of the same length: where they first differ, it has the smaller byte. -/
def SortsBefore (x y : Str) : Prop := ∃ p a b r s, x = p ++ a :: r ∧ y = p ++ b :: s ∧ a < b

end Cppnet.Spec
