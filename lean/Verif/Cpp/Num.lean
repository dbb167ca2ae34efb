import Verif.Cpp.Basic

/-!
# `std::stoi`, `std::to_string`
-/

namespace Cppnet

/-- `INT_MIN`, `INT_MAX` -/
def intMin : Int := -2147483648
def intMax : Int := 2147483647

/-- Decimal digits of `n`, most significant first; `fuel` at least the number of digits. -/
def decDigits : Nat → Nat → Str
  | 0, _ => []
  | fuel + 1, n =>
    if n < 10 then [48 + UInt8.ofNat n] else decDigits fuel (n / 10) ++ [48 + UInt8.ofNat (n % 10)]

/-- `std::to_string` of an unsigned number. -/
def natToStr (n : Nat) : Str := decDigits (n + 1) n

/-- `std::to_string(int)`. -/
def intToStr (i : Int) : Str :=
  if i < 0 then 45 :: natToStr i.natAbs else natToStr i.natAbs

/-- `isspace` in the "C" locale. -/
def isSpace (c : Byte) : Bool := c == 32 || (9 ≤ c && c ≤ 13)

/-- Skip leading white space. -/
def skipSpace : Str → Str
  | [] => []
  | c :: s => if isSpace c then skipSpace s else c :: s

/-- Is the byte a decimal digit? -/
def isDigit (c : Byte) : Bool := 48 ≤ c && c ≤ 57

/-- The leading digits. -/
def leadDigits : Str → Str
  | [] => []
  | c :: s => if isDigit c then c :: leadDigits s else []

/-- Value of a digit string. -/
def digitsVal (ds : Str) : Nat := ds.foldl (fun acc c => acc * 10 + (c.toNat - 48)) 0

/-- Sign and rest. -/
def splitSign : Str → Bool × Str
  | 45 :: s => (true, s)
  | 43 :: s => (false, s)
  | s => (false, s)

/-- `std::stoi(s)` (base 10): white space, optional sign, digits; the rest is ignored. -/
def stoi (s : Str) : Out Int :=
  let (neg, s) := splitSign (skipSpace s)
  let ds := leadDigits s
  if ds = [] then .error .invalidArgument
  else
    let v : Int := if neg then -(digitsVal ds : Int) else digitsVal ds
    if intMin ≤ v ∧ v ≤ intMax then .ok v else .error .outOfRange

/-- Conversion to `int` of a `size_t` (two's complement, 32 bit). -/
def toInt32 (n : Nat) : Int :=
  let m : Nat := n % 2 ^ 32
  if m < 2 ^ 31 then (m : Int) else (m : Int) - 2 ^ 32

/-- Conversion of an `int` to `size_t`. -/
def intToSize (i : Int) : Nat := (i % 2 ^ 64).toNat

end Cppnet
