/-!
# The fragment of C++ the modelled code uses

Bytes, `std::string`, `size_t` wrap-around, outcomes.  Nothing here is specific to cppnet.
-/

namespace Cppnet

/-- `char`; its sign only matters in `Trie` (array index), where it is treated explicitly. -/
abbrev Byte := UInt8

/-- `std::string`: any sequence of bytes (NUL included). -/
abbrev Str := List UInt8

/-- `b!"text"` is the byte list of an ASCII string literal, expanded to explicit numerals. -/
macro:max "b!" s:str : term => do
  let elems ← s.getString.toUTF8.toList.mapM fun b => `(($(Lean.quote b.toNat) : UInt8))
  `(([$(elems.toArray),*] : List UInt8))

/-- The ways a C++ evaluation can fail to return a value. -/
inductive Fault where
  /-- `std::out_of_range` (e.g. `substr` past the end, `stoi` overflow) -/
  | outOfRange
  /-- `std::invalid_argument` (`stoi` without digits) -/
  | invalidArgument
  /-- `std::filesystem::filesystem_error` -/
  | fsError
  /-- undefined behaviour (out-of-bounds access, null dereference) -/
  | ub
  /-- `std::terminate` -/
  | terminate
  /-- the loop does not end -/
  | diverge
  deriving DecidableEq, Repr

/-- Result of a C++ evaluation: a value, or one of the faults. -/
abbrev Out := Except Fault

deriving instance DecidableEq for Except

/-- `std::string::npos` = `(size_t)-1`. -/
def npos : Nat := 2 ^ 64 - 1

/-- `size_t` addition. -/
def szAdd (a b : Nat) : Nat := (a + b) % 2 ^ 64

/-- `size_t` subtraction (wraps below zero). -/
def szSub (a b : Nat) : Nat := (a + 2 ^ 64 - b % 2 ^ 64) % 2 ^ 64

/-- First position at which `d` occurs in the argument. -/
def findAux (d : Str) : Str → Option Nat
  | [] => if d = [] then some 0 else none
  | c :: s => if d.isPrefixOf (c :: s) then some 0 else (findAux d s).map (· + 1)

/-- `s.find(d, pos)`; `none` is `npos`. -/
def find (s d : Str) (pos : Nat := 0) : Option Nat :=
  if pos ≤ s.length then (findAux d (s.drop pos)).map (pos + ·) else none

/-- `s.find_last_of` of a one-character set (equally `rfind` of one character). -/
def findLast (b : Byte) : Str → Option Nat
  | [] => none
  | c :: s =>
    match findLast b s with
    | some i => some (i + 1)
    | none => if c = b then some 0 else none

/-- `s.find_first_not_of` of a one-character set. -/
def findFirstNotOf (b : Byte) : Str → Option Nat
  | [] => none
  | c :: s => if c = b then (findFirstNotOf b s).map (· + 1) else some 0

/-- `s.substr(pos, n)`: throws `std::out_of_range` if `pos > size()`, clamps `n`. -/
def substr (s : Str) (pos : Nat) (n : Nat) : Out Str :=
  if pos ≤ s.length then .ok ((s.drop pos).take n) else .error .outOfRange

/-- `s.substr(pos)`. -/
def substrFrom (s : Str) (pos : Nat) : Out Str :=
  if pos ≤ s.length then .ok (s.drop pos) else .error .outOfRange

/-- The `size_t` a `find`-like call returns. -/
def posOrNpos : Option Nat → Nat
  | some i => i
  | none => npos

/-- CR LF. -/
def crlf : Str := [13, 10]

/-- CR LF CR LF. -/
def crlf2 : Str := [13, 10, 13, 10]

end Cppnet
