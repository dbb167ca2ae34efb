import Verif.Model.Address

/-!
# Specification: the numbers-and-dots notation of addresses (C156)

The notation of `inet_addr(3)`: one to four numbers, separated by dots, each written like a C literal.  Written without
the model's parser.
-/

namespace Cppnet.Spec

/-- `c` is the digit with value `v`, up to fifteen. -/
def DigitIs (c : Byte) (v : Nat) : Prop := b!"0123456789abcdef"[v]? = some c ∨ b!"0123456789ABCDEF"[v]? = some c

/-- `t` consists of digits of the base, and `n` is its value. -/
inductive Digits (base : Nat) : Str → Nat → Prop
  | nil : Digits base [] 0
  | snoc {t : Str} {n v : Nat} {c : Byte} : Digits base t n → DigitIs c v → v < base → Digits base (t ++ [c]) (n * base + v)

/-- A C literal: decimal without a leading zero, octal with one, hexadecimal with `0x` or `0X`. -/
def Numeral (t : Str) (n : Nat) : Prop :=
  (t ≠ [] ∧ t.head? ≠ some 48 ∧ Digits 10 t n) ∨
  (∃ u, t = b!"0" ++ u ∧ Digits 8 u n) ∨
  (∃ u, (t = b!"0x" ++ u ∨ t = b!"0X" ++ u) ∧ u ≠ [] ∧ Digits 16 u n)

/-- What may follow the last number: nothing, or white space with anything after it. -/
def Trailer (t : Str) : Prop := t = [] ∨ ∃ d r, t = d :: r ∧ d ∈ [32, 9, 10, 11, 12, 13]

/-- `s` writes down the last `k` bytes of an address, with the value `n`: the last number stands for all the bytes that
are left, each number before it for one. -/
inductive Parts : Nat → Str → Nat → Prop
  | last {k : Nat} {t tail : Str} {v : Nat} : Numeral t v → v < 256 ^ k → Trailer tail → Parts k (t ++ tail) v
  | dot {k : Nat} {t rest : Str} {a v : Nat} :
    Numeral t a → a < 256 → 0 < k → Parts k rest v → Parts (k + 1) (t ++ b!"." ++ rest) (a * 256 ^ k + v)

/-- The text (up to its first NUL) is an address in this notation, with the number `n`. -/
def AddressText (s : Str) (n : Nat) : Prop := Parts 4 (s.takeWhile (· != 0)) n

end Cppnet.Spec
