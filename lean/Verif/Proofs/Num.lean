import Verif.Cpp.Num
import Verif.Cpp.Bytes

namespace Cppnet

theorem digit_byte {n : Nat} (h : n < 10) : (48 + UInt8.ofNat n).toNat = 48 + n := by
  have : UInt8.ofNat n = OfNat.ofNat n := rfl
  simp [UInt8.toNat_add, UInt8.toNat_ofNat']; omega

theorem isDigit_digit {n : Nat} (h : n < 10) : isDigit (48 + UInt8.ofNat n) = true := by
  simp only [isDigit, Bool.and_eq_true, decide_eq_true_eq, UInt8.le_iff_toNat_le, digit_byte h]
  simp; omega

theorem decDigits_ne_nil {fuel n : Nat} (h : 0 < fuel) : decDigits fuel n ≠ [] := by
  cases fuel with
  | zero => omega
  | succ f => simp only [decDigits]; split <;> simp

theorem decDigits_isDigit : ∀ (fuel n : Nat), ∀ c ∈ decDigits fuel n, isDigit c = true
  | 0, _ => by simp [decDigits]
  | fuel + 1, n => by
    intro c hc
    simp only [decDigits] at hc
    split at hc
    · simp at hc; subst hc; exact isDigit_digit (by omega)
    · simp at hc
      rcases hc with hc | rfl
      · exact decDigits_isDigit fuel _ c hc
      · exact isDigit_digit (by omega)

theorem digitsVal_append_digit (ds : Str) (c : Byte) :
    digitsVal (ds ++ [c]) = digitsVal ds * 10 + (c.toNat - 48) := by
  simp [digitsVal]

theorem digitsVal_decDigits : ∀ (fuel n : Nat), n < fuel → digitsVal (decDigits fuel n) = n
  | 0, n => by omega
  | fuel + 1, n => by
    intro h
    simp only [decDigits]
    split
    · rename_i h'; simp [digitsVal, digit_byte h']
    · rw [digitsVal_append_digit, digitsVal_decDigits fuel (n / 10) (by omega), digit_byte (by omega)]
      omega

theorem leadDigits_append {ds rest : Str} (h : ∀ c ∈ ds, isDigit c = true)
    (hr : ∀ c ∈ rest.head?, isDigit c = false) : leadDigits (ds ++ rest) = ds := by
  induction ds with
  | nil =>
    cases rest with
    | nil => rfl
    | cons c r => simp [leadDigits, hr c (by simp)]
  | cons c ds ih =>
    simp [leadDigits, h c (by simp), ih (fun x hx => h x (by simp [hx]))]

theorem leadDigits_all {ds : Str} (h : ∀ c ∈ ds, isDigit c = true) : leadDigits ds = ds := by
  simpa using leadDigits_append (rest := []) h (by simp)

theorem digit_not_space (c : Byte) (h : isDigit c = true) : isSpace c = false ∧ c ≠ 45 ∧ c ≠ 43 := by
  revert c; decide +kernel

theorem natToStr_digits (n : Nat) : ∀ c ∈ natToStr n, isDigit c = true := decDigits_isDigit _ _

theorem natToStr_ne_nil (n : Nat) : natToStr n ≠ [] := decDigits_ne_nil (by omega)

theorem digitsVal_natToStr (n : Nat) : digitsVal (natToStr n) = n := digitsVal_decDigits _ _ (by omega)

theorem skipSpace_of_head {c : Byte} {s : Str} (h : isSpace c = false) : skipSpace (c :: s) = c :: s := by
  simp [skipSpace, h]

/-- `stoi` inverts `to_string` on every `int`. -/
theorem stoi_intToStr (i : Int) (h1 : intMin ≤ i) (h2 : i ≤ intMax) : stoi (intToStr i) = .ok i := by
  unfold intToStr stoi
  by_cases hneg : i < 0
  · simp only [hneg, if_true]
    rw [skipSpace_of_head (by decide)]
    simp only [splitSign, leadDigits_all (natToStr_digits _), natToStr_ne_nil, if_false,
      digitsVal_natToStr]
    have : (-(i.natAbs : Int)) = i := by omega
    simp [this, h1, h2]
  · simp only [hneg, if_false]
    have hd := natToStr_digits i.natAbs
    have hne := natToStr_ne_nil i.natAbs
    have hv := digitsVal_natToStr i.natAbs
    generalize natToStr i.natAbs = ds at *
    cases ds with
    | nil => exact absurd rfl hne
    | cons c ds =>
      obtain ⟨a, b, d⟩ := digit_not_space c (hd c (by simp))
      rw [skipSpace_of_head a]
      have hs : splitSign (c :: ds) = (false, c :: ds) := by
        unfold splitSign; split <;> simp_all
      simp only [hs, leadDigits_all hd, hv]
      have : ((i.natAbs : Int)) = i := by omega
      simp [this, h1, h2]

theorem toInt32_small {n : Nat} (h : n < 2 ^ 31) : toInt32 n = n := by
  unfold toInt32
  have : n % 2 ^ 32 = n := Nat.mod_eq_of_lt (by omega)
  simp [this]; omega

theorem toInt32_range (n : Nat) : intMin ≤ toInt32 n ∧ toInt32 n ≤ intMax := by
  unfold toInt32 intMin intMax
  have : n % 2 ^ 32 < 2 ^ 32 := Nat.mod_lt _ (by decide)
  simp only
  split <;> omega

theorem intToSize_ofNat {n : Nat} (h : n < 2 ^ 64) : intToSize (n : Int) = n := by
  unfold intToSize; omega

end Cppnet
