import Verif.Model.StringUtil
import Verif.Spec.Strings
import Verif.Cpp.Bytes

namespace Cppnet
open Spec

instance (c : Byte) : Decidable (Alnum c) := by unfold Alnum; infer_instance
instance (c : Byte) : Decidable (Plain c) := by unfold Plain; infer_instance
instance (c : Byte) : Decidable (UpperHex c) := by unfold UpperHex; infer_instance

theorem fromHex_hexDigit (c : Byte) (n : Nat) : hexDigit c = some n → fromHex c = UInt8.ofNat n := by
  have : ∀ c : Byte, hexDigit c = none ∨ fromHex c = UInt8.ofNat ((hexDigit c).getD 0) := by
    decide +kernel
  intro h
  have := this c
  rw [h] at this; simpa using this

theorem ofNat_hex (a b : Nat) :
    UInt8.ofNat a * 16 + UInt8.ofNat b = UInt8.ofNat (16 * a + b) := by
  rw [UInt8.ofNat_add, UInt8.ofNat_mul, UInt8.mul_comm]; rfl

theorem urlDecodeLoop_decodes (acc s : Str) (t : Str) :
    Decodes s t → urlDecodeLoop acc s = acc ++ t := by
  intro h
  induction h generalizing acc with
  | nil => simp [urlDecodeLoop]
  | plus _ ih => rw [urlDecodeLoop.eq_def]; simp [ih]
  | @esc h l s t a b ha hb _ ih =>
    rw [urlDecodeLoop.eq_def]
    simp only [show ¬ ((37 : UInt8) = 43) by decide, if_false, if_true]
    rw [ih, fromHex_hexDigit _ _ ha, fromHex_hexDigit _ _ hb, ofNat_hex]; simp
  | lit h1 h2 _ ih => rw [urlDecodeLoop.eq_def]; simp [h1, h2, ih]

theorem UrlDecode_decodes {s t : Str} (h : Decodes s t) : UrlDecode s = t := by
  simpa [UrlDecode] using urlDecodeLoop_decodes [] s t h

/-- What the encoder emits for one byte, in front of any decodable text. -/
theorem decodes_encodeByte (c : Byte) {s t : Str} (h : Decodes s t) :
    Decodes (urlEncodeByte c ++ s) (c :: t) := by
  unfold urlEncodeByte
  have hk : ∀ c : Byte, urlKeep c = true → c ≠ 43 ∧ c ≠ 37 := by decide +kernel
  by_cases h1 : urlKeep c = true
  · obtain ⟨a, b⟩ := hk c h1
    simp only [h1, if_true]
    exact Decodes.lit a b h
  · simp only [h1]
    by_cases h2 : c = 32
    · subst h2; exact Decodes.plus h
    · simp only [h2, if_false]
      have hx : ∀ c : Byte, ∃ a b, hexDigit (toHex (c >>> 4)) = some a ∧ hexDigit (toHex (c % 16)) = some b ∧
          UInt8.ofNat (16 * a + b) = c := by
        have : ∀ c : Byte, (hexDigit (toHex (c >>> 4))).isSome = true ∧
            (hexDigit (toHex (c % 16))).isSome = true ∧
            UInt8.ofNat (16 * (hexDigit (toHex (c >>> 4))).getD 0 +
              (hexDigit (toHex (c % 16))).getD 0) = c := by decide +kernel
        intro c
        obtain ⟨h1, h2, h3⟩ := this c
        obtain ⟨a, ha⟩ := Option.isSome_iff_exists.1 h1
        obtain ⟨b, hb⟩ := Option.isSome_iff_exists.1 h2
        exact ⟨a, b, ha, hb, by simpa [ha, hb] using h3⟩
      obtain ⟨a, b, ha, hb, hc⟩ := hx c
      have := Decodes.esc ha hb h
      rw [hc] at this; simpa using this

theorem decodes_encode (s : Str) : Decodes (UrlEncode s) s := by
  induction s with
  | nil => exact Decodes.nil
  | cons c s ih => exact decodes_encodeByte c ih

theorem UrlDecode_UrlEncode (s : Str) : UrlDecode (UrlEncode s) = s :=
  UrlDecode_decodes (decodes_encode s)

theorem urlKeep_plain (c : Byte) : urlKeep c = true ↔ Plain c := by
  have : ∀ c : Byte, urlKeep c = true ↔ Plain c := by decide +kernel
  exact this c

theorem safe_encode (s : Str) : SafeText (UrlEncode s) := by
  induction s with
  | nil => exact SafeText.nil
  | cons c s ih =>
    simp only [UrlEncode, urlEncodeByte]
    split
    · rename_i h; exact SafeText.plain ((urlKeep_plain c).1 h) ih
    · split
      · exact SafeText.plus ih
      · have : ∀ c : Byte, UpperHex (toHex (c >>> 4)) ∧ UpperHex (toHex (c % 16)) := by
          decide +kernel
        exact SafeText.esc (this c).1 (this c).2 ih

theorem UrlEncode_append (s t : Str) : UrlEncode (s ++ t) = UrlEncode s ++ UrlEncode t := by
  induction s with
  | nil => rfl
  | cons c s ih => simp [UrlEncode, ih]

theorem UrlEncode_plain {s : Str} (h : ∀ c ∈ s, Plain c) : UrlEncode s = s := by
  induction s with
  | nil => rfl
  | cons c s ih =>
    have h1 := (urlKeep_plain c).2 (h c (by simp))
    simp [UrlEncode, urlEncodeByte, h1, ih (fun x hx => h x (by simp [hx]))]

end Cppnet
