import Verif.Cpp.Basic

/-! Deciding statements about all 256 bytes. -/

namespace Cppnet

theorem forall_byte_iff {p : UInt8 → Prop} :
    (∀ c, p c) ↔ ∀ n : Fin 256, p (UInt8.ofNat n.val) := by
  constructor
  · intro h n; exact h _
  · intro h c
    have := h ⟨c.toNat, c.toNat_lt⟩
    simpa using this

instance decidableForallByte {p : UInt8 → Prop} [DecidablePred p] : Decidable (∀ c, p c) :=
  decidable_of_iff _ forall_byte_iff.symm

end Cppnet
