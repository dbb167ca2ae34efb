import Verif.Spec.Timer

/-!
# Counting the firings of a timer
-/

namespace Cppnet
open Spec

theorem firings_eq (t0 p a : Nat) (hp : 0 < p) (ha : t0 ≤ a) : ∀ b, a ≤ b →
    firings t0 p a b = (b - t0) / p - (a - t0) / p := by
  intro b
  induction b with
  | zero =>
    intro h
    have : a = 0 := by omega
    subst this
    have : t0 = 0 := by omega
    subst this
    simp [firings]
  | succ b ih =>
    intro h
    rcases Nat.lt_or_ge b a with hlt | hge
    · have e : a = b + 1 := by omega
      subst e
      simp only [firings, Nat.sub_self, List.length_eq_zero_iff, List.filter_eq_nil_iff, List.mem_range, decide_eq_true_eq]
      omega
    · have i := ih hge
      unfold firings at i ⊢
      rw [List.range_succ, List.filter_append, List.length_append, i]
      have e : b + 1 - t0 = (b - t0) + 1 := by omega
      have m := Nat.div_le_div_right (c := p) (show a - t0 ≤ b - t0 by omega)
      rw [e, Nat.succ_div]
      have q : (p ∣ b - t0 + 1) ↔ (b + 1 - t0) % p = 0 := by rw [e]; exact Nat.dvd_iff_mod_eq_zero
      by_cases hd : p ∣ b - t0 + 1
      · rw [if_pos hd, List.filter_cons_of_pos (by simpa using ⟨by omega, by omega, q.mp hd⟩)]
        simp only [List.filter_nil, List.length_cons, List.length_nil]
        omega
      · rw [if_neg hd, List.filter_cons_of_neg (by simp only [decide_eq_true_eq]; intro h; exact hd (q.mpr h.2.2))]
        simp

end Cppnet
