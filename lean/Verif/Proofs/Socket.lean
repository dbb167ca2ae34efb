import Verif.Model.Socket
import Verif.Proofs.CppString
import Verif.Proofs.Num
import Verif.Spec.Http

namespace Cppnet
open Spec

theorem suffix_iff_drop {d buf : Str} (h : d.length ≤ buf.length) :
    buf.drop (buf.length - d.length) = d ↔ d <:+ buf := by
  constructor
  · intro e; rw [← e]; exact List.drop_suffix _ _
  · rintro ⟨t, rfl⟩; simp

theorem szSub_le {a b : Nat} (h : b ≤ a) (ha : a < 2 ^ 64) : szSub a b = a - b := by
  unfold szSub; omega

theorem szSub_wrap {a b : Nat} (h : a < b) (hb : b < 2 ^ 64) : a < szSub a b := by
  unfold szSub; omega

/-- The comparison in the loop head. -/
theorem tail_check {d buf : Str} (h : d.length ≤ buf.length) (hb : buf.length < 2 ^ 64) :
    substrFrom buf (szSub buf.length d.length) = .ok (buf.drop (buf.length - d.length)) := by
  rw [szSub_le h hb, substrFrom_ok (by omega)]

theorem tail_check_error {d buf : Str} (h : buf.length < d.length) (hd : d.length < 2 ^ 64) :
    substrFrom buf (szSub buf.length d.length) = .error .outOfRange := by
  have := szSub_wrap h hd
  unfold substrFrom
  rw [if_neg (by omega)]

theorem last_suffix {d buf : Str} {last c : Byte} (hl : d.getLast? = some last) (h : d <:+ buf ++ [c]) :
    c = last := by
  obtain ⟨t, ht⟩ := h
  have h1 : (t ++ d).getLast? = some c := by rw [ht]; simp
  rw [List.getLast?_append, hl] at h1
  simpa using h1.symm

theorem prefix_before {d pre rest buf cs : Str} (hcut : ¬ d <:+: pre ++ d.dropLast) (hd : d ≠ [])
    (he : buf ++ cs = pre ++ d ++ rest) (hlen : buf.length ≤ (pre ++ d).length) (hs : d <:+ buf) :
    buf = pre ++ d ∧ cs = rest := by
  by_cases h : buf.length = (pre ++ d).length
  · exact List.append_inj he h
  · exfalso
    apply hcut
    have hb : buf <+: pre ++ d ++ rest := ⟨cs, he⟩
    have hp : pre ++ d.dropLast <+: pre ++ d ++ rest := by
      have e : pre ++ d.dropLast ++ (([d.getLast hd]) ++ rest) = pre ++ d ++ rest := by
        conv => rhs; rw [← List.dropLast_concat_getLast hd]
        simp
      exact ⟨_, e⟩
    have hl2 : buf.length ≤ (pre ++ d.dropLast).length := by
      have : 0 < d.length := List.length_pos_iff.2 hd
      simp only [List.length_append, List.length_dropLast] at *
      omega
    exact hs.isInfix.trans (List.prefix_of_prefix_length_le hb hp hl2).isInfix

/-- The state of the loop is safe: the check cannot throw now. -/
def SafeNow (d : Str) (last ch : Byte) (buf : Str) : Prop := ch = last → d.length ≤ buf.length

theorem safe_step {d : Str} {last c : Byte} {buf cs : Str}
    (h : last ∉ (c :: cs).take (d.length - 1 - buf.length)) :
    SafeNow d last c (buf ++ [c]) ∧ last ∉ cs.take (d.length - 1 - (buf ++ [c]).length) := by
  obtain ⟨k, hk⟩ : ∃ k, d.length - 1 - buf.length = k := ⟨_, rfl⟩
  rw [hk] at h
  have hk2 : d.length - 1 - (buf ++ [c]).length = k - 1 := by simp; omega
  rw [hk2]
  cases k with
  | zero =>
    refine ⟨fun _ => by simp; omega, by simp⟩
  | succ k =>
    simp only [List.take_succ_cons, List.mem_cons, not_or] at h
    refine ⟨fun e => absurd e.symm h.1, by simpa using h.2⟩

theorem readUntilLoop_found {d : Str} {last : Byte} (fin : Int) (hl : d.getLast? = some last)
    {pre rest : Str} (hcut : ¬ d <:+: pre ++ d.dropLast) :
    ∀ (cs buf : Str) (ch : Byte), buf ++ cs = pre ++ d ++ rest → buf.length ≤ (pre ++ d).length →
      (buf ++ cs).length < 2 ^ 64 → SafeNow d last ch buf → last ∉ cs.take (d.length - 1 - buf.length) →
      (ch ≠ last → ¬ d <:+ buf) →
      readUntilLoop d last fin ch buf cs = .ok (toInt32 (pre ++ d).length, pre ++ d, ⟨rest, fin⟩) := by
  have hd : d ≠ [] := by rintro rfl; simp at hl
  have stay : ∀ (cs buf : Str), buf ++ cs = pre ++ d ++ rest → buf.length ≤ (pre ++ d).length → ¬ d <:+ buf →
      buf.length < (pre ++ d).length := by
    intro cs buf he hlen hs
    apply Nat.lt_of_le_of_ne hlen
    intro e
    obtain ⟨h1, _⟩ := List.append_inj he e
    exact hs (by rw [h1]; exact List.suffix_append _ _)
  intro cs
  induction cs with
  | nil =>
    intro buf ch he hlen hf hs hsafe hch
    unfold readUntilLoop
    have hbuf : buf = pre ++ d ++ rest := by simpa using he
    have hfin : ¬ ¬ d <:+ buf := fun h => by
      have h1 := stay _ _ he hlen h
      rw [hbuf] at h1
      simp only [List.length_append] at h1
      omega
    have hsu : d <:+ buf := Classical.not_not.1 hfin
    have hc : ch = last := Classical.byContradiction fun h => hch h hsu
    have hdl := hs hc
    simp only [List.append_nil] at hf
    rw [if_pos hc, tail_check hdl hf]
    obtain ⟨h1, h2⟩ := prefix_before hcut hd he hlen hsu
    simp only [(suffix_iff_drop hdl).2 hsu, if_true]
    rw [h1, ← h2]
  | cons c cs ih =>
    intro buf ch he hlen hf hs hsafe hch
    have hstep : ¬ d <:+ buf → readUntilLoop d last fin c (buf ++ [c]) cs =
        .ok (toInt32 (pre ++ d).length, pre ++ d, ⟨rest, fin⟩) := by
      intro hns
      have := safe_step hsafe
      refine ih (buf ++ [c]) c (by simpa using he) ?_ (by simpa using hf) this.1 this.2 ?_
      · have := stay _ _ he hlen hns
        simp; simp at this; omega
      · intro hc h; exact hc (last_suffix hl h)
    unfold readUntilLoop
    by_cases hc : ch = last
    · have hdl := hs hc
      have hb : buf.length < 2 ^ 64 := by simp at hf; omega
      rw [if_pos hc, tail_check hdl hb]
      by_cases hsu : d <:+ buf
      · obtain ⟨h1, h2⟩ := prefix_before hcut hd he hlen hsu
        simp only [(suffix_iff_drop hdl).2 hsu, if_true]
        rw [h1, ← h2]
      · have : buf.drop (buf.length - d.length) ≠ d := fun e => hsu ((suffix_iff_drop hdl).1 e)
        simp only [this, if_false]
        exact hstep hsu
    · rw [if_neg hc]
      exact hstep (hch hc)

theorem readUntilLoop_none {d : Str} {last : Byte} (fin : Int) :
    ∀ (cs buf : Str) (ch : Byte), ¬ d <:+: buf ++ cs →
      (buf ++ cs).length < 2 ^ 64 → SafeNow d last ch buf → last ∉ cs.take (d.length - 1 - buf.length) →
      readUntilLoop d last fin ch buf cs = .ok (fin, buf ++ cs, ⟨[], fin⟩) := by
  intro cs
  induction cs with
  | nil =>
    intro buf ch hn hf hs hsafe
    unfold readUntilLoop
    simp only [List.append_nil] at *
    by_cases hc : ch = last
    · have hdl := hs hc
      rw [if_pos hc, tail_check hdl hf]
      have : buf.drop (buf.length - d.length) ≠ d := fun e => hn ((suffix_iff_drop hdl).1 e).isInfix
      simp only [this, if_false]
    · rw [if_neg hc]
  | cons c cs ih =>
    intro buf ch hn hf hs hsafe
    have hstep : readUntilLoop d last fin c (buf ++ [c]) cs = .ok (fin, buf ++ c :: cs, ⟨[], fin⟩) := by
      have := safe_step hsafe
      rw [ih (buf ++ [c]) c (by simpa using hn) (by simpa using hf) this.1 this.2]
      simp
    unfold readUntilLoop
    by_cases hc : ch = last
    · have hdl := hs hc
      have hb : buf.length < 2 ^ 64 := by simp at hf; omega
      rw [if_pos hc, tail_check hdl hb]
      have : buf.drop (buf.length - d.length) ≠ d := fun e =>
        hn (((suffix_iff_drop hdl).1 e).isInfix.trans (List.prefix_append _ _).isInfix)
      simp only [this, if_false]
      exact hstep
    · rw [if_neg hc]
      exact hstep

theorem readUntilLoop_total {d : Str} {last : Byte} (fin : Int) :
    ∀ (cs buf : Str) (ch : Byte),
      (buf ++ cs).length < 2 ^ 64 → SafeNow d last ch buf → last ∉ cs.take (d.length - 1 - buf.length) →
      ∃ r, readUntilLoop d last fin ch buf cs = .ok r := by
  intro cs
  induction cs with
  | nil =>
    intro buf ch hf hs hsafe
    unfold readUntilLoop
    simp only [List.append_nil] at *
    by_cases hc : ch = last
    · rw [if_pos hc, tail_check (hs hc) hf]
      simp only
      split <;> exact ⟨_, rfl⟩
    · rw [if_neg hc]; exact ⟨_, rfl⟩
  | cons c cs ih =>
    intro buf ch hf hs hsafe
    have hstep : ∃ r, readUntilLoop d last fin c (buf ++ [c]) cs = .ok r := by
      have := safe_step hsafe
      exact ih (buf ++ [c]) c (by simpa using hf) this.1 this.2
    unfold readUntilLoop
    by_cases hc : ch = last
    · have hb : buf.length < 2 ^ 64 := by simp at hf; omega
      rw [if_pos hc, tail_check (hs hc) hb]
      simp only
      split
      · exact ⟨_, rfl⟩
      · exact hstep
    · rw [if_neg hc]; exact hstep

theorem readUntilLoop_now {d : Str} {last : Byte} (fin : Int) (hd : d.length < 2 ^ 64) {buf cs : Str}
    (h : buf.length < d.length) : readUntilLoop d last fin last buf cs = .error .outOfRange := by
  unfold readUntilLoop
  cases cs <;> simp [tail_check_error h hd]

theorem readUntilLoop_throws {d : Str} {last : Byte} (fin : Int) (hd : d.length < 2 ^ 64) :
    ∀ (cs buf : Str) (ch : Byte), SafeNow d last ch buf → last ∈ cs.take (d.length - 1 - buf.length) →
      readUntilLoop d last fin ch buf cs = .error .outOfRange := by
  intro cs
  induction cs with
  | nil => intro buf ch hs hm; simp at hm
  | cons c cs ih =>
    intro buf ch hs hm
    obtain ⟨k, hk⟩ : ∃ k, d.length - 1 - buf.length = k := ⟨_, rfl⟩
    have hc : ch ≠ last := by
      intro hc
      have := hs hc
      have e : d.length - 1 - buf.length = 0 := by omega
      rw [e] at hm; simp at hm
    rw [readUntilLoop, if_neg hc]
    by_cases he : c = last
    · subst he
      apply readUntilLoop_now fin hd
      cases k with
      | zero => rw [hk] at hm; simp at hm
      | succ k => simp; omega
    · refine ih _ _ (fun e => absurd e he) ?_
      have hk2 : d.length - 1 - (buf ++ [c]).length = k - 1 := by simp; omega
      rw [hk2]
      rw [hk] at hm
      cases k with
      | zero => simp at hm
      | succ k =>
        simp only [List.take_succ_cons, List.mem_cons] at hm
        exact hm.resolve_left (Ne.symm he)

theorem cString_append (bytes : Str) (n : Nat) :
    cString (bytes ++ List.replicate (n + 1) 0) = cString bytes := by
  unfold cString
  induction bytes with
  | nil => simp [List.replicate_succ]
  | cons c cs ih =>
    simp only [List.cons_append, List.takeWhile_cons]
    rw [ih]

theorem cString_eq_self {bytes : Str} : cString bytes = bytes ↔ 0 ∉ bytes := by
  unfold cString
  induction bytes with
  | nil => simp
  | cons c cs ih =>
    by_cases hc : c = 0
    · subst hc; simp
    · simp [hc, ih, Ne.symm hc]

end Cppnet
