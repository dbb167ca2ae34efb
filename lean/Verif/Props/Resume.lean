import Verif.Props.Socket

/-!
# C129: reading up to a delimiter, interrupted by timeouts
-/

namespace Cppnet
open Spec

/-- With no delimiter at its end, a buffer is read on in the same way whatever byte came last. -/
theorem loop_first_byte {d : Str} {last ch : Byte} {buf : Str} (fin : Int) (s : Str) (h : ¬ d <:+ buf) (hs : SafeNow d last ch buf)
    (hf : buf.length < 2 ^ 64) (h0 : last ≠ 0) : readUntilLoop d last fin ch buf s = readUntilLoop d last fin 0 buf s := by
  have h0' : ¬ (0 : Byte) = last := fun e => h0 e.symm
  by_cases hc : ch = last
  · have hdl := hs hc
    have ht : ¬ buf.drop (buf.length - d.length) = d := fun e => h ((suffix_iff_drop hdl).1 e)
    cases s with
    | nil => unfold readUntilLoop; rw [if_pos hc, tail_check hdl hf, if_neg h0']; simp [ht]
    | cons c cs => unfold readUntilLoop; rw [if_pos hc, tail_check hdl hf, if_neg h0']; simp [ht]
  · cases s with
    | nil => unfold readUntilLoop; rw [if_neg hc, if_neg h0']
    | cons c cs => unfold readUntilLoop; rw [if_neg hc, if_neg h0']

/-- Reading `a` and then `b`, if the delimiter is not complete in `a`. -/
theorem loop_split {d : Str} {last : Byte} (fin : Int) (b : Str) (h0 : last ≠ 0) :
    ∀ (a buf : Str), ¬ d <:+: buf ++ a → (buf ++ a).length < 2 ^ 64 → last ∉ a.take (d.length - 1 - buf.length) →
      readUntilLoop d last fin 0 buf (a ++ b) = readUntilLoop d last fin 0 (buf ++ a) b := by
  intro a
  induction a with
  | nil => intro buf _ _ _; simp
  | cons c cs ih =>
    intro buf hn hf hsafe
    have h0' : ¬ (0 : Byte) = last := fun e => h0 e.symm
    have st := safe_step hsafe
    have e : (buf ++ [c]) ++ cs = buf ++ c :: cs := by simp
    have := ih (buf ++ [c]) (by rw [e]; exact hn) (by rw [e]; exact hf) st.2
    rw [e] at this
    rw [← this, List.cons_append]
    conv => lhs; unfold readUntilLoop
    rw [if_neg h0']
    refine loop_first_byte fin _ (fun h => hn ?_) st.1 (by simp at hf ⊢; omega) h0
    rw [← e]
    exact h.isInfix.trans (List.prefix_append _ _).isInfix

theorem take_append_not_mem {last : Byte} {a b : Str} {n : Nat} (h : last ∉ (a ++ b).take n) :
    last ∉ a.take n ∧ last ∉ b.take (n - a.length) := by
  rw [List.take_append] at h
  simp only [List.mem_append, not_or] at h
  exact h

theorem readAgain_eq {d : Str} {last : Byte} (hl : d.getLast? = some last) (h0 : last ≠ 0) (c : Conn) :
    ∀ (pieces : List Conn) (buf : Str), (∀ p ∈ pieces, p.fin ≤ 0) → ¬ d <:+: buf ++ (pieces.map (·.input)).flatten →
      (buf ++ ((pieces.map (·.input)).flatten ++ c.input)).length < 2 ^ 64 →
      last ∉ ((pieces.map (·.input)).flatten ++ c.input).take (d.length - 1 - buf.length) →
      readAgain d (pieces ++ [c]) buf = sockReadUntil ⟨(pieces.map (·.input)).flatten ++ c.input, c.fin⟩ buf d := by
  intro pieces
  induction pieces with
  | nil => intro buf _ _ _ _; simp [readAgain]
  | cons p ps ih =>
    intro buf hfin hn hf hsafe
    have h0' : ¬ (0 : Byte) = last := fun e => h0 e.symm
    simp only [List.map_cons, List.flatten_cons, List.append_assoc] at hn hf hsafe ⊢
    obtain ⟨k1, k2⟩ := take_append_not_mem hsafe
    have hn1 : ¬ d <:+: buf ++ p.input := by
      intro h; apply hn
      rw [← List.append_assoc]
      exact h.trans (List.prefix_append _ _).isInfix
    have hf1 : (buf ++ p.input).length < 2 ^ 64 := by simp only [List.length_append] at hf ⊢; omega
    have first : sockReadUntil p buf d = .ok (p.fin, buf ++ p.input, ⟨[], p.fin⟩) := by
      unfold sockReadUntil
      rw [hl]
      exact readUntilLoop_none p.fin p.input buf 0 hn1 hf1 (fun e => absurd e h0') k1
    have hrest := ih (buf ++ p.input) (fun q hq => hfin q (by simp [hq])) (by simpa using hn) (by simpa using hf) (by
      have e : d.length - 1 - (buf ++ p.input).length = d.length - 1 - buf.length - p.input.length := by
        simp only [List.length_append]; omega
      rw [e]; exact k2)
    have hshape : ∃ q qs, ps ++ [c] = q :: qs := by cases ps <;> simp
    obtain ⟨q, qs, hq⟩ := hshape
    rw [List.cons_append, hq]
    simp only [readAgain, first, if_pos (hfin p (by simp))]
    rw [← hq, hrest]
    unfold sockReadUntil
    rw [hl]
    simp only
    exact (loop_split c.fin _ h0 p.input buf hn1 hf1 k1).symm

/-- When the last byte of the delimiter comes too early, the calls throw as well, in whichever piece it comes. -/
theorem readAgain_throws {d : Str} (hd : Fits d) (c : Conn) :
    ∀ (pieces : List Conn) (buf : Str), (∀ p ∈ pieces, p.fin ≤ 0) → ¬ d <:+: buf ++ (pieces.map (·.input)).flatten →
      Fits (buf ++ ((pieces.map (·.input)).flatten ++ c.input)) →
      EarlyEnd d buf.length ((pieces.map (·.input)).flatten ++ c.input) →
      readAgain d (pieces ++ [c]) buf = .error .outOfRange := by
  intro pieces
  induction pieces with
  | nil =>
    intro buf _ _ hf he
    simp only [List.map_nil, List.flatten_nil, List.nil_append] at hf he
    exact (C34_throws_iff_partial c buf d hd hf).1.2 he
  | cons p ps ih =>
    intro buf hfin hn hf he
    simp only [List.map_cons, List.flatten_cons, List.append_assoc] at hn hf he
    have hf1 : Fits (buf ++ p.input) := by
      unfold Fits at hf ⊢
      simp only [List.length_append] at hf ⊢; omega
    have hshape : ∃ q qs, ps ++ [c] = q :: qs := by cases ps <;> simp
    obtain ⟨q, qs, hq⟩ := hshape
    by_cases hep : EarlyEnd d buf.length p.input
    · rw [List.cons_append, hq]
      simp only [readAgain, (C34_throws_iff_partial p buf d hd hf1).1.2 hep]
    · obtain ⟨front, last, hfl, hheld, hl⟩ := he
      obtain ⟨h0, k1⟩ := not_early hep hfl hheld
      have h0' : ¬ (0 : Byte) = last := fun e => h0 e.symm
      have hmem : last ∈ (p.input ++ ((ps.map (·.input)).flatten ++ c.input)).take (d.length - 1 - buf.length) := by
        rcases hl with hl | hl
        · exact absurd hl h0
        · exact hl
      rw [List.take_append, List.mem_append] at hmem
      have k2 : last ∈ ((ps.map (·.input)).flatten ++ c.input).take (d.length - 1 - buf.length - p.input.length) := by
        rcases hmem with h | h
        · exact absurd h k1
        · exact h
      have hn1 : ¬ d <:+: buf ++ p.input := by
        intro h; apply hn
        rw [← List.append_assoc]
        exact h.trans (List.prefix_append _ _).isInfix
      have first : sockReadUntil p buf d = .ok (p.fin, buf ++ p.input, ⟨[], p.fin⟩) := by
        unfold sockReadUntil
        rw [getLast?_front hfl]
        refine readUntilLoop_none p.fin p.input buf 0 hn1 ?_ (fun e => absurd e h0') k1
        unfold Fits at hf1
        omega
      rw [List.cons_append, hq]
      simp only [readAgain, first, if_pos (hfin p (by simp))]
      rw [← hq]
      have hlen : d.length - 1 - (buf ++ p.input).length = d.length - 1 - buf.length - p.input.length := by
        simp only [List.length_append]; omega
      have hpos : 0 < d.length - 1 - buf.length - p.input.length := by
        rcases Nat.eq_zero_or_pos (d.length - 1 - buf.length - p.input.length) with h | h
        · rw [h] at k2; simp at k2
        · exact h
      refine ih (buf ++ p.input) (fun q hq => hfin q (by simp [hq])) (by simpa using hn) (by simpa using hf)
        ⟨front, last, hfl, by simp only [List.length_append]; omega, Or.inr (by rw [hlen]; exact k2)⟩

/-- C129: a stream comes in any number of pieces, after each of which the receive fails (a timeout, say), and the
delimiter is not complete before the last piece.  Calling `ReadUntil` again with the same buffer after each failure gives
in the end exactly what one call gives on the whole stream: nothing is lost or read twice, also when the delimiter itself
comes in pieces; and if the one call throws (C34), so do the calls in a row. -/
theorem C129_resumed (delim : Str) (hd : delim ≠ []) (hdf : Fits delim) (pieces : List Conn) (c : Conn)
    (hfin : ∀ p ∈ pieces, p.fin ≤ 0) (hn : ¬ Occurs delim (pieces.map (·.input)).flatten)
    (hf : Fits ((pieces.map (·.input)).flatten ++ c.input)) :
    readAgain delim (pieces ++ [c]) [] = sockReadUntil ⟨(pieces.map (·.input)).flatten ++ c.input, c.fin⟩ [] delim := by
  have hn' : ¬ delim <:+: [] ++ (pieces.map (·.input)).flatten := fun h => hn (occurs_iff_infix.2 (by simpa using h))
  by_cases hs : EarlyEnd delim 0 ((pieces.map (·.input)).flatten ++ c.input)
  · rw [readAgain_throws hdf c pieces [] hfin hn' (by simpa using hf) (by simpa using hs)]
    exact ((C34_throws_iff_partial ⟨_, c.fin⟩ [] delim hdf (by simpa using hf)).1.2 (by simpa using hs)).symm
  obtain ⟨front, last, hfl⟩ := front_of_ne_nil hd
  obtain ⟨h0, h1⟩ := not_early hs hfl (by rw [hfl]; simp)
  unfold Fits at hf
  exact readAgain_eq (getLast?_front hfl) h0 c pieces [] hfin hn'
    (by simp only [List.nil_append]; omega) (by simpa using h1)

/-- A line feed comes too early, in the second piece. -/
example : readAgain crlf2 [⟨b!"G", -1⟩, ⟨b!"\n", -1⟩, ⟨b!"ET", 0⟩] [] = .error .outOfRange ∧
    sockReadUntil ⟨b!"G\nET", 0⟩ [] crlf2 = .error .outOfRange := by decide +kernel

/-- The delimiter itself comes in three pieces. -/
example : readAgain crlf2 [⟨b!"GET / HTTP/1.1\r", -1⟩, ⟨b!"\n", -1⟩, ⟨[], -1⟩, ⟨b!"\r\nbody", 0⟩] [] =
    .ok (18, b!"GET / HTTP/1.1\r\n\r\n", ⟨b!"body", 0⟩) := by decide +kernel

end Cppnet
