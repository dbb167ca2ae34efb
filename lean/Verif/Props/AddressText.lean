import Verif.Spec.AddressText
import Verif.Props.Address

/-!
# C156: which texts `Address::Init` understands

`Spec/AddressText.lean` has the notation; here the parser of `inet_addr` is proved to accept exactly it.
-/

namespace Cppnet
open Spec

theorem digitIs_fin : ∀ (c : Fin 256) (v : Fin 16),
    (b!"0123456789abcdef"[v.val]? = some (UInt8.ofNat c.val) ∨ b!"0123456789ABCDEF"[v.val]? = some (UInt8.ofNat c.val)) ↔
      digitVal (UInt8.ofNat c.val) = some v.val := by decide +kernel

theorem digitVal_lt_fin : ∀ (c : Fin 256), (digitVal (UInt8.ofNat c.val)).all (· < 16) = true := by decide +kernel

theorem ofNat_toNat_byte (c : Byte) : UInt8.ofNat c.toNat = c := by simp

theorem digitVal_lt {c : Byte} {v : Nat} (h : digitVal c = some v) : v < 16 := by
  have h1 := digitVal_lt_fin ⟨c.toNat, c.toNat_lt⟩
  simp only [ofNat_toNat_byte, h] at h1
  simpa using h1

theorem digitIs_iff {c : Byte} {v : Nat} : DigitIs c v ↔ digitVal c = some v := by
  by_cases hv : v < 16
  · have h1 := digitIs_fin ⟨c.toNat, c.toNat_lt⟩ ⟨v, hv⟩
    simp only [ofNat_toNat_byte] at h1
    exact h1
  · constructor
    · intro h
      unfold DigitIs at h
      rw [List.getElem?_eq_none (by simpa using hv), List.getElem?_eq_none (by simpa using hv)] at h
      simp at h
    · intro h; exact absurd (digitVal_lt h) hv

/-- The parser goes on from the value of the digits before. -/
theorem numBase_digits {base : Nat} {t : Str} {n : Nat} (h : Digits base t n) :
    ∀ s, numBase base 0 (t ++ s) = numBase base n s := by
  induction h with
  | nil => intro s; rfl
  | snoc _ hd hv ih =>
    intro s
    rw [List.append_assoc, ih]
    simp only [List.cons_append, List.nil_append, numBase, digitIs_iff.1 hd, if_pos hv]

theorem numBase_read {base : Nat} : ∀ (s u : Str) (acc n : Nat) (rest : Str), Digits base u acc →
    numBase base acc s = (n, rest) → ∃ t, s = t ++ rest ∧ Digits base (u ++ t) n
  | [], u, acc, n, rest, hu, h => by
    simp only [numBase, Prod.mk.injEq] at h
    exact ⟨[], by simp [← h.2], by simpa [← h.1] using hu⟩
  | c :: s, u, acc, n, rest, hu, h => by
    have stop : (acc, c :: s) = (n, rest) → ∃ t, c :: s = t ++ rest ∧ Digits base (u ++ t) n := by
      intro h
      simp only [Prod.mk.injEq] at h
      exact ⟨[], by simp [← h.2], by simpa [← h.1] using hu⟩
    simp only [numBase] at h
    cases hv : digitVal c with
    | none => rw [hv] at h; exact stop h
    | some v =>
      rw [hv] at h
      dsimp only at h
      by_cases hb : v < base
      · rw [if_pos hb] at h
        obtain ⟨t, h1, h2⟩ := numBase_read s (u ++ [c]) _ n rest (.snoc hu (digitIs_iff.2 hv) hb) h
        exact ⟨c :: t, by rw [h1]; rfl, by simpa using h2⟩
      · rw [if_neg hb] at h; exact stop h

/-- The text goes on with something that is no digit, or not at all. -/
def Stops (s : Str) : Prop := s = [] ∨ ∃ d r, s = d :: r ∧ digitVal d = none ∧ d ≠ 120 ∧ d ≠ 88

theorem numBase_stops {base n : Nat} {s : Str} (h : Stops s) : numBase base n s = (n, s) := by
  rcases h with rfl | ⟨d, r, rfl, h, _, _⟩
  · rfl
  · simp [numBase, h]

theorem digits_head {base : Nat} {t : Str} {n : Nat} (h : Digits base t n) : ∀ c ∈ t, ∃ v, digitVal c = some v ∧ v < base := by
  induction h with
  | nil => simp
  | snoc _ hd hv ih =>
    intro c hc
    rcases List.mem_append.1 hc with hc | hc
    · exact ih c hc
    · simp only [List.mem_singleton] at hc
      exact ⟨_, by rw [hc]; exact digitIs_iff.1 hd, hv⟩

theorem dec_isDigit_fin : ∀ (c : Fin 256), (digitVal (UInt8.ofNat c.val)).any (· < 10) = isDigit (UInt8.ofNat c.val) := by
  decide +kernel

theorem dec_isDigit (c : Byte) : (digitVal c).any (· < 10) = isDigit c := by
  have h1 := dec_isDigit_fin ⟨c.toNat, c.toNat_lt⟩
  simpa only [ofNat_toNat_byte] using h1

/-- `strtoul` reads a numeral that is followed by something else. -/
theorem strtoul_numeral {t : Str} {n : Nat} (h : Numeral t n) {rest : Str} (hr : Stops rest) :
    (∃ c s, t = c :: s ∧ isDigit c = true) ∧ strtoul0 (t ++ rest) = (n, rest) := by
  rcases h with ⟨hne, h0, hd⟩ | ⟨u, rfl, hd⟩ | ⟨u, ht, hne, hd⟩
  · cases t with
    | nil => simp at hne
    | cons c s =>
      have hc : c ≠ 48 := by simpa using h0
      obtain ⟨v, hv, hlt⟩ := digits_head hd c (by simp)
      refine ⟨⟨c, s, rfl, ?_⟩, ?_⟩
      · rw [← dec_isDigit, hv]; simpa using hlt
      · have : strtoul0 (c :: s ++ rest) = numBase 10 0 (c :: s ++ rest) := by
          simp only [List.cons_append]
          unfold strtoul0
          split
          · simp_all
          · simp_all
          · rfl
        rw [this, numBase_digits hd, numBase_stops hr]
  · refine ⟨⟨48, u, rfl, by decide⟩, ?_⟩
    have h8 : numBase 8 0 (48 :: (u ++ rest)) = (n, rest) := by
      have : numBase 8 0 (48 :: (u ++ rest)) = numBase 8 0 (u ++ rest) := rfl
      rw [this, numBase_digits hd, numBase_stops hr]
    have : strtoul0 (48 :: (u ++ rest)) = numBase 8 0 (48 :: (u ++ rest)) := by
      unfold strtoul0
      split
      · rename_i x h r heq
        have hx : ¬ (x = 120 ∨ x = 88) := by
          have heq : u ++ rest = x :: h :: r := by simpa using heq
          cases u with
          | nil =>
            rcases hr with rfl | ⟨d, r', rfl, _, h1, h2⟩
            · simp at heq
            · simp only [List.nil_append, List.cons.injEq] at heq
              rw [← heq.1]; simp [h1, h2]
          | cons y u =>
            simp only [List.cons_append, List.cons.injEq] at heq
            obtain ⟨v, hv, _⟩ := digits_head hd y (by simp)
            rw [← heq.1]
            rintro (h | h) <;> rw [h] at hv <;> revert hv <;> decide +revert
        rw [if_neg (fun h => hx h.1)]
      · rfl
      · simp_all
    exact this.trans h8
  · obtain ⟨x, hx, rfl⟩ : ∃ x : Byte, (x = 120 ∨ x = 88) ∧ t = 48 :: x :: u := by
      rcases ht with rfl | rfl
      · exact ⟨120, .inl rfl, rfl⟩
      · exact ⟨88, .inr rfl, rfl⟩
    refine ⟨⟨48, x :: u, rfl, by decide⟩, ?_⟩
    cases u with
    | nil => simp at hne
    | cons y u =>
      obtain ⟨v, hv, _⟩ := digits_head hd y (by simp)
      have : strtoul0 (48 :: x :: y :: (u ++ rest)) = numBase 16 0 (y :: (u ++ rest)) := by
        simp only [strtoul0]
        rw [if_pos ⟨hx, by rw [hv]; rfl⟩]
      have h2 := numBase_digits hd rest
      simp only [List.cons_append] at this h2 ⊢
      rw [this, h2, numBase_stops hr]

/-- What `strtoul` reads is a numeral. -/
theorem strtoul_read {c : Byte} {s : Str} (hc : isDigit c = true) {n : Nat} {rest : Str} (h : strtoul0 (c :: s) = (n, rest)) :
    ∃ t, c :: s = t ++ rest ∧ Numeral t n := by
  have oct : ∀ s, numBase 8 0 (48 :: s) = (n, rest) → ∃ t, 48 :: s = t ++ rest ∧ Numeral t n := by
    intro s h
    have h : numBase 8 0 s = (n, rest) := h
    obtain ⟨t, h1, h2⟩ := numBase_read s [] 0 n rest .nil h
    exact ⟨48 :: t, by rw [h1]; rfl, .inr (.inl ⟨t, rfl, by simpa using h2⟩)⟩
  unfold strtoul0 at h
  split at h
  · rename_i x y r heq
    split at h
    · rename_i hx
      obtain ⟨t, h1, h2⟩ := numBase_read (y :: r) [] 0 n rest .nil h
      refine ⟨48 :: x :: t, by rw [heq, h1]; rfl, .inr (.inr ⟨t, ?_, ?_, by simpa using h2⟩)⟩
      · rcases hx.1 with rfl | rfl
        · exact .inl rfl
        · exact .inr rfl
      · rintro rfl
        simp only [List.nil_append] at h1
        obtain ⟨v, hv⟩ := Option.isSome_iff_exists.1 hx.2
        have hrest := h1
        simp only [numBase, hv, if_pos (digitVal_lt hv)] at h
        obtain ⟨t, e1, _⟩ := numBase_read r [y] v n rest (by simpa using Digits.snoc .nil (digitIs_iff.2 hv) (digitVal_lt hv)) (by simpa using h)
        rw [← hrest] at e1
        have := congrArg List.length e1
        simp at this
        omega
    · rw [heq] at h ⊢; exact oct _ h
  · rename_i r _ heq
    rw [heq] at h ⊢; exact oct _ h
  · rename_i h1 h2
    have hc48 : c ≠ 48 := by
      intro hc; subst hc
      exact h2 s rfl
    obtain ⟨t, e1, e2⟩ := numBase_read (c :: s) [] 0 n rest .nil h
    refine ⟨t, e1, .inl ⟨?_, ?_, by simpa using e2⟩⟩
    · rintro rfl
      simp only [List.nil_append] at e1
      have hd := dec_isDigit c
      rw [hc] at hd
      cases hv : digitVal c with
      | none => rw [hv] at hd; simp at hd
      | some v =>
        rw [hv] at hd
        simp only [Option.any_some, decide_eq_true_eq] at hd
        simp only [numBase, hv, if_pos hd] at h
        obtain ⟨t, e3, _⟩ := numBase_read s [c] v n rest (by simpa using Digits.snoc .nil (digitIs_iff.2 hv) hd) (by simpa using h)
        rw [← e1] at e3
        have := congrArg List.length e3
        simp at this
        omega
    · cases t with
      | nil => simp
      | cons d t =>
        simp only [List.cons_append, List.cons.injEq] at e1
        rw [← e1.1]; simpa using hc48

/-- The number that the values of the parts stand for. -/
def comb : Nat → List Nat → Nat → Nat
  | k + 1, a :: qs, v => a * 256 ^ k + comb k qs v
  | _, _, v => v

theorem space_stops {tail : Str} (h : Trailer tail) : Stops tail := by
  rcases h with rfl | ⟨d, r, rfl, h⟩
  · exact .inl rfl
  · refine .inr ⟨d, r, rfl, ?_⟩
    simp only [List.mem_cons, List.not_mem_nil, or_false] at h
    rcases h with rfl | rfl | rfl | rfl | rfl | rfl <;> decide

theorem space_fin : ∀ (c : Fin 256), isSpace (UInt8.ofNat c.val) = decide (UInt8.ofNat c.val ∈ [(32 : Byte), 9, 10, 11, 12, 13]) := by
  decide +kernel

theorem space_iff (c : Byte) : isSpace c = true ↔ c ∈ [(32 : Byte), 9, 10, 11, 12, 13] := by
  have h1 := space_fin ⟨c.toNat, c.toNat_lt⟩
  simp only [ofNat_toNat_byte] at h1
  rw [h1, decide_eq_true_eq]

theorem pow_le_32 {k : Nat} (h : k ≤ 4) : 256 ^ k ≤ 4294967296 := by
  have : k = 0 ∨ k = 1 ∨ k = 2 ∨ k = 3 ∨ k = 4 := by omega
  rcases this with rfl | rfl | rfl | rfl | rfl <;> decide

/-- The parser accepts the notation. -/
theorem inetLoop_parts {k : Nat} {s : Str} {n : Nat} (h : Parts k s n) : ∀ parts : List Nat, parts.length + k = 4 → 0 < k →
    ∃ qs v, inetLoop k parts s = some (parts ++ qs, v) ∧ qs.length < k ∧ v < 256 ^ (k - qs.length) ∧ n = comb k qs v ∧
      ∀ q ∈ qs, q < 256 := by
  induction h with
  | @last k t tail v ht hv htail =>
    intro parts hp hk
    obtain ⟨⟨c, s, rfl, hc⟩, hs⟩ := strtoul_numeral ht (space_stops htail)
    obtain ⟨k, rfl⟩ : ∃ m, k = m + 1 := ⟨k - 1, by omega⟩
    have hle := pow_le_32 (k := k + 1) (by omega)
    refine ⟨[], v, ?_, hk, by simpa using hv, rfl, by simp⟩
    simp only [List.cons_append] at hs ⊢
    simp only [inetLoop, hc, if_true, hs, List.append_nil]
    rw [if_neg (by omega)]
    rcases htail with rfl | ⟨d, r, rfl, hd⟩
    · rfl
    · have hsp := (space_iff d).2 hd
      have hne : d ≠ 46 := by rintro rfl; revert hd; decide
      split
      · rfl
      · simp_all
      · simp_all
  | @dot k t rest a v ht ha hk0 _ ih =>
    intro parts hp hk
    obtain ⟨⟨c, s, rfl, hc⟩, hs⟩ := strtoul_numeral ht (rest := 46 :: rest) (.inr ⟨46, rest, rfl, by decide, by decide, by decide⟩)
    obtain ⟨qs, w, h1, h2, h3, h4, h5⟩ := ih (parts ++ [a]) (by simp; omega) hk0
    refine ⟨a :: qs, w, ?_, by simpa using h2, by simpa using h3, by simp [comb, h4], by simpa using ⟨ha, h5⟩⟩
    have e : c :: s ++ b!"." ++ rest = c :: (s ++ 46 :: rest) := by simp
    simp only [List.cons_append] at hs
    rw [e]
    simp only [inetLoop, hc, if_true, hs]
    rw [if_neg (by omega), if_neg (by omega), h1]
    simp

/-- What the parser accepts is the notation, but for the size of the last number. -/
theorem inetLoop_read : ∀ (k : Nat) (parts : List Nat) (s : Str) (res : List Nat) (v : Nat), parts.length + k = 4 →
    inetLoop k parts s = some (res, v) → ∃ qs, res = parts ++ qs ∧ qs.length < k ∧ (∀ q ∈ qs, q < 256) ∧ v < 4294967296 ∧
      (v < 256 ^ (k - qs.length) → Parts k s (comb k qs v))
  | 0, _, _, _, _, _, h => by simp [inetLoop] at h
  | k + 1, _, [], _, _, _, h => by simp [inetLoop] at h
  | k + 1, parts, c :: s, res, v, hp, h => by
    simp only [inetLoop] at h
    by_cases hc : isDigit c = true
    · rw [if_pos hc] at h
      obtain ⟨val, rest, hs⟩ : ∃ val rest, strtoul0 (c :: s) = (val, rest) := ⟨_, _, rfl⟩
      rw [hs] at h
      obtain ⟨t, ht, hn⟩ := strtoul_read hc hs
      dsimp only at h
      by_cases hv : 0xffffffff < val
      · simp [hv] at h
      rw [if_neg hv] at h
      rw [ht]
      have stop : Trailer rest → some (parts, val) = some (res, v) → ∃ qs, res = parts ++ qs ∧ qs.length < k + 1 ∧
          (∀ q ∈ qs, q < 256) ∧ v < 4294967296 ∧ (v < 256 ^ (k + 1 - qs.length) → Parts (k + 1) (t ++ rest) (comb (k + 1) qs v)) := by
        intro htr e
        simp only [Option.some.injEq, Prod.mk.injEq] at e
        obtain ⟨rfl, rfl⟩ := e
        exact ⟨[], by simp, by simp, by simp, by omega, fun hlt => by simpa [comb] using Parts.last hn (by simpa using hlt) htr⟩
      split at h
      · exact stop (.inl rfl) h
      · rename_i r
        split at h
        · simp at h
        · rename_i hx
          obtain ⟨qs, h1, h2, h3, h4, h5⟩ := inetLoop_read k (parts ++ [val]) r res v (by simp; omega) h
          refine ⟨val :: qs, by simp [h1], by simpa using h2, by simpa using ⟨by omega, h3⟩, h4, fun hlt => ?_⟩
          have hk : 0 < k := by omega
          have := Parts.dot hn (by omega) hk (h5 (by simpa using hlt))
          simpa [comb] using this
      · rename_i d r _
        split at h
        · rename_i hsp
          exact stop (.inr ⟨d, r, rfl, (space_iff d).1 hsp⟩) h
        · simp at h
    · simp [hc] at h

/-- The four bytes of a number. -/
theorem bytes_quad (n : Nat) (h : n < 256 ^ 4) : DottedQuad (inetNtoa ⟨n / 2 ^ 24, n / 2 ^ 16 % 256, n / 2 ^ 8 % 256, n % 256⟩)
    (n / 2 ^ 24) (n / 2 ^ 16 % 256) (n / 2 ^ 8 % 256) (n % 256) :=
  dottedQuad_iff.2 ⟨by omega, by omega, by omega, by omega, rfl⟩

/-- A text in the notation is stored as its number. -/
theorem inetAddr_text {s : Str} {n : Nat} (h : AddressText s n) :
    inetAddr s = ⟨n / 2 ^ 24, n / 2 ^ 16 % 256, n / 2 ^ 8 % 256, n % 256⟩ ∧ n < 256 ^ 4 := by
  obtain ⟨qs, v, h1, h2, h3, h4, h5⟩ := inetLoop_parts h [] rfl (by decide)
  unfold inetAddr
  rw [h1]
  match qs, h2, h3, h4, h5 with
  | [], _, h3, h4, _ =>
    simp only [List.length_nil, comb] at h3 h4
    subst h4
    exact ⟨rfl, h3⟩
  | [x], _, h3, h4, h5 =>
    simp only [List.length_cons, List.length_nil, comb] at h3 h4
    have hx := h5 x (by simp)
    subst h4
    simp only [List.nil_append]
    rw [if_neg (by omega)]
    simp only [Ip.mk.injEq]
    omega
  | [x, y], _, h3, h4, h5 =>
    simp only [List.length_cons, List.length_nil, comb] at h3 h4
    have hx := h5 x (by simp)
    have hy := h5 y (by simp)
    subst h4
    simp only [List.nil_append]
    rw [if_neg (by omega)]
    simp only [Ip.mk.injEq]
    omega
  | [x, y, z], _, h3, h4, h5 =>
    simp only [List.length_cons, List.length_nil, comb] at h3 h4
    have hx := h5 x (by simp)
    have hy := h5 y (by simp)
    have hz := h5 z (by simp)
    subst h4
    simp only [List.nil_append]
    rw [if_neg (by omega)]
    simp only [Ip.mk.injEq]
    omega

/-- Every other text is rejected. -/
theorem inetAddr_other {s : Str} (h : ∀ n, ¬ AddressText s n) : inetAddr s = ipNone := by
  unfold inetAddr
  split
  · rfl
  · rename_i v heq
    obtain ⟨qs, h1, h2, _, h4, h5⟩ := inetLoop_read 4 [] _ _ _ rfl heq
    cases h1
    exact absurd (h5 (by simpa using h4)) (h _)
  · rename_i x v heq
    split
    · rfl
    · obtain ⟨qs, h1, h2, _, h4, h5⟩ := inetLoop_read 4 [] _ _ _ rfl heq
      cases h1
      exact absurd (h5 (by simp; omega)) (h _)
  · rename_i x y v heq
    split
    · rfl
    · obtain ⟨qs, h1, h2, _, h4, h5⟩ := inetLoop_read 4 [] _ _ _ rfl heq
      cases h1
      exact absurd (h5 (by simp; omega)) (h _)
  · rename_i x y z v heq
    split
    · rfl
    · obtain ⟨qs, h1, h2, _, h4, h5⟩ := inetLoop_read 4 [] _ _ _ rfl heq
      cases h1
      exact absurd (h5 (by simp; omega)) (h _)
  · rfl

/-- C156: `Init` succeeds on every text.  A text in the numbers-and-dots notation (one to four numbers, decimal, octal
or hexadecimal, the last one filling the bytes that are left) is stored as the address it stands for; every other text is
stored as 255.255.255.255.  `GetIP` then gives the address as a dotted quad. -/
theorem C156_notation (s : Str) (port : UInt16) :
    (addressInit s port).2 = 0 ∧
    (∀ n, AddressText s n → DottedQuad (addressIP (addressInit s port).1) (n / 2 ^ 24) (n / 2 ^ 16 % 256) (n / 2 ^ 8 % 256) (n % 256)) ∧
    ((∀ n, ¬ AddressText s n) → addressIP (addressInit s port).1 = b!"255.255.255.255") := by
  refine ⟨rfl, fun n h => ?_, fun h => ?_⟩
  · obtain ⟨h1, h2⟩ := inetAddr_text h
    simp only [addressIP, addressInit, h1]
    exact bytes_quad n h2
  · simp only [addressIP, addressInit, inetAddr_other h]
    decide +kernel

/-- C156: a text stands for at most one address, and the stored address always reads back as itself: writing out what
`GetIP` gives and reading it again changes nothing. -/
theorem C156_stable (s : Str) (port : UInt16) :
    (∀ n m, AddressText s n → AddressText s m → n = m) ∧
    (addressInit (addressIP (addressInit s port).1) port).1 = (addressInit s port).1 := by
  constructor
  · intro n m hn hm
    obtain ⟨h1, h2⟩ := inetAddr_text hn
    obtain ⟨h3, h4⟩ := inetAddr_text hm
    rw [h1] at h3
    simp only [Ip.mk.injEq] at h3
    omega
  · have key : ∃ n, n < 256 ^ 4 ∧ inetAddr s = ⟨n / 2 ^ 24, n / 2 ^ 16 % 256, n / 2 ^ 8 % 256, n % 256⟩ := by
      by_cases h : ∃ n, AddressText s n
      · obtain ⟨n, h⟩ := h
        exact ⟨n, (inetAddr_text h).2, (inetAddr_text h).1⟩
      · exact ⟨4294967295, by decide, by rw [inetAddr_other (fun n hn => h ⟨n, hn⟩)]; decide⟩
    obtain ⟨n, hn, h⟩ := key
    simp only [addressInit, addressIP, h]
    rw [inetAddr_quad (bytes_quad n hn)]

/-- `0x7f.1`: hexadecimal, and the last number fills three bytes. -/
example : AddressText b!"0x7f.1" (127 * 2 ^ 24 + 1) := by
  have h7 : Digits 16 b!"7f" 127 := .snoc (v := 15) (.snoc (v := 7) .nil (by unfold DigitIs; decide) (by decide)) (by unfold DigitIs; decide) (by decide)
  have h1 : Digits 10 b!"1" 1 := .snoc (v := 1) .nil (by unfold DigitIs; decide) (by decide)
  have hl : Parts 3 (b!"1" ++ []) 1 := .last (.inl ⟨by decide, by decide, h1⟩) (by decide) (.inl rfl)
  exact .dot (k := 3) (t := b!"0x7f") (.inr (.inr ⟨b!"7f", .inl rfl, by decide, h7⟩)) (by decide) (by decide) hl

/-- A number too large for its place is no address. -/
example : ∀ n, ¬ AddressText b!"1.2.3.256" n := by
  intro n h
  have h1 := (inetAddr_text h).1
  have h2 := (inetAddr_text h).2
  have h3 : inetAddr b!"1.2.3.256" = ipNone := by decide +kernel
  rw [h3] at h1
  simp only [ipNone, Ip.mk.injEq] at h1
  obtain ⟨qs, v, e1, e2, e3, e4, e5⟩ := inetLoop_parts h [] rfl (by decide)
  have e6 : inetLoop 4 [] (b!"1.2.3.256".takeWhile (· != 0)) = some ([1, 2, 3], 256) := by decide +kernel
  rw [e6] at e1
  simp only [List.nil_append, Option.some.injEq, Prod.mk.injEq] at e1
  obtain ⟨rfl, rfl⟩ := e1
  revert e3; decide

example : inetAddr b!"0x7f.1" = ⟨127, 0, 0, 1⟩ ∧ inetAddr b!"1.2.3.256" = ipNone ∧ inetAddr b!"010.0.0.1 x" = ⟨8, 0, 0, 1⟩ := by
  decide +kernel

end Cppnet
