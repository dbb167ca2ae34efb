import Verif.Cpp.Basic
import Verif.Spec.Strings

/-! Lemmas about `find`, `substr` and friends. -/

namespace Cppnet
open Spec

theorem occurs_iff_infix {d s : Str} : Occurs d s ↔ d <:+: s := by
  constructor
  · rintro ⟨u, v, rfl⟩; exact ⟨u, v, rfl⟩
  · rintro ⟨u, v, h⟩; exact ⟨u, v, h.symm⟩

theorem findAux_some {d s : Str} {i : Nat} :
    findAux d s = some i ↔ i ≤ s.length ∧ d <+: s.drop i ∧ ∀ j < i, ¬ d <+: s.drop j := by
  induction s generalizing i with
  | nil =>
    simp only [findAux]
    by_cases h : d = []
    · subst h; simp
      constructor
      · rintro rfl; simp
      · rintro ⟨h, -⟩; exact h.symm
    · simp [h]
  | cons c s ih =>
    simp only [findAux, List.isPrefixOf_iff_prefix]
    by_cases h : d <+: c :: s
    · simp only [h, if_true, Option.some.injEq]
      constructor
      · rintro rfl; simp [h]
      · rintro ⟨_, _, h3⟩
        cases i with
        | zero => rfl
        | succ n => exact absurd h (by simpa using h3 0 (by omega))
    · simp only [h, if_false, Option.map_eq_some_iff]
      constructor
      · rintro ⟨a, ha, rfl⟩
        obtain ⟨h1, h2, h3⟩ := ih.1 ha
        refine ⟨by simp; omega, by simpa using h2, ?_⟩
        intro j hj
        cases j with
        | zero => simpa using h
        | succ n => simpa using h3 n (by omega)
      · rintro ⟨h1, h2, h3⟩
        cases i with
        | zero => simp at h2; exact absurd h2 h
        | succ n =>
          refine ⟨n, ih.2 ⟨by simp at h1; omega, by simpa using h2, ?_⟩, rfl⟩
          intro j hj
          simpa using h3 (j + 1) (by omega)

theorem findAux_none {d s : Str} : findAux d s = none ↔ ¬ d <:+: s := by
  induction s with
  | nil => simp [findAux]
  | cons c s ih =>
    simp only [findAux, List.isPrefixOf_iff_prefix, List.infix_cons_iff]
    by_cases h : d <+: c :: s
    · simp [h]
    · simp [h, ih]

theorem infix_iff_prefix_drop {d s : Str} : d <:+: s ↔ ∃ j, j ≤ s.length ∧ d <+: s.drop j := by
  constructor
  · rintro ⟨u, v, rfl⟩
    exact ⟨u.length, by simp, ⟨v, by simp⟩⟩
  · rintro ⟨j, _, hp⟩
    exact hp.isInfix.trans (List.drop_suffix j s).isInfix

theorem findAux_some_split {d s : Str} {i : Nat} (h : findAux d s = some i) :
    s = s.take i ++ d ++ s.drop (i + d.length) ∧ i + d.length ≤ s.length := by
  obtain ⟨h1, ⟨v, hv⟩, _⟩ := findAux_some.1 h
  have hl : d.length + v.length = s.length - i := by
    have := congrArg List.length hv; simpa using this
  refine ⟨?_, by omega⟩
  have : s.drop (i + d.length) = v := by
    rw [← List.drop_drop, ← hv]; simp
  rw [this, List.append_assoc, hv, List.take_append_drop]

/-- A prefix test at `j` inside `u ++ d.dropLast` is all that matters before the cut. -/
theorem prefix_drop_of_lt {d u v : Str} {j : Nat} (hj : j < u.length)
    (h : d <+: (u ++ d ++ v).drop j) : d <:+: u ++ d.dropLast := by
  rcases List.eq_nil_or_concat d with rfl | ⟨d', x, rfl⟩
  · exact List.nil_infix
  · rw [List.concat_eq_append] at h ⊢
    rw [List.dropLast_concat]
    obtain ⟨w, hw⟩ := h
    have hd : (u ++ (d' ++ [x]) ++ v).drop j = (u.drop j ++ d') ++ (x :: v) := by
      rw [List.append_assoc, List.drop_append_of_le_length (by omega)]
      simp
    rw [hd] at hw
    have hpre : (d' ++ [x]) <+: (u.drop j ++ d') := by
      refine List.prefix_of_prefix_length_le ⟨w, rfl⟩ ?_ ?_
      · rw [hw]; exact ⟨x :: v, rfl⟩
      · simp; omega
    have : u ++ d' = u.take j ++ (u.drop j ++ d') := by
      rw [← List.append_assoc, List.take_append_drop]
    rw [this]
    exact hpre.isInfix.trans (List.suffix_append _ _).isInfix

theorem findAux_append {d u v : Str} (h : ¬ d <:+: u ++ d.dropLast) :
    findAux d (u ++ d ++ v) = some u.length := by
  rw [findAux_some]
  refine ⟨by simp, ⟨v, by simp⟩, ?_⟩
  intro j hj hp
  exact h (prefix_drop_of_lt hj hp)

/-- The first occurrence of a nonempty `d` in `s`, described by a decomposition. -/
theorem findAux_some_iff {d s : Str} {i : Nat} (hd : d ≠ []) :
    findAux d s = some i ↔
      ∃ u v, s = u ++ d ++ v ∧ u.length = i ∧ ¬ d <:+: u ++ d.dropLast := by
  constructor
  · intro h
    obtain ⟨hs, hl⟩ := findAux_some_split h
    obtain ⟨h1, _, h3⟩ := findAux_some.1 h
    refine ⟨s.take i, s.drop (i + d.length), hs, by simp; omega, ?_⟩
    intro hin
    obtain ⟨j, hj, w, hw⟩ := infix_iff_prefix_drop.1 hin
    have hlen : d.length + w.length = i + (d.length - 1) - j := by
      have := congrArg List.length hw
      simp at this
      rw [this]; omega
    have hdl : d.length ≠ 0 := by simpa using hd
    have hji : j < i := by omega
    apply h3 j hji
    have h1' : (s.take i ++ d.dropLast) <+: s := by
      conv => rhs; rw [hs]
      rw [List.append_assoc]
      exact List.prefix_append_right_inj _ |>.2 ((List.dropLast_prefix d).trans (List.prefix_append _ _))
    obtain ⟨z, hz⟩ := h1'
    have : s.drop j = (s.take i ++ d.dropLast).drop j ++ z := by
      conv => lhs; rw [← hz]
      rw [List.drop_append_of_le_length hj]
    rw [this, ← hw, List.append_assoc]
    exact List.prefix_append _ _
  · rintro ⟨u, v, rfl, rfl, h⟩
    exact findAux_append h

theorem find_zero (s d : Str) : find s d = findAux d s := by
  simp [find]

theorem find_eq {s d : Str} {pos : Nat} (h : pos ≤ s.length) :
    find s d pos = (findAux d (s.drop pos)).map (pos + ·) := by
  simp [find, h]

theorem substr_ok {s : Str} {pos n : Nat} (h : pos ≤ s.length) :
    substr s pos n = .ok ((s.drop pos).take n) := by simp [substr, h]

theorem substrFrom_ok {s : Str} {pos : Nat} (h : pos ≤ s.length) :
    substrFrom s pos = .ok (s.drop pos) := by simp [substrFrom, h]

/-- A one-byte delimiter. -/
theorem singleton_infix {c : Byte} {s : Str} : [c] <:+: s ↔ c ∈ s := by
  constructor
  · rintro ⟨u, v, rfl⟩; simp
  · intro h
    obtain ⟨u, v, rfl⟩ := List.append_of_mem h
    exact ⟨u, v, by simp⟩

theorem findAux_byte_append {c : Byte} {u v : Str} (h : c ∉ u) :
    findAux [c] (u ++ c :: v) = some u.length := by
  have := findAux_append (d := [c]) (u := u) (v := v) (by simpa [singleton_infix] using h)
  simpa using this

theorem findAux_byte_none {c : Byte} {s : Str} : findAux [c] s = none ↔ c ∉ s := by
  rw [findAux_none, singleton_infix]

theorem findAux_byte_some {c : Byte} {s : Str} {i : Nat} (h : findAux [c] s = some i) :
    ∃ v, s = s.take i ++ c :: v ∧ c ∉ s.take i ∧ i < s.length ∧ s.drop (i + 1) = v := by
  obtain ⟨u, v, rfl, rfl, hn⟩ := (findAux_some_iff (by simp)).1 h
  refine ⟨v, by simp, by simpa [singleton_infix] using hn, by simp, by simp⟩

theorem mem_infix {d s : Str} {x : Byte} (hx : x ∈ d) (h : d <:+: s) : x ∈ s := h.subset hx

theorem findLast_none {b : Byte} {s : Str} : findLast b s = none ↔ b ∉ s := by
  induction s with
  | nil => simp [findLast]
  | cons c s ih =>
    simp only [findLast]
    cases h : findLast b s with
    | some i =>
      have : b ∈ s := by
        have := mt ih.2; simp only [h, Classical.not_not] at this; exact this (by simp)
      simp [this]
    | none =>
      have := ih.1 h
      by_cases hc : c = b
      · simp [hc]
      · simp [hc, this, Ne.symm hc]

theorem findLast_some {b : Byte} {s : Str} {i : Nat} (h : findLast b s = some i) :
    s = s.take i ++ b :: s.drop (i + 1) ∧ b ∉ s.drop (i + 1) ∧ i < s.length := by
  induction s generalizing i with
  | nil => simp [findLast] at h
  | cons c s ih =>
    simp only [findLast] at h
    cases hs : findLast b s with
    | some j =>
      rw [hs] at h; simp at h; subst h
      obtain ⟨h1, h2, h3⟩ := ih hs
      refine ⟨?_, by simpa using h2, by simp; omega⟩
      simp; exact h1
    | none =>
      rw [hs] at h
      by_cases hc : c = b
      · simp [hc] at h; subst h; subst hc
        simp; exact findLast_none.1 hs
      · simp [hc] at h

theorem findFirstNotOf_none {b : Byte} {s : Str} :
    findFirstNotOf b s = none ↔ ∀ c ∈ s, c = b := by
  induction s with
  | nil => simp [findFirstNotOf]
  | cons c s ih =>
    simp only [findFirstNotOf]
    by_cases h : c = b <;> simp [h, ih]

theorem findFirstNotOf_some {b : Byte} {s : Str} {i : Nat} :
    findFirstNotOf b s = some i ↔ ∃ c v, s = List.replicate i b ++ c :: v ∧ c ≠ b := by
  induction s generalizing i with
  | nil => simp [findFirstNotOf]
  | cons x s ih =>
    simp only [findFirstNotOf]
    by_cases h : x = b
    · simp only [h, if_true, Option.map_eq_some_iff]
      constructor
      · rintro ⟨a, ha, rfl⟩
        obtain ⟨c, v, hs, hc⟩ := ih.1 ha
        exact ⟨c, v, by simp [List.replicate_succ, hs], hc⟩
      · rintro ⟨c, v, hs, hc⟩
        cases i with
        | zero => simp at hs; exact absurd hs.1.symm hc
        | succ n =>
          simp [List.replicate_succ] at hs
          exact ⟨n, ih.2 ⟨c, v, hs, hc⟩, rfl⟩
    · simp only [h, if_false, Option.some.injEq]
      constructor
      · rintro rfl; exact ⟨x, s, by simp, h⟩
      · rintro ⟨c, v, hs, hc⟩
        cases i with
        | zero => rfl
        | succ n => simp [List.replicate_succ] at hs; exact absurd hs.1 h

/-- CRLF lemmas: a text without CR followed by CRLF. -/
theorem crlf_not_infix_of_no_cr {u : Str} (h : 13 ∉ u) : ¬ crlf <:+: u ++ crlf.dropLast := by
  intro hin
  obtain ⟨a, b, hab⟩ := hin
  have : (u ++ crlf.dropLast) = u ++ [13] := rfl
  rw [this] at hab
  simp only [crlf, List.append_assoc, List.cons_append, List.nil_append] at hab
  rcases List.append_eq_append_iff.1 hab with ⟨as, h1, h2⟩ | ⟨bs, h1, h2⟩
  · subst h1
    cases as with
    | nil => simp at h2
    | cons x xs => simp at h2; obtain ⟨rfl, -⟩ := h2; simp at h
  · cases bs with
    | nil => simp at h2
    | cons x xs => simp at h2

theorem findAux_crlf_append {u v : Str} (h : 13 ∉ u) :
    findAux crlf (u ++ crlf ++ v) = some u.length :=
  findAux_append (crlf_not_infix_of_no_cr h)

theorem findAux_crlf_none_of_no_cr {u : Str} (h : 13 ∉ u) : findAux crlf u = none := by
  rw [findAux_none]; intro hin; exact h (mem_infix (by simp [crlf]) hin)

end Cppnet
