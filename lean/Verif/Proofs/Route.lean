import Verif.Model.HttpRoute
import Verif.Proofs.Header
import Verif.Proofs.Url

namespace Cppnet
open Spec

/-- What one `&`-separated item stores. -/
def paramField (it : Str) : Str × Str := (before 61 it, UrlDecode (after 61 it))

theorem before_none {c : Byte} {s : Str} (h : c ∉ s) : before c s = s := by
  unfold before
  induction s with
  | nil => rfl
  | cons x s ih =>
    have hx : (x != c) = true := by simpa using fun e => h (by simp [e])
    simp only [List.takeWhile_cons, hx, if_true]
    rw [ih (fun hh => h (by simp [hh]))]

theorem routeParams_eq (items : List Str) (m : UMap) :
    routeParams m items = .ok (m.setAll (items.map paramField)) := by
  induction items generalizing m with
  | nil => rfl
  | cons it items ih =>
    simp only [routeParams]
    by_cases h : 61 ∈ it
    · have hlen := length_cut h
      rw [find_byte_cut h]
      simp only [substr_ok (Nat.zero_le _), List.drop_zero, take_cut h, bind, Except.bind]
      rw [substrFrom_ok (by omega)]
      simp only [drop_cut h]
      rw [ih]
      rfl
    · rw [find_byte_none h]
      simp only
      rw [ih]
      simp [paramField, before_none h, after_none h, UrlDecode, urlDecodeLoop]

theorem routeParse_plain (r : HttpRoute) (s : Str) (hs : s ≠ []) (h : 63 ∉ s) :
    routeParse r s = .ok ({ r with path := s }, kSuccess) := by
  simp [routeParse, hs, find_byte_none h]

theorem routeParse_query (r : HttpRoute) (s : Str) (h : 63 ∈ s) (hl : (before 63 s).length < 2 ^ 31 - 1) :
    routeParse r s = .ok (HttpRoute.mk (before 63 s)
      (r.params.setAll ((split b!"&" (after 63 s)).map paramField)), kSuccess) := by
  have hs : s ≠ [] := by rintro rfl; simp at h
  have hlen := length_cut h
  have e1 : toInt32 (before 63 s).length = ((before 63 s).length : Int) := toInt32_small (by omega)
  have e2 : intToSize (((before 63 s).length : Int) + 1) = (before 63 s).length + 1 :=
    intToSize_ofNat (n := (before 63 s).length + 1) (by omega)
  have e3 : intToSize ((before 63 s).length : Int) = (before 63 s).length := intToSize_ofNat (by omega)
  simp only [routeParse, hs, if_false, find_byte_cut h, e1]
  rw [if_neg (by omega), if_neg (by unfold intMax; omega)]
  simp only [e2, e3]
  rw [substrFrom_ok (by omega)]
  simp only [bind, Except.bind, drop_cut h, Split_eq (d := b!"&") (by simp), List.nil_append,
    routeParams_eq, substr_ok (Nat.zero_le _), List.drop_zero, take_cut h]

/-- Joining pieces without the separator byte and splitting again. -/
theorem split_join_byte {c : Byte} {ps : List Str} (hne : ps ≠ []) (h : ∀ p ∈ ps, c ∉ p) :
    split [c] (joinWith [c] ps) = ps := by
  apply split_unique (by simp)
  induction ps with
  | nil => exact absurd rfl hne
  | cons p ps ih =>
    cases ps with
    | nil => simpa [LeftmostCuts, occurs_iff_infix, singleton_infix] using h p (by simp)
    | cons q qs =>
      refine ⟨?_, ih (by simp) (fun x hx => h x (by simp at hx ⊢; right; exact hx))⟩
      simpa [occurs_iff_infix, singleton_infix] using h p (by simp)

theorem flatten_paramText (ps : List (Str × Str)) (hne : ps ≠ []) (x : Byte) :
    (x :: (ps.map paramText).flatten).dropLast = x :: joinWith b!"&" (ps.map (fun p => p.1 ++ 61 :: p.2)) := by
  have key : (ps.map paramText).flatten = joinWith b!"&" (ps.map (fun p => p.1 ++ 61 :: p.2)) ++ [38] := by
    induction ps with
    | nil => exact absurd rfl hne
    | cons p ps ih =>
      cases ps with
      | nil => simp [joinWith, paramText]
      | cons q qs =>
        have := ih (by simp)
        simp only [List.map_cons, List.flatten_cons] at this ⊢
        rw [this]
        simp [joinWith, paramText]
  rw [key, ← List.cons_append, List.dropLast_concat]

theorem UrlEncode_join (qs : List Str) :
    UrlEncode (joinWith b!"&" qs) = joinWith b!"&" (qs.map UrlEncode) := by
  have e38 : UrlEncode b!"&" = b!"&" := by decide +kernel
  induction qs with
  | nil => rfl
  | cons q qs ih =>
    cases qs with
    | nil => rfl
    | cons r rs =>
      simp only [joinWith, List.map_cons, UrlEncode_append, e38] at ih ⊢
      rw [ih]

theorem amp_not_mem_encode {v : Str} (h : 38 ∉ v) : 38 ∉ UrlEncode v := by
  induction v with
  | nil => simp [UrlEncode]
  | cons c v ih =>
    have hb : ∀ c : Byte, c ≠ 38 → 38 ∉ urlEncodeByte c := by decide +kernel
    simp only [UrlEncode, List.mem_append, not_or]
    exact ⟨hb c (fun e => h (by simp [e])), ih (fun hh => h (by simp [hh]))⟩

end Cppnet
