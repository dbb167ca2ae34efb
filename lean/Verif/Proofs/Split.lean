import Verif.Model.StringUtil
import Verif.Proofs.CppString

/-! `Split` as a recursive function and its properties. -/

namespace Cppnet
open Spec

/-- The pieces `Split` produces for a non-empty delimiter. -/
def split (d s : Str) : List Str :=
  if _h : d = [] then [s] else
  match _hf : findAux d s with
  | none => [s]
  | some i => s.take i :: split d (s.drop (i + d.length))
termination_by s.length
decreasing_by
  have := (findAux_some_split _hf).2
  have hd : d.length ≠ 0 := by simpa using _h
  simp; omega

theorem split_none {d s : Str} (h : findAux d s = none) : split d s = [s] := by
  rw [split]
  split
  · rfl
  · split <;> simp_all

theorem split_some {d s : Str} {i : Nat} (hd : d ≠ []) (h : findAux d s = some i) :
    split d s = s.take i :: split d (s.drop (i + d.length)) := by
  rw [split]
  split
  · contradiction
  · split
    · simp_all
    · rename_i h'; rw [h] at h'; cases h'; rfl

theorem split_append {d u v : Str} (hd : d ≠ []) (h : ¬ d <:+: u ++ d.dropLast) :
    split d (u ++ d ++ v) = u :: split d v := by
  rw [split_some hd (findAux_append h)]
  simp

theorem split_ne_nil (d s : Str) : split d s ≠ [] := by
  rw [split]; split
  · simp
  · split <;> simp

theorem split_byte_append {c : Byte} {u v : Str} (h : c ∉ u) :
    split [c] (u ++ c :: v) = u :: split [c] v := by
  have := split_append (d := [c]) (u := u) (v := v) (by simp) (by simpa [singleton_infix] using h)
  simpa using this

theorem split_byte_none {c : Byte} {s : Str} (h : c ∉ s) : split [c] s = [s] :=
  split_none (findAux_byte_none.2 h)

theorem split_crlf_append {u v : Str} (h : 13 ∉ u) :
    split crlf (u ++ crlf ++ v) = u :: split crlf v :=
  split_append (by simp [crlf]) (crlf_not_infix_of_no_cr h)

theorem split_crlf_none {u : Str} (h : 13 ∉ u) : split crlf u = [u] :=
  split_none (findAux_crlf_none_of_no_cr h)

/-- Strong induction principle following the cuts. -/
theorem split_induction {d : Str} (hd : d ≠ []) {P : Str → Prop}
    (none : ∀ s, ¬ d <:+: s → P s)
    (some : ∀ u v, ¬ d <:+: u ++ d.dropLast → P v → P (u ++ d ++ v)) : ∀ s, P s := by
  intro s
  generalize hn : s.length = n
  induction n using Nat.strongRecOn generalizing s with
  | _ n ih =>
    cases h : findAux d s with
    | none => exact none s (findAux_none.1 h)
    | some i =>
      obtain ⟨u, v, rfl, rfl, hu⟩ := (findAux_some_iff hd).1 h
      have hd' : d.length ≠ 0 := by simpa using hd
      exact some u v hu (ih v.length (by simp at hn; omega) v rfl)

theorem join_split {d : Str} (hd : d ≠ []) (s : Str) : joinWith d (split d s) = s := by
  refine split_induction hd (P := fun s => joinWith d (split d s) = s) ?_ ?_ s
  · intro s h; rw [split_none (findAux_none.2 h)]; rfl
  · intro u v h ih
    rw [split_append hd h]
    cases hv : split d v with
    | nil => exact absurd hv (split_ne_nil _ _)
    | cons q ps => rw [hv] at ih; simp [joinWith, ih]

theorem leftmost_split {d : Str} (hd : d ≠ []) (s : Str) : LeftmostCuts d (split d s) := by
  refine split_induction hd (P := fun s => LeftmostCuts d (split d s)) ?_ ?_ s
  · intro s h; rw [split_none (findAux_none.2 h)]; simpa [LeftmostCuts, occurs_iff_infix] using h
  · intro u v h ih
    rw [split_append hd h]
    cases hv : split d v with
    | nil => exact absurd hv (split_ne_nil _ _)
    | cons q ps =>
      rw [hv] at ih
      refine ⟨by simpa [occurs_iff_infix] using h, ih⟩

theorem clean_of_leftmost {d : Str} {ps : List Str} (h : LeftmostCuts d ps) :
    ∀ p ∈ ps, ¬ Occurs d p := by
  induction ps with
  | nil => simp
  | cons p ps ih =>
    cases ps with
    | nil => simpa [LeftmostCuts] using h
    | cons q ps =>
      obtain ⟨h1, h2⟩ := h
      intro x hx
      rcases List.mem_cons.1 hx with rfl | hx
      · intro ho
        apply h1
        rw [occurs_iff_infix] at ho ⊢
        exact ho.trans (List.prefix_append _ _).isInfix
      · exact ih h2 x hx

/-- The pieces are determined by the three conditions. -/
theorem split_unique {d : Str} (hd : d ≠ []) {ps : List Str} (h : LeftmostCuts d ps) :
    split d (joinWith d ps) = ps := by
  induction ps with
  | nil => exact absurd h (by simp [LeftmostCuts])
  | cons p ps ih =>
    cases ps with
    | nil =>
      simp only [joinWith]
      exact split_none (findAux_none.2 (by simpa [LeftmostCuts, occurs_iff_infix] using h))
    | cons q ps =>
      obtain ⟨h1, h2⟩ := h
      simp only [joinWith]
      rw [split_append hd (by simpa [occurs_iff_infix] using h1), ih h2]

theorem withDelims_flatten {d : Str} (ps : List Str) :
    (withDelims d ps).flatten = joinWith d ps := by
  induction ps with
  | nil => rfl
  | cons p ps ih =>
    cases ps with
    | nil => simp [withDelims, joinWith]
    | cons q ps => simp only [withDelims, joinWith, List.flatten_cons, ih]

theorem splitLoop_eq {d : Str} (hd : d ≠ []) (keep : Bool) (s : Str) :
    ∀ fuel pos arr, pos ≤ s.length → s.length - pos < fuel →
      splitLoop s d keep fuel pos arr =
        .ok (arr ++ if keep then withDelims d (split d (s.drop pos)) else split d (s.drop pos)) := by
  intro fuel
  induction fuel with
  | zero => intro pos arr h1 h2; omega
  | succ fuel ih =>
    intro pos arr hpos hfuel
    have hd' : d.length ≠ 0 := by simpa using hd
    simp only [splitLoop, find_eq hpos]
    cases hf : findAux d (s.drop pos) with
    | none =>
      simp [substrFrom_ok hpos, split_none hf, withDelims, bind, Except.bind]
    | some i =>
      have hl := (findAux_some_split hf).2
      simp at hl
      obtain ⟨h1, -⟩ := findAux_some_split hf
      simp only [Option.map_some, substr_ok hpos, Nat.add_sub_cancel_left]
      have hstep : ∀ arr', splitLoop s d keep fuel (pos + i + d.length) arr' =
          .ok (arr' ++ if keep then withDelims d (split d (s.drop (pos + i + d.length)))
            else split d (s.drop (pos + i + d.length))) :=
        fun arr' => ih _ _ (by omega) (by omega)
      rw [split_some hd hf, List.drop_drop, ← Nat.add_assoc]
      cases keep with
      | false => simp [bind, Except.bind, hstep]
      | true =>
        simp only [if_true, bind, Except.bind, hstep]
        cases hv : split d (s.drop (pos + i + d.length)) with
        | nil => exact absurd hv (split_ne_nil _ _)
        | cons q ps =>
          have htk : (s.drop pos).take (i + d.length) = (s.drop pos).take i ++ d := by
            conv => lhs; rw [h1]
            rw [List.take_append_of_le_length (by simp; omega), List.take_of_length_le (by simp; omega)]
          simp [withDelims, htk]

theorem Split_eq {d : Str} (hd : d ≠ []) (s : Str) (arr : List Str) :
    Split s d arr false = .ok (arr ++ split d s) := by
  simpa [Split] using splitLoop_eq hd false s (s.length + 2) 0 arr (by omega) (by omega)

theorem Split_keep_eq {d : Str} (hd : d ≠ []) (s : Str) (arr : List Str) :
    Split s d arr true = .ok (arr ++ withDelims d (split d s)) := by
  simpa [Split] using splitLoop_eq hd true s (s.length + 2) 0 arr (by omega) (by omega)

theorem splitLoop_empty (s : Str) (keep : Bool) :
    ∀ fuel pos arr, pos ≤ s.length → splitLoop s [] keep fuel pos arr = .error .diverge := by
  intro fuel
  induction fuel with
  | zero => intros; rfl
  | succ fuel ih =>
    intro pos arr hpos
    have h0 : findAux [] (s.drop pos) = some 0 := by
      cases s.drop pos <;> simp [findAux]
    simp only [splitLoop, find_eq hpos, h0, Option.map_some, substr_ok hpos]
    cases keep <;> simp [bind, Except.bind, ih _ _ hpos]

end Cppnet
