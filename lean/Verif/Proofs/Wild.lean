import Verif.Model.StringUtil
import Verif.Spec.Strings

namespace Cppnet
open Spec

theorem glob_append {p q s : Str} :
    Glob (p ++ q) s ↔ ∃ s1 s2, s = s1 ++ s2 ∧ Glob p s1 ∧ Glob q s2 := by
  induction p generalizing s with
  | nil =>
    constructor
    · intro h; exact ⟨[], s, by simp, Glob.nil, by simpa using h⟩
    · rintro ⟨s1, s2, rfl, h1, h2⟩; cases h1; simpa using h2
  | cons c p ih =>
    constructor
    · intro h
      rw [List.cons_append] at h
      generalize hx : c :: (p ++ q) = x at h
      cases h with
      | nil => simp at hx
      | star t h =>
        simp at hx; obtain ⟨rfl, rfl⟩ := hx
        obtain ⟨s1, s2, rfl, h1, h2⟩ := ih.1 h
        exact ⟨t ++ s1, s2, by simp, Glob.star t h1, h2⟩
      | any b h =>
        simp at hx; obtain ⟨rfl, rfl⟩ := hx
        obtain ⟨s1, s2, rfl, h1, h2⟩ := ih.1 h
        exact ⟨b :: s1, s2, by simp, Glob.any b h1, h2⟩
      | lit n1 n2 h =>
        simp at hx; obtain ⟨rfl, rfl⟩ := hx
        obtain ⟨s1, s2, rfl, h1, h2⟩ := ih.1 h
        exact ⟨c :: s1, s2, by simp, Glob.lit n1 n2 h1, h2⟩
    · rintro ⟨s1, s2, rfl, h1, h2⟩
      generalize hx : c :: p = x at h1
      cases h1 with
      | nil => simp at hx
      | star t h =>
        simp at hx; obtain ⟨rfl, rfl⟩ := hx
        have := Glob.star t (ih.2 ⟨_, _, rfl, h, h2⟩)
        simpa using this
      | any b h =>
        simp at hx; obtain ⟨rfl, rfl⟩ := hx
        have := Glob.any b (ih.2 ⟨_, _, rfl, h, h2⟩)
        simpa using this
      | lit n1 n2 h =>
        simp at hx; obtain ⟨rfl, rfl⟩ := hx
        have := Glob.lit n1 n2 (ih.2 ⟨_, _, rfl, h, h2⟩)
        simpa using this

theorem glob_nil_left {s : Str} : Glob [] s ↔ s = [] := by
  constructor
  · intro h; cases h; rfl
  · rintro rfl; exact Glob.nil

theorem glob_star_one {s : Str} : Glob [42] s := by
  have := Glob.star s Glob.nil; simpa using this

theorem glob_any_one {s : Str} : Glob [63] s ↔ ∃ b, s = [b] := by
  constructor
  · intro h
    cases h with
    | any b h => cases h; exact ⟨b, rfl⟩
    | lit _ h => exact absurd rfl h
  · rintro ⟨b, rfl⟩; exact Glob.any b Glob.nil

theorem glob_lit_one {c : Byte} {s : Str} (h1 : c ≠ 42) (h2 : c ≠ 63) : Glob [c] s ↔ s = [c] := by
  constructor
  · intro h
    cases h with
    | star => exact absurd rfl h1
    | any => exact absurd rfl h2
    | lit _ _ h => cases h; rfl
  · rintro rfl; exact Glob.lit h1 h2 Glob.nil

theorem append_singleton_eq {s1 s2 s : Str} {c : Byte} (h : s ++ [c] = s1 ++ s2) :
    (s2 = [] ∧ s1 = s ++ [c]) ∨ ∃ t, s2 = t ++ [c] ∧ s = s1 ++ t := by
  rcases List.eq_nil_or_concat s2 with rfl | ⟨t, x, rfl⟩
  · left; simpa using h.symm
  · right
    rw [List.concat_eq_append, ← List.append_assoc] at h
    obtain ⟨h1, h2⟩ := List.append_inj' h rfl
    cases h2
    exact ⟨t, by simp, h1⟩

theorem glob_snoc_star {p s : Str} {c : Byte} :
    Glob (p ++ [42]) (s ++ [c]) ↔ Glob p (s ++ [c]) ∨ Glob (p ++ [42]) s := by
  simp only [glob_append]
  constructor
  · rintro ⟨s1, s2, h, h1, h2⟩
    rcases append_singleton_eq h with ⟨rfl, rfl⟩ | ⟨t, rfl, rfl⟩
    · exact Or.inl h1
    · exact Or.inr ⟨s1, t, rfl, h1, glob_star_one⟩
  · rintro (h | ⟨s1, s2, rfl, h1, h2⟩)
    · exact ⟨s ++ [c], [], by simp, h, glob_star_one⟩
    · exact ⟨s1, s2 ++ [c], by simp, h1, glob_star_one⟩

theorem glob_snoc_any {p s : Str} {c : Byte} :
    Glob (p ++ [63]) (s ++ [c]) ↔ Glob p s := by
  simp only [glob_append, glob_any_one]
  constructor
  · rintro ⟨s1, _, h, h1, b, rfl⟩
    obtain ⟨h2, -⟩ := List.append_inj' h rfl
    rw [h2]; exact h1
  · intro h; exact ⟨s, [c], rfl, h, c, rfl⟩

theorem glob_snoc_lit {p s : Str} {c x : Byte} (h1 : x ≠ 42) (h2 : x ≠ 63) :
    Glob (p ++ [x]) (s ++ [c]) ↔ c = x ∧ Glob p s := by
  simp only [glob_append, glob_lit_one h1 h2]
  constructor
  · rintro ⟨s1, _, h, hg, rfl⟩
    obtain ⟨e1, e2⟩ := List.append_inj' h rfl
    cases e2
    rw [e1]; exact ⟨rfl, hg⟩
  · rintro ⟨rfl, h⟩; exact ⟨s, _, rfl, h, rfl⟩

/-- `row` lists, for the successive extensions of `pre` by `ps`, whether they match `s`. -/
def RowOK (s : Str) : Str → Str → List Bool → Prop
  | _, [], [] => True
  | pre, p :: ps, b :: bs => (b = true ↔ Glob (pre ++ [p]) s) ∧ RowOK s (pre ++ [p]) ps bs
  | _, _, _ => False

theorem rowOK_last {s : Str} : ∀ {pre ps row} {b : Bool}, RowOK s pre ps row → (b = true ↔ Glob pre s) →
    ((b :: row).getLastD false = true ↔ Glob (pre ++ ps) s) := by
  intro pre ps
  induction ps generalizing pre with
  | nil =>
    intro row b h hb
    cases row with
    | nil => simpa using hb
    | cons => exact h.elim
  | cons p ps ih =>
    intro row b h hb
    cases row with
    | nil => exact h.elim
    | cons x row =>
      obtain ⟨h1, h2⟩ := h
      have := ih h2 h1
      simpa using this

theorem not_glob_nil_of_nonstar {pre : Str} {p : Byte} (ps : Str) (h : p ≠ 42) :
    ¬ Glob (pre ++ p :: ps) [] := by
  rw [glob_append]
  rintro ⟨s1, s2, h0, -, h2⟩
  have : s2 = [] := by simpa using (List.nil_eq_append_iff.1 h0).2
  subst this
  generalize hx : p :: ps = x at h2
  generalize hy : ([] : Str) = y at h2
  cases h2 <;> simp_all

theorem row0_false {p : Byte} (hp : p ≠ 42) : ∀ (ps mid pre : Str),
    RowOK [] (pre ++ p :: mid) ps (List.replicate ps.length false) := by
  intro ps
  induction ps with
  | nil => intros; trivial
  | cons q ps ih =>
    intro mid pre
    refine ⟨?_, ?_⟩
    · have := not_glob_nil_of_nonstar (pre := pre) (mid ++ [q]) hp
      simpa using this
    · have := ih (mid ++ [q]) pre
      simpa using this

theorem wildRow0_ok : ∀ (ps pre : Str), Glob pre [] → RowOK [] pre ps (wildRow0 ps) := by
  intro ps
  induction ps with
  | nil => intros; trivial
  | cons p ps ih =>
    intro pre hpre
    simp only [wildRow0]
    by_cases h : p = 42
    · subst h
      have hg : Glob (pre ++ [42]) [] :=
        glob_append.2 ⟨[], [], by simp, hpre, glob_star_one⟩
      simp only [if_true]
      exact ⟨by simpa using hg, ih _ hg⟩
    · simp only [h, if_false]
      have hf := row0_false h ps [] pre
      refine ⟨?_, by simpa using hf⟩
      have := not_glob_nil_of_nonstar (pre := pre) [] h
      simpa using this

theorem wildRow_ok (c : Byte) (s : Str) : ∀ (ps pre : Str) (ups : List Bool) (left diag : Bool),
    (left = true ↔ Glob pre (s ++ [c])) → (diag = true ↔ Glob pre s) → RowOK s pre ps ups →
    RowOK (s ++ [c]) pre ps (wildRow c left diag ups ps) := by
  intro ps
  induction ps with
  | nil =>
    intro pre ups left diag _ _ h
    cases ups with
    | nil => trivial
    | cons => exact h.elim
  | cons p ps ih =>
    intro pre ups left diag hl hd h
    cases ups with
    | nil => exact h.elim
    | cons up ups =>
      obtain ⟨h1, h2⟩ := h
      simp only [wildRow]
      have key : ((if p = 42 then left || up else if p = 63 ∨ c = p then diag else false) = true ↔
          Glob (pre ++ [p]) (s ++ [c])) := by
        by_cases e1 : p = 42
        · subst e1
          simp [glob_snoc_star, hl, h1]
        · by_cases e2 : p = 63
          · subst e2
            simp [glob_snoc_any, hd]
          · rw [glob_snoc_lit e1 e2]
            by_cases e3 : c = p <;> simp [e1, e2, e3, hd]
      exact ⟨key, ih _ _ _ _ key h1 h2⟩

theorem wildRows_ok (pat : Str) : ∀ (src done : Str) (row : Bool × List Bool),
    (row.1 = true ↔ Glob [] done) → RowOK done [] pat row.2 →
    let r := wildRows pat row src
    (r.1 = true ↔ Glob [] (done ++ src)) ∧ RowOK (done ++ src) [] pat r.2 := by
  intro src
  induction src with
  | nil => intro done row h1 h2; simpa [wildRows] using ⟨h1, h2⟩
  | cons c src ih =>
    intro done row h1 h2
    have hfalse : (false = true ↔ Glob [] (done ++ [c])) := by
      simp [glob_nil_left]
    have := ih (done ++ [c]) (false, wildRow c false row.1 row.2 pat) hfalse
      (wildRow_ok c done pat [] row.2 false row.1 hfalse h1 h2)
    simpa [wildRows] using this

theorem wild_iff (pat src : Str) :
    let row := wildRows pat (true, wildRow0 pat) src
    ((row.1 :: row.2).getLastD false = true ↔ Glob pat src) := by
  have h := wildRows_ok pat src [] (true, wildRow0 pat) (by simp [glob_nil_left])
    (wildRow0_ok pat [] Glob.nil)
  have := rowOK_last h.2 h.1
  simpa using this

end Cppnet
