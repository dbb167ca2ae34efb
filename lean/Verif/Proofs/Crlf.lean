import Verif.Spec.Http
import Verif.Proofs.Header

/-! CR LF does not overlap itself, so cutting a text at it is straightforward. -/

namespace Cppnet
open Spec

theorem crlf_ne : crlf ≠ [] := by simp [crlf]

theorem not_infix_append_cr {u : Str} (h : ¬ crlf <:+: u) : ¬ crlf <:+: u ++ crlf.dropLast := by
  rintro ⟨a, b, hab⟩
  have e : u ++ crlf.dropLast = u ++ [13] := rfl
  rw [e] at hab
  rcases List.eq_nil_or_concat b with rfl | ⟨b', x, rfl⟩
  · have := congrArg List.getLast? hab
    simp [crlf] at this
  · rw [List.concat_eq_append, ← List.append_assoc] at hab
    have := List.append_inj' hab rfl
    exact h ⟨a, b', this.1⟩

theorem find_crlf_append {u w : Str} (h : ¬ crlf <:+: u) : findAux crlf (u ++ crlf ++ w) = some u.length :=
  findAux_append (not_infix_append_cr h)

theorem split_crlf_cons {u w : Str} (h : ¬ crlf <:+: u) : split crlf (u ++ crlf ++ w) = u :: split crlf w :=
  split_append crlf_ne (not_infix_append_cr h)

theorem split_crlf_append' (u w : Str) :
    split crlf (u ++ crlf ++ w) = split crlf u ++ split crlf w := by
  refine split_induction crlf_ne
    (P := fun u => split crlf (u ++ crlf ++ w) = split crlf u ++ split crlf w) ?_ ?_ u
  · intro u h
    rw [split_crlf_cons h, split_none (findAux_none.2 h)]; rfl
  · intro a v h ih
    have e : a ++ crlf ++ v ++ crlf ++ w = a ++ crlf ++ (v ++ crlf ++ w) := by simp
    rw [e, split_append crlf_ne h, split_append crlf_ne h, ih]; rfl

theorem crlf_prefix_iff {s : Str} : crlf <+: s ↔ ∃ t, s = 13 :: 10 :: t := by
  constructor
  · rintro ⟨t, rfl⟩; exact ⟨t, rfl⟩
  · rintro ⟨t, rfl⟩; exact ⟨t, rfl⟩

theorem not_prefix_clean {u w : Str} (h : ¬ crlf <:+: u) (hne : u ≠ []) : ¬ crlf <+: u ++ crlf ++ w := by
  intro hp
  have := findAux_some.1 (find_crlf_append (w := w) h)
  exact this.2.2 0 (List.length_pos_iff.2 hne) (by simpa using hp)

theorem crlf2_prefix {s : Str} : crlf2 <+: crlf ++ s ↔ crlf <+: s := by
  constructor
  · rintro ⟨t, h⟩
    simp [crlf2, crlf] at h
    exact ⟨t, by simp [crlf, h]⟩
  · rintro ⟨t, rfl⟩; exact ⟨t, rfl⟩

/-- Where the first CRLFCRLF is, seen from the first line. -/
theorem find_crlf2_step {u w : Str} (h : ¬ crlf <:+: u) :
    findAux crlf2 (u ++ crlf ++ w) =
      if crlf.isPrefixOf w then some u.length else (findAux crlf2 w).map (· + (u.length + 2)) := by
  induction u with
  | nil =>
    simp only [List.nil_append, List.length_nil]
    have e : crlf ++ w = 13 :: (10 :: w) := rfl
    by_cases hp : crlf <+: w
    · have h1 : crlf2.isPrefixOf (13 :: 10 :: w) = true := by
        rw [List.isPrefixOf_iff_prefix, ← e]; exact crlf2_prefix.2 hp
      rw [e, findAux, if_pos h1, if_pos (List.isPrefixOf_iff_prefix.2 hp)]
    · have h1 : ¬ crlf2.isPrefixOf (13 :: 10 :: w) = true := by
        rw [List.isPrefixOf_iff_prefix, ← e]; exact fun hh => hp (crlf2_prefix.1 hh)
      have h2 : ¬ crlf2.isPrefixOf (10 :: w) = true := by
        rw [List.isPrefixOf_iff_prefix]; rintro ⟨t, ht⟩; simp [crlf2] at ht
      have h3 : ¬ crlf.isPrefixOf w = true := fun hh => hp (List.isPrefixOf_iff_prefix.1 hh)
      rw [e, findAux, if_neg h1, findAux, if_neg h2, if_neg h3, Option.map_map]
      rfl
  | cons c u ih =>
    have hu : ¬ crlf <:+: u := fun hh => h (hh.trans (List.suffix_cons c u).isInfix)
    have h1 : ¬ crlf2.isPrefixOf (c :: (u ++ crlf ++ w)) = true := by
      rw [List.isPrefixOf_iff_prefix]
      intro hp
      refine not_prefix_clean (w := w) h (by simp) ?_
      have : crlf <+: crlf2 := ⟨crlf, rfl⟩
      simpa using this.trans hp
    have e : c :: u ++ crlf ++ w = c :: (u ++ crlf ++ w) := by simp
    rw [e, findAux, if_neg h1, ih hu]
    split
    · simp
    · simp only [Option.map_map, List.length_cons]
      congr 1

/-- A header block: lines that are not empty and have no CRLF inside. -/
def CleanLines (ls : List Str) : Prop := ∀ l ∈ ls, l ≠ [] ∧ ¬ crlf <:+: l

/-- Lines, each terminated. -/
def terminated (ls : List Str) : Str := (ls.map (· ++ crlf)).flatten

theorem terminated_cons (l : Str) (ls : List Str) : terminated (l :: ls) = l ++ crlf ++ terminated ls := by
  simp [terminated]

theorem find_crlf2_block {u : Str} {ls : List Str} {body : Str} (hu : ¬ crlf <:+: u) (hl : CleanLines ls) :
    findAux crlf2 (u ++ crlf ++ (terminated ls ++ (crlf ++ body))) =
      some (u.length + (terminated ls).length) := by
  induction ls generalizing u with
  | nil =>
    rw [find_crlf2_step hu]
    simp [terminated, crlf]
  | cons l ls ih =>
    obtain ⟨h1, h2⟩ := hl l (by simp)
    rw [find_crlf2_step hu, terminated_cons, List.append_assoc (l ++ crlf)]
    rw [if_neg (fun hh => not_prefix_clean (w := terminated ls ++ (crlf ++ body)) h2 h1
      (List.isPrefixOf_iff_prefix.1 hh))]
    rw [ih h2 (fun x hx => hl x (by simp [hx]))]
    simp [crlf]; omega

theorem split_terminated {ls : List Str} (hl : CleanLines ls) (t : Str) :
    split crlf (terminated ls ++ t) = ls ++ split crlf t := by
  induction ls with
  | nil => simp [terminated]
  | cons l ls ih =>
    rw [terminated_cons, List.append_assoc, split_crlf_cons (hl l (by simp)).2,
      ih (fun x hx => hl x (by simp [hx]))]
    rfl

/-- The first piece of a beginning of CRLF… has no colon. -/
theorem head_bad (body : Str) (n : Nat) :
    ∃ p ps, split crlf ((crlf ++ body).take n) = p :: ps ∧ 58 ∉ p := by
  match n with
  | 0 => exact ⟨[], [], split_crlf_none (by simp), by simp⟩
  | 1 =>
    refine ⟨[13], [], ?_, by simp⟩
    have : (crlf ++ body).take 1 = [13] := rfl
    rw [this]
    exact split_none (findAux_none.2 (by decide))
  | n + 2 =>
    have : (crlf ++ body).take (n + 2) = [] ++ crlf ++ body.take n := by simp [crlf]
    rw [this, split_crlf_cons (by decide)]
    exact ⟨[], _, rfl, by simp⟩

theorem goodLines_stop {ls : List Str} {p : Str} {ps : List Str} (h : 58 ∉ p) :
    goodLines (ls ++ p :: ps) = goodLines ls := by
  induction ls with
  | nil => simp [goodLines, h]
  | cons l ls ih =>
    simp only [goodLines, List.cons_append, List.takeWhile_cons] at ih ⊢
    split
    · rw [ih]
    · rfl

/-- Every text with a CRLFCRLF has the shape: first line, non-empty header lines, blank line, rest. -/
theorem text_shape {s : Str} (h : crlf2 <:+: s) :
    ∃ line ls body, s = line ++ crlf ++ (terminated ls ++ (crlf ++ body)) ∧ ¬ crlf <:+: line ∧ CleanLines ls := by
  generalize hn : s.length = n
  induction n using Nat.strongRecOn generalizing s with
  | _ n ih =>
    have h1 : crlf <:+: s := List.IsInfix.trans ⟨[], crlf, rfl⟩ h
    cases hf : findAux crlf s with
    | none => exact absurd h1 (findAux_none.1 hf)
    | some i =>
      obtain ⟨u, w, rfl, rfl, hu⟩ := (findAux_some_iff crlf_ne).1 hf
      have hu' : ¬ crlf <:+: u := fun hh => hu (hh.trans (List.prefix_append _ _).isInfix)
      by_cases hp : crlf <+: w
      · obtain ⟨t, rfl⟩ := hp
        exact ⟨u, [], t, by simp [terminated], hu', by simp [CleanLines]⟩
      · have hw : crlf2 <:+: w := by
          refine Classical.byContradiction fun hh => ?_
          have h2 := find_crlf2_step (w := w) hu'
          rw [if_neg (fun hh => hp (List.isPrefixOf_iff_prefix.1 hh)), findAux_none.2 hh] at h2
          exact absurd h (findAux_none.1 h2)
        obtain ⟨line, ls, body, e, h3, h4⟩ := ih w.length (by simp [crlf] at hn; omega) hw rfl
        refine ⟨u, line :: ls, body, ?_, hu', ?_⟩
        · rw [terminated_cons]; rw [e]; simp
        · intro x hx
          rcases List.mem_cons.1 hx with rfl | hx
          · refine ⟨?_, h3⟩
            rintro rfl
            apply hp
            rw [e]; exact ⟨_, by simp; rfl⟩
          · exact h4 x hx

end Cppnet
