import Verif.Proofs.Split
import Verif.Proofs.Url
import Verif.Proofs.Wild

/-!
# C01–C07: the string utilities
-/

namespace Cppnet
open Spec

/-- C01: for a non-empty delimiter, `Split` appends a non-empty list of pieces whose joining is
the input, none of which contains the delimiter, cut at the leftmost places. -/
theorem C01_split (s d : Str) (arr : List Str) (hd : d ≠ []) :
    ∃ ps, Split s d arr false = .ok (arr ++ ps) ∧ ps ≠ [] ∧ joinWith d ps = s ∧
      LeftmostCuts d ps ∧ ∀ p ∈ ps, ¬ Occurs d p :=
  ⟨split d s, Split_eq hd s arr, split_ne_nil _ _, join_split hd s, leftmost_split hd s,
    clean_of_leftmost (leftmost_split hd s)⟩

/-- C01: these conditions leave only one list of pieces, so `C01_split` determines the result. -/
theorem C01_split_unique (d : Str) (hd : d ≠ []) (ps qs : List Str) (h : joinWith d ps = joinWith d qs)
    (hp : LeftmostCuts d ps) (hq : LeftmostCuts d qs) : ps = qs := by
  rw [← split_unique hd hp, ← split_unique hd hq, h]

/-- C01: with `keep_delimiter` the concatenation of the pieces is the input; the pieces are the
ones without `keep_delimiter`, each but the last with the delimiter appended. -/
theorem C01_split_keep (s d : Str) (arr : List Str) (hd : d ≠ []) :
    ∃ ps qs, Split s d [] false = .ok ps ∧ Split s d arr true = .ok (arr ++ qs) ∧
      qs = withDelims d ps ∧ qs.flatten = s :=
  ⟨split d s, withDelims d (split d s), by simpa using Split_eq hd s [], Split_keep_eq hd s arr, rfl,
    by rw [withDelims_flatten, join_split hd]⟩

example : Split b!"a--b---c" b!"--" [b!"x"] false = .ok [b!"x", b!"a", b!"b", b!"-c"] := by
  decide +kernel
example : Split b!"a--b---c" b!"--" [] true = .ok [b!"a--", b!"b--", b!"-c"] := by decide +kernel
example : LeftmostCuts b!"aa" [b!"", b!"a"] ∧ joinWith b!"aa" [b!"", b!"a"] = b!"aaa" := by
  refine ⟨⟨?_, ?_⟩, by decide⟩
  · rw [occurs_iff_infix]; decide
  · simp only [LeftmostCuts]; rw [occurs_iff_infix]; decide

/-- C02 as stated is false: with the empty delimiter the loop of `Split` never ends — whatever
number of iterations it is given, it has not returned. -/
theorem C02_split_terminates_refuted (s : Str) (keep : Bool) (arr : List Str) :
    ∀ fuel, splitLoop s [] keep fuel 0 arr = .error .diverge :=
  fun fuel => splitLoop_empty s keep fuel 0 arr (Nat.zero_le _)

/-- C02, the part that holds: for a non-empty delimiter, `|s| + 1` iterations are enough, and any
larger number gives the same result. -/
theorem C02_split_terminates_partial (s d : Str) (keep : Bool) (arr : List Str) (hd : d ≠ []) :
    ∃ r, ∀ fuel, s.length < fuel → splitLoop s d keep fuel 0 arr = .ok r := by
  refine ⟨_, fun fuel h => splitLoop_eq hd keep s fuel 0 arr (Nat.zero_le _) (by omega)⟩

example : splitLoop b!"a,b" b!"," false 4 0 [] = .ok [b!"a", b!"b"] := by decide +kernel

/-- C03: decoding inverts encoding on every byte string. -/
theorem C03_decode_encode (s : Str) : UrlDecode (UrlEncode s) = s := UrlDecode_UrlEncode s

example : UrlEncode [0, 32, 37, 65, 255] = b!"%00+%25A%FF" := by decide +kernel

/-- C04: encoded text consists of plain bytes, `+` and complete upper-case escapes. -/
theorem C04_encode_safe (s : Str) : SafeText (UrlEncode s) := safe_encode s

/-- C04: no byte of encoded text is a control character, a space, DEL or above ASCII; and the text
is at most three times as long as the input. -/
theorem C04_encode_bytes (s : Str) :
    (∀ c ∈ UrlEncode s, 32 < c ∧ c < 127) ∧ (UrlEncode s).length ≤ 3 * s.length := by
  constructor
  · have h := safe_encode s
    generalize UrlEncode s = t at h
    induction h with
    | nil => simp
    | @plain c s hc _ ih =>
      have : ∀ c : Byte, Plain c → 32 < c ∧ c < 127 := by decide +kernel
      intro x hx
      rcases List.mem_cons.1 hx with rfl | hx
      · exact this _ hc
      · exact ih x hx
    | plus _ ih =>
      intro x hx
      rcases List.mem_cons.1 hx with rfl | hx
      · decide
      · exact ih x hx
    | esc h1 h2 _ ih =>
      have : ∀ c : Byte, UpperHex c → 32 < c ∧ c < 127 := by decide +kernel
      intro x hx
      simp only [List.mem_cons] at hx
      rcases hx with rfl | rfl | rfl | hx
      · decide
      · exact this _ h1
      · exact this _ h2
      · exact ih x hx
  · induction s with
    | nil => simp [UrlEncode]
    | cons c s ih =>
      have : (urlEncodeByte c).length ≤ 3 := by
        unfold urlEncodeByte; split
        · simp
        · split <;> simp
      simp [UrlEncode]; omega

example : UrlEncode b!"a b/c?d=é&e" = b!"a+b/c?d=%C3%A9&e" := by decide +kernel

/-- C05, the part that holds: well-formed percent-encoded text is decoded to what it denotes, and
the denotation is unique; a lone `%` at the very end of otherwise well-formed text is rejected
with the empty string.  Missing from the full property: rejection of the other malformed inputs
(see the refutation). -/
theorem C05_decode_partial (s t : Str) (h : Decodes s t) :
    UrlDecode s = t ∧ UrlDecode (s ++ b!"%") = [] := by
  refine ⟨UrlDecode_decodes h, ?_⟩
  suffices ∀ acc, urlDecodeLoop acc (s ++ [37]) = [] from this []
  induction h with
  | nil => intro acc; rw [urlDecodeLoop.eq_def]; simp
  | plus _ ih => intro acc; rw [List.cons_append, urlDecodeLoop.eq_def]; simp [ih]
  | esc _ _ _ ih => intro acc; rw [List.cons_append, urlDecodeLoop.eq_def]; simp [ih]
  | lit h1 h2 _ ih => intro acc; rw [List.cons_append, urlDecodeLoop.eq_def]; simp [h1, h2, ih]

/-- C05: well-formed text denotes one string only. -/
theorem C05_decodes_unique (s t t' : Str) (h : Decodes s t) (h' : Decodes s t') : t = t' := by
  rw [← UrlDecode_decodes h, ← UrlDecode_decodes h']

theorem urlDecodeLoop_nil : ∀ (n : Nat) (s acc : Str), s.length ≤ n →
    (urlDecodeLoop acc s = [] ↔ (acc = [] ∧ s = []) ∨ ∃ a, WholeEscapes a ∧ s = a ++ b!"%") := by
  intro n
  induction n with
  | zero =>
    intro s acc h
    have : s = [] := List.length_eq_zero_iff.1 (by omega)
    subst this
    rw [urlDecodeLoop.eq_def]
    simp
  | succ n ih =>
    intro s acc h
    match s with
    | [] => rw [urlDecodeLoop.eq_def]; simp
    | c :: s =>
      have hne : ∀ x : Byte, acc ++ [x] ≠ [] := by simp
      have keep : ∀ x : Byte, c ≠ 37 → ((urlDecodeLoop (acc ++ [x]) s = []) ↔
          (acc = [] ∧ c :: s = []) ∨ ∃ a, WholeEscapes a ∧ c :: s = a ++ b!"%") := by
        intro x hc
        rw [ih s (acc ++ [x]) (by simp at h; omega)]
        constructor
        · rintro (⟨h1, _⟩ | ⟨a, h1, h2⟩)
          · exact absurd h1 (hne x)
          · exact Or.inr ⟨c :: a, .lit hc h1, by rw [h2]; rfl⟩
        · rintro (⟨_, h1⟩ | ⟨a, h1, h2⟩)
          · cases h1
          · cases h1 with
            | nil => simp at h2; exact absurd h2.1 hc
            | esc _ => simp at h2; exact absurd h2.1 hc
            | lit _ h3 => simp at h2; exact Or.inr ⟨_, h3, h2.2⟩
      rw [urlDecodeLoop.eq_def]
      simp only
      by_cases h43 : c = 43
      · rw [if_pos h43]
        exact keep 32 (by rw [h43]; decide)
      · rw [if_neg h43]
        by_cases h37 : c = 37
        · rw [if_pos h37]
          subst h37
          match s with
          | [] => simp; exact .nil
          | [x] =>
            simp
            intro a ha he
            cases ha with
            | nil => simp at he
            | esc h3 => simp at he
            | lit h3 _ => simp at he; exact h3 he.1.symm
          | x :: y :: s' =>
            simp only
            rw [ih s' _ (by simp at h; omega)]
            constructor
            · rintro (⟨h1, _⟩ | ⟨a, h1, h2⟩)
              · exact absurd h1 (hne _)
              · exact Or.inr ⟨37 :: x :: y :: a, .esc h1, by rw [h2]; rfl⟩
            · rintro (⟨_, h1⟩ | ⟨a, h1, h2⟩)
              · cases h1
              · cases h1 with
                | nil => simp at h2
                | esc h3 => simp at h2; exact Or.inr ⟨_, h3, h2.2.2⟩
                | lit h3 _ => simp at h2; exact absurd h2.1.symm h3
        · rw [if_neg h37]
          exact keep c h37

/-- C05, exactly what is rejected: besides the empty text, the texts that end in a lone `%` (whatever the other escapes
are), and no other. -/
theorem C05_rejected_partial (s : Str) : UrlDecode s = [] ↔ s = [] ∨ ∃ a, WholeEscapes a ∧ s = a ++ b!"%" := by
  have := urlDecodeLoop_nil s.length s [] (Nat.le_refl _)
  simpa [UrlDecode] using this

example : WholeEscapes b!"a+%zzb" ∧ UrlDecode b!"a+%zzb%" = [] ∧ UrlDecode b!"%%%" ≠ [] :=
  ⟨.lit (by decide) (.lit (by decide) (.esc (.lit (by decide) .nil))), by decide +kernel, by decide +kernel⟩

/-- C05 as stated is false: truncated and non-hexadecimal escapes are not rejected.  `%4` decodes
to `@`, `%G0` to NUL and `%zz` to `S`, although none of them is well-formed. -/
theorem C05_decode_rejects_malformed_refuted :
    (UrlDecode b!"%4" = b!"@" ∧ ¬ ∃ t, Decodes b!"%4" t) ∧
    (UrlDecode b!"%G0" = [0] ∧ ¬ ∃ t, Decodes b!"%G0" t) ∧
    (UrlDecode b!"%zz" = b!"S" ∧ ¬ ∃ t, Decodes b!"%zz" t) := by
  refine ⟨⟨by decide +kernel, ?_⟩, ⟨by decide +kernel, ?_⟩, ⟨by decide +kernel, ?_⟩⟩
  · rintro ⟨t, h⟩
    cases h with
    | lit _ h => exact h rfl
  · rintro ⟨t, h⟩
    cases h with
    | esc h => simp [hexDigit] at h
    | lit _ h => exact h rfl
  · rintro ⟨t, h⟩
    cases h with
    | esc h => simp [hexDigit] at h
    | lit _ h => exact h rfl

example : Decodes b!"a%2fb+%C3" [97, 47, 98, 32, 195] :=
  .lit (by decide) (by decide) (.esc (a := 2) (b := 15) rfl rfl (.lit (by decide) (by decide)
    (.plus (.esc (a := 12) (b := 3) rfl rfl .nil))))

/-- C06: `WildCardMatch` decides glob matching. -/
theorem C06_wildcard (pattern source : Str) (hp : pattern.length < 2 ^ 31 - 1)
    (hs : source.length < 2 ^ 31 - 1) :
    ∃ r, WildCardMatch pattern source = .ok r ∧ (r = true ↔ Glob pattern source) :=
  ⟨_, by simp [WildCardMatch, hp, hs], wild_iff pattern source⟩

example : WildCardMatch b!"*.ex?mple.*" b!"www.example.com" = .ok true := by decide +kernel
example : WildCardMatch b!"a*b" b!"acb1" = .ok false := by decide +kernel

/-- C07: `File::Suffix` never throws and returns the extension of the last path component. -/
theorem C07_suffix (path : Str) :
    ∃ base ext, Suffix path = .ok ext ∧ LastComponent path base ∧ Extension base ext ∧
      46 ∉ ext ∧ 47 ∉ ext := by
  unfold Suffix
  -- the text searched for a dot is the last component, possibly with its slash in front
  have main : ∀ (n : Nat) (base : Str), n ≤ path.length → LastComponent path base →
      (path.drop n = base ∨ path.drop n = 47 :: base) →
      ∃ ext, (match findLast 46 (path.drop n) with
        | none => (.ok [] : Out Str)
        | some pos => substrFrom (path.drop n) (pos + 1)) = .ok ext ∧
        Extension base ext ∧ 46 ∉ ext ∧ 47 ∉ ext := by
    intro n base hn hb hd
    have hslash : 47 ∉ base := hb.1
    cases hf : findLast 46 (path.drop n) with
    | none =>
      have h46 := findLast_none.1 hf
      refine ⟨[], rfl, Or.inl ⟨?_, rfl⟩, by simp, by simp⟩
      rcases hd with hd | hd <;> rw [hd] at h46
      · exact h46
      · simp at h46; exact h46
    | some pos =>
      obtain ⟨h1, h2, h3⟩ := findLast_some hf
      have hext : (path.drop n).drop (pos + 1) <:+ base ∧
          ∃ stem, base = stem ++ 46 :: (path.drop n).drop (pos + 1) := by
        rcases hd with hd | hd
        · rw [hd] at h1 ⊢
          exact ⟨List.drop_suffix _ _, _, h1⟩
        · rw [hd] at h1 ⊢
          cases pos with
          | zero => simp at h1
          | succ k =>
            simp at h1 ⊢
            exact ⟨List.drop_suffix _ _, _, h1⟩
      refine ⟨(path.drop n).drop (pos + 1), substrFrom_ok (by omega), Or.inr ⟨h2, hext.2⟩, h2, ?_⟩
      intro hm
      exact hslash (hext.1.subset hm)
  cases hs : findLast 47 path with
  | none =>
    have h0 := findLast_none.1 hs
    obtain ⟨ext, h1, h2⟩ := main 0 path (Nat.zero_le _) ⟨h0, Or.inl rfl⟩ (Or.inl rfl)
    refine ⟨path, ext, ?_, ⟨h0, Or.inl rfl⟩, h2⟩
    simp only [substrFrom_ok (Nat.zero_le _), bind, Except.bind]
    exact h1
  | some i =>
    obtain ⟨h1, h2, h3⟩ := findLast_some hs
    have hl : LastComponent path (path.drop (i + 1)) := ⟨h2, Or.inr ⟨_, h1⟩⟩
    have hdrop : path.drop i = 47 :: path.drop (i + 1) := by
      conv => lhs; rw [h1]
      rw [List.drop_append_of_le_length (by simp; omega)]
      simp
    obtain ⟨ext, g1, g2⟩ := main i _ (by omega) hl (Or.inr hdrop)
    refine ⟨_, ext, ?_, hl, g2⟩
    simp only [substrFrom_ok (Nat.le_of_lt h3), bind, Except.bind]
    exact g1

example : Suffix b!"/a.b/c.tar.gz" = .ok b!"gz" ∧ Suffix b!"/a.b/c" = .ok b!"" ∧
    Suffix b!".hidden" = .ok b!"hidden" := by decide +kernel

end Cppnet
