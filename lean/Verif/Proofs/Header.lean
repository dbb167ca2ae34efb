import Verif.Model.HttpHeader
import Verif.Spec.Http
import Verif.Proofs.Split
import Verif.Proofs.Map
import Verif.Proofs.Num

namespace Cppnet
open Spec

/-! ### Cutting at a byte -/

theorem cut_eq {c : Byte} {s : Str} (h : c ∈ s) : s = before c s ++ c :: after c s := by
  induction s with
  | nil => simp at h
  | cons x s ih =>
    by_cases hx : x = c
    · subst hx; simp [before, after]
    · have : c ∈ s := by simpa [Ne.symm hx] using h
      have h' := ih this
      simp only [before, after] at h' ⊢
      have hb : (x != c) = true := by simpa using hx
      simp only [List.takeWhile_cons, hb, if_true, List.dropWhile_cons, List.cons_append]
      rw [← h']

theorem not_mem_before (c : Byte) (s : Str) : c ∉ before c s := by
  unfold before
  induction s with
  | nil => simp
  | cons x s ih =>
    by_cases hx : x = c
    · simp [hx]
    · have : (x != c) = true := by simpa using hx
      simp [this, Ne.symm hx, ih]

theorem before_append {c : Byte} {k v : Str} (h : c ∉ k) : before c (k ++ c :: v) = k := by
  unfold before
  induction k with
  | nil => simp
  | cons x k ih =>
    have hx : x ≠ c := fun e => h (by simp [e])
    have : (x != c) = true := by simpa using hx
    simp [this, ih (fun hh => h (by simp [hh]))]

theorem after_append {c : Byte} {k v : Str} (h : c ∉ k) : after c (k ++ c :: v) = v := by
  have h1 := cut_eq (c := c) (s := k ++ c :: v) (by simp)
  rw [before_append h] at h1
  have := List.append_cancel_left h1
  simpa using this.symm

theorem after_none {c : Byte} {s : Str} (h : c ∉ s) : after c s = [] := by
  unfold after
  induction s with
  | nil => rfl
  | cons x s ih =>
    have hx : (x != c) = true := by simpa using fun e => h (by simp [e])
    simp only [List.dropWhile_cons, hx, if_true]
    exact ih (fun hh => h (by simp [hh]))

theorem find_byte_cut {c : Byte} {s : Str} (h : c ∈ s) : find s [c] = some (before c s).length := by
  rw [find_zero]
  conv => lhs; rw [cut_eq h]
  exact findAux_byte_append (not_mem_before c s)

theorem find_byte_none {c : Byte} {s : Str} (h : c ∉ s) : find s [c] = none := by
  rw [find_zero]; exact findAux_byte_none.2 h

theorem take_cut {c : Byte} {s : Str} (h : c ∈ s) : s.take (before c s).length = before c s := by
  have e := cut_eq h
  generalize before c s = k at *
  rw [e]; simp

theorem drop_cut {c : Byte} {s : Str} (h : c ∈ s) : s.drop ((before c s).length + 1) = after c s := by
  have e := cut_eq h
  generalize before c s = k at *
  generalize after c s = v at *
  rw [e]; simp [List.drop_append]

theorem drop_cut' {c : Byte} {s : Str} (h : c ∈ s) : s.drop (before c s).length = c :: after c s := by
  have e := cut_eq h
  generalize before c s = k at *
  generalize after c s = v at *
  rw [e]; simp

theorem length_cut {c : Byte} {s : Str} (h : c ∈ s) :
    s.length = (before c s).length + 1 + (after c s).length := by
  conv => lhs; rw [cut_eq h]
  simp; omega

theorem trimLeft_replicate (i : Nat) (s : Str) : trimLeft (List.replicate i 32 ++ s) = trimLeft s := by
  induction i with
  | zero => simp
  | succ i ih => simpa [List.replicate_succ, trimLeft] using ih

theorem trimLeft_of_head {c : Byte} {s : Str} (h : c ≠ 32) : trimLeft (c :: s) = c :: s := by
  have : (c == 32) = false := by simpa using h
  simp [trimLeft, this]

theorem trimLeft_drop {s : Str} {i : Nat} (h : findFirstNotOf 32 s = some i) : s.drop i = trimLeft s := by
  obtain ⟨c, v, rfl, hc⟩ := findFirstNotOf_some.1 h
  rw [trimLeft_replicate, trimLeft_of_head hc]
  simp

theorem trimLeft_blank {s : Str} (h : Blank s) : trimLeft s = [] := by
  induction s with
  | nil => rfl
  | cons c s ih =>
    have := h c (by simp); subst this
    simpa [trimLeft] using ih (fun x hx => h x (by simp [hx]))

theorem lookup_reverse_eq_lastFor (l : List (Str × Str)) (k : Str) :
    l.reverse.lookup k = lastFor k l := by
  induction l with
  | nil => rfl
  | cons p l ih =>
    obtain ⟨a, b⟩ := p
    rw [List.reverse_cons, lookup_append', ih]
    simp only [lastFor, List.filter_cons]
    by_cases h : a = k
    · subst h
      simp only [decide_true, if_true]
      cases hf : List.filter (fun p => decide (p.1 = a)) l with
      | nil => simp [List.lookup]
      | cons q qs =>
        rw [List.getLast?_cons_cons]
        obtain ⟨z, hz⟩ : ∃ z, (q :: qs).getLast? = some z := by
          exact ⟨_, List.getLast?_eq_some_getLast (by simp)⟩
        simp [hz]
    · have : (k == a) = false := by simpa using Ne.symm h
      simp [h, List.lookup, this]

theorem get_setAll_last (m : UMap) (l : List (Str × Str)) (k : Str) :
    (m.setAll l).get k = (lastFor k l).or (m.get k) := by
  rw [UMap.get_setAll, lookup_reverse_eq_lastFor]

/-! ### Parsing header lines -/

instance (s : Str) : Decidable (Blank s) := by unfold Blank; infer_instance

/-- What the code stores for a line: the value keeps the colon when it is blank. -/
def codeField (line : Str) : Str × Str :=
  (before 58 line, if Blank (after 58 line) then 58 :: after 58 line else trimLeft (after 58 line))

theorem codeField_value_index {it : Str} (h : 58 ∈ it) (hl : it.length < 2 ^ 63) :
    substrFrom it (szAdd (szAdd (before 58 it).length 1) (posOrNpos (findFirstNotOf 32 (after 58 it)))) =
      .ok (codeField it).2 := by
  have hlen := length_cut h
  have h1 : szAdd (before 58 it).length 1 = (before 58 it).length + 1 := by
    unfold szAdd; omega
  rw [h1]
  cases hf : findFirstNotOf 32 (after 58 it) with
  | none =>
    have hb : Blank (after 58 it) := findFirstNotOf_none.1 hf
    have : szAdd ((before 58 it).length + 1) (posOrNpos none) = (before 58 it).length := by
      simp only [szAdd, posOrNpos, npos]; omega
    rw [this, substrFrom_ok (by omega), drop_cut' h]
    simp [codeField, hb]
  | some i =>
    obtain ⟨c, v, hv, hc⟩ := findFirstNotOf_some.1 hf
    have hi : i < (after 58 it).length := by rw [hv]; simp
    have hnb : ¬ Blank (after 58 it) := by
      intro hb; exact hc (hb c (by rw [hv]; simp))
    have : szAdd ((before 58 it).length + 1) (posOrNpos (some i)) = (before 58 it).length + 1 + i := by
      simp only [szAdd, posOrNpos]; omega
    rw [this, substrFrom_ok (by omega), ← List.drop_drop, drop_cut h, trimLeft_drop hf]
    simp [codeField, hnb]

/-- The lines up to the first one without a colon. -/
def goodLines (ls : List Str) : List Str := ls.takeWhile (fun l => decide (58 ∈ l))

theorem headerParseLines_eq (ls : List Str) (hl : ∀ l ∈ ls, l.length < 2 ^ 63) (h : HttpHeader) :
    headerParseLines h ls = .ok (h.setAll ((goodLines ls).map codeField),
      if ∀ l ∈ ls, 58 ∈ l then kSuccess else kLogicErr) := by
  induction ls generalizing h with
  | nil => simp [headerParseLines, goodLines]
  | cons it ls ih =>
    simp only [headerParseLines]
    by_cases hc : 58 ∈ it
    · have hlen := length_cut hc
      rw [find_byte_cut hc]
      simp only [substr_ok (Nat.zero_le _), List.drop_zero, take_cut hc, bind, Except.bind]
      rw [substrFrom_ok (by omega)]
      simp only [drop_cut hc]
      rw [codeField_value_index hc (hl it (by simp))]
      simp only
      rw [ih (fun l hl' => hl l (by simp [hl']))]
      simp [goodLines, hc, codeField]
    · rw [find_byte_none hc]
      simp [goodLines, hc]

theorem split_length {d s : Str} (hd : d ≠ []) : ∀ p ∈ split d s, p.length ≤ s.length := by
  refine split_induction hd (P := fun s => ∀ p ∈ split d s, p.length ≤ s.length) ?_ ?_ s
  · intro s h p hp
    rw [split_none (findAux_none.2 h)] at hp
    simp at hp; simp [hp]
  · intro u v h ih p hp
    rw [split_append hd h] at hp
    rcases List.mem_cons.1 hp with rfl | hp
    · simp
    · have := ih p hp; simp; omega

theorem headerParse_eq (h : HttpHeader) (s : Str) (hs : s ≠ []) (hl : Fits s) :
    headerParse h s = .ok (h.setAll ((goodLines (split crlf s)).map codeField),
      if ∀ l ∈ split crlf s, 58 ∈ l then kSuccess else kLogicErr) := by
  have hd : crlf ≠ [] := by simp [crlf]
  simp only [headerParse, hs, if_false, Split_eq hd, bind, Except.bind, List.nil_append]
  exact headerParseLines_eq _ (fun l hl' => Nat.lt_of_le_of_lt (split_length hd l hl') hl) h

theorem pieces_split {d s : Str} (hd : d ≠ []) : Pieces d s (split d s) :=
  ⟨join_split hd s, leftmost_split hd s⟩

theorem pieces_unique {d s : Str} {ps : List Str} (hd : d ≠ []) (h : Pieces d s ps) : split d s = ps := by
  rw [← h.1]; exact split_unique hd h.2

/-! ### Writing headers -/

/-- A pair that survives the wire. -/
abbrev WirePair (p : Str × Str) : Prop := WireField p.1 p.2

theorem wirePairs_order {h : UMap} (hw : WireHeaders h) (o : HashOrder) :
    ∀ p ∈ o.order h, WirePair p := by
  intro p hp
  exact hw p.1 p.2 ((UMap.mem_order o h p).1 hp)

theorem codeField_line {p : Str × Str} (hp : WirePair p) : codeField (p.1 ++ b!": " ++ p.2) = p := by
  obtain ⟨k, v⟩ := p
  obtain ⟨h1, h2, h3, c, t, hv, hc⟩ := hp
  simp only at h1 h2 h3 hv
  subst hv
  have e : k ++ b!": " ++ c :: t = k ++ 58 :: (32 :: c :: t) := by simp
  unfold codeField
  rw [e, before_append h1, after_append h1]
  have hb : ¬ Blank (32 :: c :: t) := fun hb => hc (hb c (by simp))
  simp only [hb, if_false]
  have : trimLeft (32 :: c :: t) = c :: t := by
    have := trimLeft_replicate 1 (c :: t)
    simp only [List.replicate_one, List.singleton_append] at this
    rw [this, trimLeft_of_head hc]
  rw [this]

theorem line_no_cr {p : Str × Str} (hp : WirePair p) : 13 ∉ p.1 ++ b!": " ++ p.2 := by
  simp [hp.2.1, hp.2.2.1]

/-- The lines of a list of pairs followed by any tail. -/
theorem split_headerLines (ps : List (Str × Str)) (hp : ∀ p ∈ ps, WirePair p) (t : Str) :
    split crlf ((ps.map headerLine).flatten ++ t) =
      ps.map (fun p => p.1 ++ b!": " ++ p.2) ++ split crlf t := by
  induction ps with
  | nil => simp
  | cons p ps ih =>
    have : ((p :: ps).map headerLine).flatten ++ t =
        (p.1 ++ b!": " ++ p.2) ++ crlf ++ ((ps.map headerLine).flatten ++ t) := by
      simp [headerLine]
    rw [this, split_crlf_append (line_no_cr (hp p (by simp))), ih (fun q hq => hp q (by simp [hq]))]
    simp

theorem split_headerLines_last (ps : List (Str × Str)) (p : Str × Str) (hp : ∀ q ∈ ps ++ [p], WirePair q) :
    split crlf ((ps.map headerLine).flatten ++ (p.1 ++ b!": " ++ p.2)) =
      (ps ++ [p]).map (fun p => p.1 ++ b!": " ++ p.2) := by
  rw [split_headerLines ps (fun q hq => hp q (by simp [hq])),
    split_crlf_none (line_no_cr (hp p (by simp)))]
  simp

theorem colon_mem_line (p : Str × Str) : 58 ∈ p.1 ++ b!": " ++ p.2 := by simp

theorem goodLines_append_all {ps qs : List Str} (h : ∀ p ∈ ps, 58 ∈ p) :
    goodLines (ps ++ qs) = ps ++ goodLines qs := by
  induction ps with
  | nil => rfl
  | cons p ps ih =>
    have h1 := h p (by simp)
    simp only [goodLines, List.cons_append, List.takeWhile_cons, h1, decide_true, if_true]
    congr 1
    exact ih (fun q hq => h q (by simp [hq]))

theorem map_codeField_lines (ps : List (Str × Str)) (hp : ∀ p ∈ ps, WirePair p) :
    (ps.map (fun p => p.1 ++ b!": " ++ p.2)).map codeField = ps := by
  rw [List.map_map]
  conv => rhs; rw [← List.map_id ps]
  apply List.map_congr_left
  intro p h
  simpa using codeField_line (hp p h)

/-! ### Numerals -/

theorem foldl_digits (ds : Str) (acc : Nat) :
    ds.foldl (fun acc c => acc * 10 + (c.toNat - 48)) acc = acc * 10 ^ ds.length + decimal ds := by
  induction ds generalizing acc with
  | nil => simp [decimal]
  | cons c ds ih =>
    simp only [List.foldl_cons, ih, decimal, List.length_cons, Nat.pow_succ]
    rw [Nat.add_mul, Nat.add_assoc, Nat.mul_assoc, Nat.mul_comm 10]

theorem digitsVal_eq (ds : Str) : digitsVal ds = decimal ds := by
  simpa [digitsVal] using foldl_digits ds 0

theorem isDigit_iff (c : Byte) : isDigit c = true ↔ DecDigit c := by
  simp [isDigit, DecDigit]

theorem isSpace_iff (c : Byte) : isSpace c = true ↔ WhiteSpace c := by
  unfold WhiteSpace; revert c; decide +kernel

theorem skipSpace_append {ws t : Str} (h : ∀ c ∈ ws, isSpace c = true)
    (ht : ∀ c ∈ t.head?, isSpace c = false) : skipSpace (ws ++ t) = t := by
  induction ws with
  | nil =>
    cases t with
    | nil => rfl
    | cons c t => simp [skipSpace, ht c (by simp)]
  | cons c ws ih => simp [skipSpace, h c (by simp), ih (fun x hx => h x (by simp [hx]))]

theorem stoi_of_numeral {s : Str} {v : Int} (h : LeadingNumeral s v) :
    stoi s = if intMin ≤ v ∧ v ≤ intMax then .ok v else .error .outOfRange := by
  obtain ⟨ws, sign, ds, rest, rfl, hws, hne, hds, hrest, hv⟩ := h
  have hd : ∀ c ∈ ds, isDigit c = true := fun c hc => (isDigit_iff c).2 (hds c hc)
  have hw : ∀ c ∈ ws, isSpace c = true := fun c hc => (isSpace_iff c).2 (hws c hc)
  have hr : ∀ c ∈ rest.head?, isDigit c = false := by
    intro c hc
    cases rest with
    | nil => simp at hc
    | cons x t =>
      simp at hc; subst hc
      have := hrest x t rfl
      rw [← isDigit_iff] at this
      simpa using this
  have hlead := leadDigits_append hd hr
  obtain ⟨c0, dt, rfl⟩ : ∃ c t, ds = c :: t := by
    cases ds with
    | nil => exact absurd rfl hne
    | cons c t => exact ⟨c, t, rfl⟩
  obtain ⟨n1, n2, n3⟩ := digit_not_space c0 (hd c0 (by simp))
  unfold stoi
  rcases hv with ⟨rfl, rfl⟩ | ⟨rfl | rfl, rfl⟩
  · have : ws ++ b!"-" ++ (c0 :: dt) ++ rest = ws ++ (45 :: (c0 :: dt ++ rest)) := by simp
    rw [this, skipSpace_append hw (by simp; decide)]
    simp only [splitSign, hlead, hne, if_false, if_true, digitsVal_eq]
  · have : ws ++ b!"+" ++ (c0 :: dt) ++ rest = ws ++ (43 :: (c0 :: dt ++ rest)) := by simp
    rw [this, skipSpace_append hw (by simp; decide)]
    simp only [splitSign, hlead, hne, if_false, digitsVal_eq, Bool.false_eq_true]
  · have : ws ++ [] ++ (c0 :: dt) ++ rest = ws ++ (c0 :: dt ++ rest) := by simp
    rw [this, skipSpace_append hw (by simp [n1])]
    have hs : splitSign (c0 :: dt ++ rest) = (false, c0 :: dt ++ rest) := by
      unfold splitSign; split <;> simp_all
    simp only [hs, hlead, hne, if_false, digitsVal_eq, Bool.false_eq_true]

theorem skipSpace_spec (s : Str) : ∃ ws, s = ws ++ skipSpace s ∧ ∀ c ∈ ws, WhiteSpace c := by
  induction s with
  | nil => exact ⟨[], by simp [skipSpace]⟩
  | cons c s ih =>
    by_cases h : isSpace c = true
    · obtain ⟨ws, h1, h2⟩ := ih
      refine ⟨c :: ws, by simp only [skipSpace, h, if_true, List.cons_append]; rw [← h1], ?_⟩
      intro x hx
      rcases List.mem_cons.1 hx with rfl | hx
      · exact (isSpace_iff _).1 h
      · exact h2 x hx
    · exact ⟨[], by simp [skipSpace, h], by simp⟩

theorem leadDigits_spec (s : Str) : ∃ rest, s = leadDigits s ++ rest ∧ (∀ c ∈ leadDigits s, DecDigit c) ∧
    ∀ c t, rest = c :: t → ¬ DecDigit c := by
  induction s with
  | nil => exact ⟨[], by simp [leadDigits]⟩
  | cons c s ih =>
    by_cases h : isDigit c = true
    · obtain ⟨rest, h1, h2, h3⟩ := ih
      refine ⟨rest, by simp only [leadDigits, h, if_true, List.cons_append]; rw [← h1], ?_, h3⟩
      intro x hx
      simp only [leadDigits, h, if_true] at hx
      rcases List.mem_cons.1 hx with rfl | hx
      · exact (isDigit_iff _).1 h
      · exact h2 x hx
    · refine ⟨c :: s, by simp [leadDigits, h], by simp [leadDigits, h], ?_⟩
      intro x t hx; cases hx
      rw [← isDigit_iff]; exact h

theorem splitSign_spec (s : Str) : ∃ sign, s = sign ++ (splitSign s).2 ∧
    ((sign = b!"-" ∧ (splitSign s).1 = true) ∨ ((sign = b!"+" ∨ sign = []) ∧ (splitSign s).1 = false)) := by
  unfold splitSign
  split
  · exact ⟨b!"-", by simp, Or.inl ⟨rfl, rfl⟩⟩
  · exact ⟨b!"+", by simp, Or.inr ⟨Or.inl rfl, rfl⟩⟩
  · exact ⟨[], by simp, Or.inr ⟨Or.inr rfl, rfl⟩⟩

theorem numeral_of_stoi {s : Str} {v : Int} (h : stoi s = .ok v) :
    LeadingNumeral s v ∧ intMin ≤ v ∧ v ≤ intMax := by
  obtain ⟨ws, h1, h2⟩ := skipSpace_spec s
  obtain ⟨sign, h3, h4⟩ := splitSign_spec (skipSpace s)
  obtain ⟨rest, h5, h6, h7⟩ := leadDigits_spec (splitSign (skipSpace s)).2
  unfold stoi at h
  simp only at h
  by_cases hne : leadDigits (splitSign (skipSpace s)).2 = []
  · simp [hne] at h
  · simp only [hne, if_false] at h
    by_cases hr : intMin ≤ (if (splitSign (skipSpace s)).1 = true then
        -(digitsVal (leadDigits (splitSign (skipSpace s)).2) : Int)
        else digitsVal (leadDigits (splitSign (skipSpace s)).2)) ∧
        (if (splitSign (skipSpace s)).1 = true then
        -(digitsVal (leadDigits (splitSign (skipSpace s)).2) : Int)
        else digitsVal (leadDigits (splitSign (skipSpace s)).2)) ≤ intMax
    · rw [if_pos hr] at h
      injection h with h
      rw [h] at hr
      refine ⟨⟨ws, sign, leadDigits (splitSign (skipSpace s)).2, rest, ?_, h2, hne, h6, h7, ?_⟩, hr.1, hr.2⟩
      · rw [List.append_assoc, List.append_assoc, ← h5, ← h3, ← h1]
      · rcases h4 with ⟨e, f⟩ | ⟨e, f⟩
        · left; refine ⟨e, ?_⟩
          rw [f] at h; simp only [if_true, digitsVal_eq] at h; exact h.symm
        · right; refine ⟨e, ?_⟩
          rw [f] at h; simp only [Bool.false_eq_true, if_false, digitsVal_eq] at h; exact h.symm
    · rw [if_neg hr] at h; cases h

/-! ### Cookies -/

theorem findFirstNotOf_le_eq {s : Str} (h : 61 ∈ s) :
    ∃ i, findFirstNotOf 32 s = some i ∧ i ≤ (before 61 s).length ∧
      (s.drop i).take ((before 61 s).length - i) = trimLeft (before 61 s) := by
  induction s with
  | nil => simp at h
  | cons c s ih =>
    by_cases hc : c = 32
    · subst hc
      obtain ⟨i, h1, h2, h3⟩ := ih (by simpa using h)
      refine ⟨i + 1, by simp [findFirstNotOf, h1], ?_, ?_⟩
      · simp [before] at h2 ⊢; exact h2
      · have : before 61 (32 :: s) = 32 :: before 61 s := by simp [before]
        rw [this]
        simp only [List.length_cons, List.drop_succ_cons]
        rw [Nat.add_sub_add_right, h3]
        simp [trimLeft]
    · refine ⟨0, by simp [findFirstNotOf, hc], Nat.zero_le _, ?_⟩
      simp only [List.drop_zero, Nat.sub_zero]
      rw [take_cut h]
      by_cases h61 : c = 61
      · subst h61; simp [before, trimLeft]
      · have hb : (c != 61) = true := by simpa using h61
        have : before 61 (c :: s) = c :: before 61 s := by simp [before, hb]
        rw [this, trimLeft_of_head hc]

theorem cookieLoop_eq (k : Str) (items : List Str) (hl : ∀ i ∈ items, i.length < 2 ^ 63) :
    cookieLoop k items = .ok (((items.filter (fun i => decide (61 ∈ i))).find?
      (fun i => decide (trimLeft (before 61 i) = k))).elim [] (after 61)) := by
  induction items with
  | nil => rfl
  | cons it items ih =>
    have ih := ih (fun i hi => hl i (by simp [hi]))
    simp only [cookieLoop]
    by_cases hc : 61 ∈ it
    · rw [find_byte_cut hc]
      obtain ⟨i, h1, h2, h3⟩ := findFirstNotOf_le_eq hc
      have hlen := length_cut hc
      have hl' := hl it (by simp)
      have hsub : szSub (before 61 it).length i = (before 61 it).length - i := by
        unfold szSub; omega
      simp only [h1, posOrNpos, hsub, bind, Except.bind]
      rw [substr_ok (by omega), substrFrom_ok (by omega)]
      simp only [h3, drop_cut hc]
      by_cases hk : trimLeft (before 61 it) = k
      · simp [hc, hk]
      · simp only [hk, if_false, ih]
        simp [hc, hk]
    · rw [find_byte_none hc]
      simp only [ih]
      simp [hc]

end Cppnet
