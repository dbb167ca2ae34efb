import Verif.Proofs.Header
import Verif.Proofs.Util

/-!
# C13–C20, C68: codes, content types, headers, cookies
-/

namespace Cppnet
open Spec

/-! ### C13 -/

/-- C13, methods: each known method is written as its standard name; a text is read as a known
method exactly if it is that method's name; everything else is UNKNOWN. -/
theorem C13_methods :
    (∀ m n, (m, n) ∈ methodTable → methodToStr m = n ∧ methodOfStr n = m) ∧
    (∀ m, m ≠ .UNKNOWN → ∃ n, (m, n) ∈ methodTable) ∧
    (∀ s m, m ≠ .UNKNOWN → (methodOfStr s = m ↔ s = methodToStr m)) ∧
    (∀ s, methodOfStr s = .UNKNOWN ↔ ∀ m n, (m, n) ∈ methodTable → s ≠ n) := by
  have table : ∀ m n, (m, n) ∈ methodTable → methodToStr m = n ∧ methodOfStr n = m := by
    intro m n h
    simp only [methodTable, List.mem_cons, Prod.mk.injEq, List.not_mem_nil, or_false] at h
    rcases h with h | h | h | h | h | h | h | h | h <;>
      (obtain ⟨rfl, rfl⟩ := h; decide +kernel)
  have known : ∀ m, m ≠ HttpMethod.UNKNOWN → (m, methodToStr m) ∈ methodTable := by
    intro m h; cases m <;> first | (exact absurd rfl h) | (decide +kernel)
  have back : ∀ s m, m ≠ .UNKNOWN → methodOfStr s = m → s = methodToStr m := by
    intro s m hm h
    unfold methodOfStr at h
    repeat (rcases ite_eq_or h with ⟨hs, rfl⟩ | h; · exact hs)
    exact absurd h.symm hm
  refine ⟨table, fun m h => ⟨_, known m h⟩, ?_, ?_⟩
  · intro s m hm
    exact ⟨back s m hm, fun h => by rw [h]; exact (table m _ (known m hm)).2⟩
  · intro s
    constructor
    · intro h m n hmn hs
      have := (table m n hmn).2
      rw [← hs, h] at this
      subst this
      simp [methodTable] at hmn
    · intro h
      refine Classical.byContradiction fun hne => ?_
      exact h _ _ (known _ hne) (back s _ hne rfl)

/-- C13, versions. -/
theorem C13_versions :
    (∀ m n, (m, n) ∈ versionTable → versionToStr m = n ∧ versionOfStr n = m) ∧
    (∀ m, m ≠ .UNKNOWN → ∃ n, (m, n) ∈ versionTable) ∧
    (∀ s m, m ≠ .UNKNOWN → (versionOfStr s = m ↔ s = versionToStr m)) ∧
    (∀ s, versionOfStr s = .UNKNOWN ↔ ∀ m n, (m, n) ∈ versionTable → s ≠ n) := by
  have table : ∀ m n, (m, n) ∈ versionTable → versionToStr m = n ∧ versionOfStr n = m := by
    intro m n h
    simp only [versionTable, List.mem_cons, Prod.mk.injEq, List.not_mem_nil, or_false] at h
    rcases h with h | h | h <;> (obtain ⟨rfl, rfl⟩ := h; decide +kernel)
  have known : ∀ m, m ≠ HttpVersion.UNKNOWN → (m, versionToStr m) ∈ versionTable := by
    intro m h; cases m <;> first | (exact absurd rfl h) | (decide +kernel)
  have back : ∀ s m, m ≠ .UNKNOWN → versionOfStr s = m → s = versionToStr m := by
    intro s m hm h
    unfold versionOfStr at h
    repeat (rcases ite_eq_or h with ⟨hs, rfl⟩ | h; · exact hs)
    exact absurd h.symm hm
  refine ⟨table, fun m h => ⟨_, known m h⟩, ?_, ?_⟩
  · intro s m hm
    exact ⟨back s m hm, fun h => by rw [h]; exact (table m _ (known m hm)).2⟩
  · intro s
    constructor
    · intro h m n hmn hs
      have := (table m n hmn).2
      rw [← hs, h] at this
      subst this
      simp [versionTable] at hmn
    · intro h
      refine Classical.byContradiction fun hne => ?_
      exact h _ _ (known _ hne) (back s _ hne rfl)

/-- **C13**, of every enumerator, the unknown ones too: converting to text or number and back gives it again, and -1 is the number of
the unknown status alone. -/
theorem C13_back : (∀ m, methodOfStr (methodToStr m) = m) ∧ (∀ v, versionOfStr (versionToStr v) = v) ∧
    (∀ c, statusOfInt (statusNum c) = c ∧ statusOfStr (statusToStr c) = c ∧ (statusNum c = -1 ↔ c = .UNKNOWN)) := by
  refine ⟨fun m => ?_, fun v => ?_, fun c => ?_⟩
  · cases m <;> decide +kernel
  · cases v <;> decide +kernel
  · cases c <;> decide +kernel

/-- C13, status codes: number, phrase and enumerator determine each other. -/
theorem C13_statuses :
    (∀ c i n, (c, i, n) ∈ statusTable →
      statusNum c = i ∧ statusToStr c = n ∧ statusOfInt i = c ∧ statusOfStr n = c) ∧
    (∀ c, c ≠ .UNKNOWN → ∃ i n, (c, i, n) ∈ statusTable) ∧
    (∀ i c, c ≠ .UNKNOWN → (statusOfInt i = c ↔ i = statusNum c)) ∧
    (∀ s c, c ≠ .UNKNOWN → (statusOfStr s = c ↔ s = statusToStr c)) ∧
    (∀ i, statusOfInt i = .UNKNOWN ↔ ∀ c j n, (c, j, n) ∈ statusTable → i ≠ j) ∧
    (∀ s, statusOfStr s = .UNKNOWN ↔ ∀ c j n, (c, j, n) ∈ statusTable → s ≠ n) := by
  have table : ∀ c i n, (c, i, n) ∈ statusTable →
      statusNum c = i ∧ statusToStr c = n ∧ statusOfInt i = c ∧ statusOfStr n = c := by
    intro c i n h
    simp only [statusTable, List.mem_cons, Prod.mk.injEq, List.not_mem_nil, or_false] at h
    rcases h with h | h | h | h | h | h | h | h | h | h | h | h | h <;>
      (obtain ⟨rfl, rfl, rfl⟩ := h; decide +kernel)
  have known : ∀ c, c ≠ HttpStatus.UNKNOWN → (c, statusNum c, statusToStr c) ∈ statusTable := by
    intro m h; cases m <;> first | (exact absurd rfl h) | (decide +kernel)
  have backI : ∀ i c, c ≠ .UNKNOWN → statusOfInt i = c → i = statusNum c := by
    intro s m hm h
    unfold statusOfInt at h
    repeat (rcases ite_eq_or h with ⟨hs, rfl⟩ | h; · exact hs)
    exact absurd h.symm hm
  have backS : ∀ s c, c ≠ .UNKNOWN → statusOfStr s = c → s = statusToStr c := by
    intro s m hm h
    unfold statusOfStr at h
    repeat (rcases ite_eq_or h with ⟨hs, rfl⟩ | h; · exact hs)
    exact absurd h.symm hm
  refine ⟨table, fun m h => ⟨_, _, known m h⟩, ?_, ?_, ?_, ?_⟩
  · intro i c hc
    exact ⟨backI i c hc, fun h => by rw [h]; exact (table c _ _ (known c hc)).2.2.1⟩
  · intro i c hc
    exact ⟨backS i c hc, fun h => by rw [h]; exact (table c _ _ (known c hc)).2.2.2⟩
  · intro i
    constructor
    · intro h c j n hm hs
      have := (table c j n hm).2.2.1
      rw [← hs, h] at this
      subst this
      simp [statusTable] at hm
    · intro h
      refine Classical.byContradiction fun hne => ?_
      exact h _ _ _ (known _ hne) (backI i _ hne rfl)
  · intro i
    constructor
    · intro h c j n hm hs
      have := (table c j n hm).2.2.2
      rw [← hs, h] at this
      subst this
      simp [statusTable] at hm
    · intro h
      refine Classical.byContradiction fun hne => ?_
      exact h _ _ _ (known _ hne) (backS i _ hne rfl)

example : methodOfStr b!"get" = .UNKNOWN ∧ versionOfStr b!"HTTP/1.1 " = .UNKNOWN ∧
    statusOfInt 203 = .UNKNOWN ∧ statusOfStr b!"Not Found" = .NOT_FOUND := by decide +kernel

/-! ### C14 -/

/-- A call that touches the global table of custom content types. -/
inductive TypeOp where
  | register (fileType contentType : Str)
  | convert (t : ContentType) (fileType : Str)

/-- One call. -/
def typeStep (g : UMap) : TypeOp → UMap
  | .register f c => setCustomContentType g f c
  | .convert t f => (contentTypeToStr g t f).2

/-- The global table after a history of calls, starting empty. -/
def typeTable (ops : List TypeOp) : UMap := ops.foldl typeStep UMap.empty

/-- The registrations of a history. -/
def registrations (ops : List TypeOp) : List (Str × Str) :=
  ops.filterMap (fun op => match op with | .register f c => some (f, c) | .convert _ _ => none)

theorem contentTypeToStr_get (g : UMap) (t : ContentType) (f k v : Str) (h : g.get k = some v) :
    (contentTypeToStr g t f).2.get k = some v := by
  cases t <;> simp only [contentTypeToStr] <;> try exact h
  cases hf : g.get f with
  | some w => simpa using h
  | none =>
    simp only
    rw [UMap.get_set_ne _ _ (by rintro rfl; simp [hf] at h)]
    exact h

theorem lastFor_append_singleton (k : Str) (l : List (Str × Str)) (p : Str × Str) :
    lastFor k (l ++ [p]) = if p.1 = k then some p.2 else lastFor k l := by
  unfold lastFor
  by_cases h : p.1 = k <;> simp [List.filter_append, h]

theorem typeTable_get (ops : List TypeOp) (k v : Str) (h : lastFor k (registrations ops) = some v) :
    (typeTable ops).get k = some v := by
  revert h
  refine snoc_induction (P := fun ops => lastFor k (registrations ops) = some v →
    (typeTable ops).get k = some v) ?_ ?_ ops
  · intro h; simp [registrations, lastFor] at h
  · intro ops op ih h
    have e : typeTable (ops ++ [op]) = typeStep (typeTable ops) op := by
      simp [typeTable, List.foldl_append]
    rw [e]
    cases op with
    | register f c =>
      have e2 : registrations (ops ++ [TypeOp.register f c]) = registrations ops ++ [(f, c)] := by
        simp [registrations]
      rw [e2, lastFor_append_singleton] at h
      simp only [typeStep, setCustomContentType, UMap.get_set]
      by_cases hk : f = k
      · subst hk; simpa using h
      · simp only [hk, if_false] at h
        simp [Ne.symm hk, ih h]
    | convert t f =>
      have e2 : registrations (ops ++ [TypeOp.convert t f]) = registrations ops := by
        simp [registrations]
      rw [e2] at h
      exact contentTypeToStr_get _ _ _ _ _ (ih h)

/-- C14: names and built-in types convert into each other, and any other name is unknown. -/
theorem C14_content_types (g : UMap) :
    (∀ t n fs, (t, n, fs) ∈ contentTable →
      (∀ f, contentTypeToStr g t f = (n, g)) ∧ contentTypeOfStr n = t ∧
      ∀ f ∈ fs, contentTypeOfFile g f = t) ∧
    (∀ t, t ≠ .custom → t ≠ .unknown → ∃ n fs, (t, n, fs) ∈ contentTable) ∧
    (∀ s t, t ≠ .unknown → contentTypeOfStr s = t → ∃ fs, (t, s, fs) ∈ contentTable) := by
  refine ⟨?_, ?_, ?_⟩
  · intro t n fs h
    simp only [contentTable, List.mem_cons, Prod.mk.injEq, List.not_mem_nil, or_false] at h
    rcases h with h | h | h | h | h | h | h | h | h | h <;> obtain ⟨rfl, rfl, rfl⟩ := h <;>
      refine ⟨fun f => rfl, by decide +kernel, ?_⟩ <;> intro f hf <;>
      simp only [List.mem_cons, List.not_mem_nil, or_false] at hf
    all_goals first | (rcases hf with rfl | rfl <;> simp [contentTypeOfFile]) |
      (subst hf; simp [contentTypeOfFile]) | (exact hf.elim)
  · intro t h1 h2
    cases t <;> first | exact absurd rfl h1 | exact absurd rfl h2 | (simp [contentTable])
  · intro s t ht h
    unfold contentTypeOfStr at h
    repeat' (split at h)
    all_goals first
      | (subst h; rename_i hs; subst hs; simp [contentTable])
      | exact absurd h.symm ht

/-- C14: the type stored in a header is the one reported, for every built-in type, and no other
header changes. -/
theorem C14_set_get (g : UMap) (h : HttpHeader) (t : ContentType) (h1 : t ≠ .custom) :
    headerGetContentType (headerSetContentType g h t).1 = t ∧
    ∀ k, k ≠ b!"Content-Type" → (headerSetContentType g h t).1.get k = h.get k := by
  constructor
  · cases t <;> first | exact absurd rfl h1 |
      (simp only [headerGetContentType, headerSetContentType, UMap.get_set_self, contentTypeToStr]; decide +kernel)
  · intro k hk
    simp only [headerSetContentType]
    exact UMap.get_set_ne _ _ hk

/-- C14: after any history of registrations and conversions, a registered suffix without a
built-in type is reported as custom and converted to the string registered last. -/
theorem C14_custom (ops : List TypeOp) (f c : Str) (h : lastFor f (registrations ops) = some c)
    (hb : f ∉ builtinSuffixes) :
    contentTypeOfFile (typeTable ops) f = .custom ∧
    (contentTypeToStr (typeTable ops) .custom f).1 = c := by
  have hg := typeTable_get ops f c h
  constructor
  · simp [builtinSuffixes, contentTable] at hb
    simp [contentTypeOfFile, hg, hb]
  · simp [contentTypeToStr, hg]

/-- C14: a suffix that was neither registered nor used in a conversion to text has the default
type. -/
theorem C14_default (g : UMap) (f : Str) (h : g.get f = none) (hb : f ∉ builtinSuffixes) :
    contentTypeOfFile g f = .applicationOctetStream := by
  simp [builtinSuffixes, contentTable] at hb
  simp [contentTypeOfFile, h, hb]

example : lastFor b!"svg" (registrations [.register b!"svg" b!"x", .convert .custom b!"q",
    .register b!"svg" b!"image/svg+xml", .register b!"ico" b!"image/x-icon"]) = some b!"image/svg+xml" ∧
    b!"svg" ∉ builtinSuffixes := by decide +kernel

/-! ### C15 -/

/-- C15: the text of a non-empty header that survives the wire is `t` and a blank line; parsing `t`
into an empty header succeeds and gives back the same map.  (Parsing with part of the blank line
still attached stores the same map, but reports an error.) -/
theorem C15_round_trip (o : HashOrder) (h : HttpHeader) (hw : WireHeaders h) (hne : ∃ k, h.get k ≠ none)
    (hl : Fits (headerToString o h)) :
    ∃ t h' h'', headerToString o h = t ++ crlf ++ crlf ∧
      headerParse UMap.empty t = .ok (h', kSuccess) ∧ SameMap h' h ∧
      headerParse UMap.empty (t ++ crlf) = .ok (h'', kLogicErr) ∧ SameMap h'' h := by
  have hp := wirePairs_order hw o
  have hne' : o.order h ≠ [] := by
    obtain ⟨k, hk⟩ := hne
    intro e
    have := UMap.get_order o h k
    rw [e] at this
    exact hk this.symm
  have hsame : SameMap (UMap.empty.setAll (o.order h)) h := by
    intro k; rw [UMap.get_setAll_order]; simp
  have hperm : headerToString o h = ((o.order h).map headerLine).flatten ++ crlf := rfl
  generalize o.order h = ps at *
  rcases List.eq_nil_or_concat ps with rfl | ⟨qs, p, rfl⟩
  · exact absurd rfl hne'
  rw [List.concat_eq_append] at *
  have htext : ((qs ++ [p]).map headerLine).flatten =
      (qs.map headerLine).flatten ++ (p.1 ++ b!": " ++ p.2) ++ crlf := by
    simp [headerLine]
  rw [htext] at hperm
  have hcolon : ∀ l ∈ (qs ++ [p]).map (fun p => p.1 ++ b!": " ++ p.2), 58 ∈ l := by
    intro l hl
    obtain ⟨q, _, rfl⟩ := List.mem_map.1 hl
    exact colon_mem_line q
  refine ⟨_, _, _, hperm, ?_, hsame, ?_, hsame⟩
  · rw [headerParse_eq _ _ (by simp) (by unfold Fits at *; rw [hperm] at hl; simp at hl ⊢; omega),
      split_headerLines_last qs p hp]
    have := goodLines_append_all (qs := []) hcolon
    rw [List.append_nil] at this
    rw [this, if_pos hcolon]
    simp only [goodLines, List.takeWhile_nil, List.append_nil]
    rw [map_codeField_lines _ hp]
  · have e : (qs.map headerLine).flatten ++ (p.1 ++ b!": " ++ p.2) ++ crlf =
        ((qs ++ [p]).map headerLine).flatten ++ [] := by rw [htext]; simp
    have e2 : split crlf ([] : Str) = [[]] := split_crlf_none (by simp)
    rw [headerParse_eq _ _ (by simp [crlf]) (by unfold Fits at *; rw [hperm] at hl; simp at hl ⊢; omega), e,
      split_headerLines _ hp, e2, goodLines_append_all hcolon]
    have : ¬ ∀ l ∈ List.map (fun p => p.1 ++ b!": " ++ p.2) (qs ++ [p]) ++ [[]], 58 ∈ l := by
      intro hh; exact absurd (hh [] (by simp)) (by simp)
    rw [if_neg this]
    simp only [goodLines, List.takeWhile_cons, List.not_mem_nil, decide_false, List.append_nil]
    simp only [Bool.false_eq_true, if_false, List.append_nil]
    rw [map_codeField_lines _ hp]

example : headerToString .reversed ((UMap.empty.set b!"Host" b!"a").set b!"X" b!"1:2  ") =
    b!"X: 1:2  \r\nHost: a\r\n\r\n" := by decide +kernel

/-! ### C16, C17 -/

/-- C16: let `good` be lines with a colon and a value that is not blank, and let the text be these
lines followed by nothing, or by a line without a colon and anything else.  Then exactly the good
lines are stored: `Get(k)` is the value of the last one named `k`, and what it was before if there is
none.  The result is success in the first case and a logic error in the second. -/
theorem C16_header_parse (h : HttpHeader) (s : Str) (good rest : List Str) (hs : s ≠ []) (hl : Fits s)
    (hp : Pieces crlf s (good ++ rest)) (hg : ∀ l ∈ good, 58 ∈ l ∧ ¬ Blank (after 58 l))
    (hr : rest = [] ∨ ∃ l r, rest = l :: r ∧ 58 ∉ l) :
    ∃ h', headerParse h s = .ok (h', if rest = [] then kSuccess else kLogicErr) ∧
      ∀ k, h'.get k = (lastFor k (good.map headerField)).or (h.get k) := by
  have hsplit := pieces_unique (by simp [crlf]) hp
  rw [headerParse_eq h s hs hl, hsplit, goodLines_append_all (fun l hl => (hg l hl).1)]
  have hmap : good.map codeField = good.map headerField := by
    apply List.map_congr_left
    intro l hl
    simp [codeField, headerField, (hg l hl).2]
  rcases hr with rfl | ⟨l, r, rfl, hlr⟩
  · have : ∀ l ∈ good ++ [], 58 ∈ l := by simpa using fun l hl => (hg l hl).1
    rw [if_pos this]
    refine ⟨_, rfl, fun k => ?_⟩
    simp only [goodLines, List.takeWhile_nil, List.append_nil, hmap]
    exact get_setAll_last _ _ _
  · have : ¬ ∀ x ∈ good ++ l :: r, 58 ∈ x := fun hh => hlr (hh l (by simp))
    rw [if_neg this]
    refine ⟨_, rfl, fun k => ?_⟩
    simp only [goodLines, List.takeWhile_cons, hlr, decide_false, Bool.false_eq_true, if_false,
      List.append_nil, hmap]
    exact get_setAll_last _ _ _

/-- C16: the empty text is rejected and changes nothing. -/
theorem C16_header_parse_empty (h : HttpHeader) : headerParse h [] = .ok (h, kLogicErr) := by
  simp [headerParse]

example : headerParse (UMap.empty.set b!"A" b!"0") b!"A: 1\r\nB:2:3\r\nA:   4\r\nbad\r\nC: 5" =
    .ok ((UMap.empty.set b!"A" b!"4").set b!"B" b!"2:3", kLogicErr) := by decide +kernel
example : Pieces crlf b!"A: 1\r\nbad" ([b!"A: 1"] ++ [b!"bad"]) ∧ ¬ Blank (after 58 b!"A: 1") := by
  refine ⟨⟨by decide, ?_, ?_⟩, by decide +kernel⟩
  · rw [occurs_iff_infix]; decide
  · simp only [LeftmostCuts]; rw [occurs_iff_infix]; decide

/-- C17 is false for every name and every number of spaces: a line with a blank value is stored with
the value `:` followed by those spaces, never the empty value. -/
theorem C17_blank_value_refuted (h : HttpHeader) (k sp : Str) (hk : 58 ∉ k) (hk' : 13 ∉ k) (hb : Blank sp)
    (hl : Fits (k ++ b!":" ++ sp)) :
    ∃ h', headerParse h (k ++ b!":" ++ sp) = .ok (h', kSuccess) ∧ headerGet h' k = b!":" ++ sp := by
  have e : k ++ b!":" ++ sp = k ++ 58 :: sp := by simp
  have hcr : 13 ∉ k ++ b!":" ++ sp := by
    simp only [List.mem_append, not_or]
    refine ⟨⟨hk', by simp⟩, fun h => ?_⟩
    have := hb _ h; simp at this
  rw [headerParse_eq _ _ (by simp) hl, split_crlf_none hcr]
  have hc : ∀ l ∈ [k ++ b!":" ++ sp], 58 ∈ l := by simp
  rw [if_pos hc]
  refine ⟨_, rfl, ?_⟩
  have hg : goodLines [k ++ b!":" ++ sp] = [k ++ b!":" ++ sp] := by simp [goodLines]
  rw [hg, e]
  simp [codeField, before_append hk, after_append hk, hb, headerGet, UMap.setAll]

example : headerParse UMap.empty b!"X-Empty: " = .ok (UMap.empty.set b!"X-Empty" b!": ", kSuccess) := by
  decide +kernel

/-- C17, what holds: lines with a blank value, anywhere in the text, do no other harm: Parse succeeds, every name that has no
blank-valued line gets the value C16 says, and every name that has a line is there (never lost), a blank-valued last line
with a `:` before the spaces. -/
theorem C17_others_partial (h : HttpHeader) (s : Str) (lines : List Str) (hs : s ≠ []) (hl : Fits s) (hp : Pieces crlf s lines)
    (hc : ∀ l ∈ lines, 58 ∈ l) :
    ∃ h', headerParse h s = .ok (h', kSuccess) ∧
      (∀ k, (∀ l ∈ lines, before 58 l = k → ¬ Blank (after 58 l)) →
        h'.get k = (lastFor k (lines.map headerField)).or (h.get k)) ∧
      (∀ pre l, lines = pre ++ [l] → Blank (after 58 l) → h'.get (before 58 l) = some (b!":" ++ after 58 l)) ∧
      ∀ l ∈ lines, h'.get (before 58 l) ≠ none := by
  have hsplit := pieces_unique (by simp [crlf]) hp
  rw [headerParse_eq h s hs hl, hsplit, if_pos hc]
  have hg : goodLines lines = lines := by
    have := goodLines_append_all (qs := []) hc
    simpa [goodLines] using this
  refine ⟨_, rfl, fun k hk => ?_, fun pre l e hb => ?_, fun l hl' => ?_⟩
  · rw [hg, get_setAll_last]
    have same : ∀ ls : List Str, (∀ l ∈ ls, before 58 l = k → ¬ Blank (after 58 l)) →
        (ls.map codeField).filter (fun p => p.1 = k) = (ls.map headerField).filter (fun p => p.1 = k) := by
      intro ls
      induction ls with
      | nil => intro _; simp
      | cons l ls ih =>
        intro hk
        have ih := ih (fun l hl => hk l (List.mem_cons_of_mem _ hl))
        simp only [List.map_cons, List.filter_cons, ih]
        by_cases e : before 58 l = k
        · have := hk l (List.mem_cons_self) e
          simp [codeField, headerField, e, this]
        · simp [codeField, headerField, e]
    unfold lastFor
    rw [same lines hk]
  · rw [hg, e, get_setAll_last]
    simp [lastFor, codeField, List.filter_append, hb]
  · rw [hg, get_setAll_last]
    have : lastFor (before 58 l) (lines.map codeField) ≠ none := by
      unfold lastFor
      simp only [ne_eq, Option.map_eq_none_iff, List.getLast?_eq_none_iff, List.filter_eq_nil_iff]
      intro hh
      exact hh (codeField l) (List.mem_map_of_mem hl') (by simp [codeField])
    cases hv : lastFor (before 58 l) (lines.map codeField) with
    | none => exact absurd hv this
    | some v => simp

example : headerParse UMap.empty b!"X-Empty:\r\nHost: a\r\nX-Empty:  " =
    .ok (((UMap.empty.set b!"X-Empty" b!":").set b!"Host" b!"a").set b!"X-Empty" b!":  ", kSuccess) := by decide +kernel

/-! ### C18, C19 -/

/-- C18: every `int` is read back after it was stored, and no other header changes. -/
theorem C18_content_length (h : HttpHeader) (n : Int) (h1 : intMin ≤ n) (h2 : n ≤ intMax) :
    headerGetContentLength (headerSetContentLength h n) = n ∧
    ∀ k, k ≠ b!"Content-Length" → (headerSetContentLength h n).get k = h.get k := by
  constructor
  · simp [headerGetContentLength, headerSetContentLength, stoi_intToStr n h1 h2]
  · intro k hk; exact UMap.get_set_ne _ _ hk

example : (headerSetContentLength UMap.empty (-2147483648)).get b!"Content-Length" = some b!"-2147483648" := by
  decide +kernel

/-- C19: `GetContentLength` is the value of the leading numeral if there is one in the range of
`int`, and -1 otherwise. -/
theorem C19_content_length_total (h : HttpHeader) :
    (h.get b!"Content-Length" = none → headerGetContentLength h = -1) ∧
    (∀ s v, h.get b!"Content-Length" = some s → LeadingNumeral s v → intMin ≤ v → v ≤ intMax →
      headerGetContentLength h = v) ∧
    (∀ s, h.get b!"Content-Length" = some s →
      (¬ ∃ v, LeadingNumeral s v ∧ intMin ≤ v ∧ v ≤ intMax) → headerGetContentLength h = -1) := by
  refine ⟨?_, ?_, ?_⟩
  · intro h0; simp [headerGetContentLength, h0]
  · intro s v hs hv h1 h2
    simp [headerGetContentLength, hs, stoi_of_numeral hv, h1, h2]
  · intro s hs hn
    simp only [headerGetContentLength, hs]
    cases hst : stoi s with
    | error e => rfl
    | ok v => exact absurd (numeral_of_stoi hst) (fun hh => hn ⟨v, hh⟩)

example : LeadingNumeral b!" +0123x9" 123 :=
  ⟨b!" ", b!"+", b!"0123", b!"x9", rfl, by simp [WhiteSpace], by simp, by unfold DecDigit; decide +kernel, by
    intro c t h; cases h; unfold DecDigit; decide, Or.inr ⟨Or.inl rfl, by decide⟩⟩
example : headerGetContentLength (UMap.empty.set b!"Content-Length" b!"99999999999") = -1 := by
  decide +kernel

/-! ### C20, C68 -/

/-- C20: the value of the first `;`-separated item that has a `=` and the asked name. -/
theorem C20_cookie (h : HttpHeader) (k v : Str) (items : List Str) (hv : h.get b!"Cookie" = some v)
    (hl : Fits v) (hp : Pieces b!";" v items) :
    headerGetCookieVal h k = .ok (((items.filter (fun i => decide (61 ∈ i))).find?
      (fun i => decide (trimLeft (before 61 i) = k))).elim [] (after 61)) := by
  have hd : b!";" ≠ [] := by simp
  simp only [headerGetCookieVal, hv, Split_eq hd, bind, Except.bind, List.nil_append]
  rw [pieces_unique hd hp]
  have hlen : ∀ i ∈ items, i.length < 2 ^ 63 := by
    rw [← pieces_unique hd hp]
    exact fun i hi => Nat.lt_of_le_of_lt (split_length hd i hi) hl
  exact cookieLoop_eq k items hlen

/-- C20: without a Cookie header the result is empty. -/
theorem C20_cookie_absent (h : HttpHeader) (k : Str) (hv : h.get b!"Cookie" = none) :
    headerGetCookieVal h k = .ok [] := by
  simp [headerGetCookieVal, hv]

example : headerGetCookieVal (UMap.empty.set b!"Cookie" b!"x;  a=1=2; b=;a=3; =q") b!"a" = .ok b!"1=2" ∧
    headerGetCookieVal (UMap.empty.set b!"Cookie" b!"x;  a=1=2; b=;a=3; =q") b!"" = .ok b!"q" ∧
    headerGetCookieVal (UMap.empty.set b!"Cookie" b!"x;  a=1=2; b=;a=3; =q") b!"x" = .ok b!"" := by
  decide +kernel

/-- C68, the part that holds: the first cookie is written as `key=value` and its attributes,
separated by `; `, under Set-Cookie; nothing else changes. -/
theorem C68_first_cookie_partial (h : HttpHeader) (c : Cookie) (hn : h.get b!"Set-Cookie" = none) :
    (headerSetCookie h c).get b!"Set-Cookie" = some (joinWith b!"; "
      ([c.key ++ b!"=" ++ c.value] ++ (if c.expires = [] then [] else [b!"expires=" ++ c.expires]) ++
       (if c.path = [] then [] else [b!"path=" ++ c.path]) ++
       (if c.domain = [] then [] else [b!"domain=" ++ c.domain]) ++
       (if c.secure then [b!"secure"] else []) ++ (if c.httpOnly then [b!"HttpOnly"] else []))) ∧
    ∀ k, k ≠ b!"Set-Cookie" → (headerSetCookie h c).get k = h.get k := by
  constructor
  · simp only [headerSetCookie, hn, UMap.get_set_self, Option.some.injEq, cookieText]
    by_cases h1 : c.expires = [] <;> by_cases h2 : c.path = [] <;> by_cases h3 : c.domain = [] <;>
      cases c.secure <;> cases c.httpOnly <;> simp [h1, h2, h3, joinWith]
  · intro k hk
    simp only [headerSetCookie, hn]
    exact UMap.get_set_ne _ _ hk

/-- C68 is false: whatever cookies are set one after the other, the header block has one
Set-Cookie line, in which the second cookie follows the first after `; ` as if it were an
attribute. -/
theorem C68_cookies_merged_refuted (o : HashOrder) (h : HttpHeader) (c d : Cookie)
    (hn : h.get b!"Set-Cookie" = none) :
    let h' := headerSetCookie (headerSetCookie h c) d
    (∃ v, (headerSetCookie h c).get b!"Set-Cookie" = some v ∧
      h'.get b!"Set-Cookie" = some (v ++ b!"; " ++ cookieText d)) ∧
    ((o.order h').filter (fun p => decide (p.1 = b!"Set-Cookie"))).length = 1 := by
  intro h'
  have h1 : (headerSetCookie h c).get b!"Set-Cookie" = some (cookieText c) := by
    simp [headerSetCookie, hn]
  have h2 : h'.get b!"Set-Cookie" = some (cookieText c ++ b!"; " ++ cookieText d) := by
    show (headerSetCookie (headerSetCookie h c) d).get b!"Set-Cookie" = _
    simp only [headerSetCookie.eq_def (headerSetCookie h c), h1, UMap.get_set_self]
  refine ⟨⟨_, h1, h2⟩, ?_⟩
  have hmem := (UMap.mem_order o h' (b!"Set-Cookie", cookieText c ++ b!"; " ++ cookieText d)).2 h2
  have hnd : ((o.order h').map Prod.fst).Nodup := ((o.perm h').map Prod.fst).nodup_iff.2 h'.nodup
  exact filter_key_length hnd hmem

example : (headerSetCookie (headerSetCookie UMap.empty
    { key := b!"a", value := b!"1", path := b!"/", secure := true, httpOnly := true })
    { key := b!"b", value := b!"2" }).get b!"Set-Cookie" =
    some b!"a=1; path=/; secure; HttpOnly; b=2" := by decide +kernel

end Cppnet
