import Verif.Props.Req
import Verif.Proofs.Resp

/-!
# C18 (announced length), C25, C28–C32, C69: responses
-/

namespace Cppnet
open Spec

/-- The headers of a built response: Content-Length is the (narrowed) body size, everything else is as
before. -/
def respBuildHeader (r : HttpResp) : HttpHeader :=
  headerSetContentLength r.header (toInt32 r.body.length)

theorem respBuildHeader_get (r : HttpResp) (k : Str) :
    (respBuildHeader r).get k =
      if k = b!"Content-Length" then some (intToStr (toInt32 r.body.length)) else r.header.get k := by
  unfold respBuildHeader headerSetContentLength
  rw [UMap.get_set]

/-- A response whose headers survive the wire (any Content-Length will be replaced). -/
def WireResponse (r : HttpResp) : Prop :=
  r.status ≠ .UNKNOWN ∧
  ∀ k v, r.header.get k = some v → k = b!"Content-Length" ∨ WireField k v

theorem WireResponse.headers {r : HttpResp} (h : WireResponse r) : WireHeaders (respBuildHeader r) := by
  intro k v hk
  rw [respBuildHeader_get] at hk
  by_cases h1 : k = b!"Content-Length"
  · subst h1
    simp only [if_true, Option.some.injEq] at hk
    rw [← hk]; exact contentLength_wire _
  · simp only [h1, if_false] at hk
    exact (h.2 k v hk).resolve_left h1

/-- The status line Build writes. -/
def respLine (r : HttpResp) : Str :=
  versionToStr r.version ++ b!" " ++ intToStr (statusNum r.status) ++ b!" " ++ statusToStr r.status

theorem status_bytes (c : HttpStatus) :
    32 ∉ intToStr (statusNum c) ∧ 13 ∉ intToStr (statusNum c) ∧ 13 ∉ statusToStr c := by
  cases c <;> decide +kernel

theorem status_range (c : HttpStatus) : intMin ≤ statusNum c ∧ statusNum c ≤ intMax := by
  cases c <;> decide +kernel

theorem respLine_status (r : HttpResp) :
    StatusLine (respLine r) (versionToStr r.version) (intToStr (statusNum r.status)) (statusToStr r.status) :=
  ⟨rfl, (version_no_space _).1, (status_bytes _).1⟩

theorem respLine_clean (r : HttpResp) : ¬ crlf <:+: respLine r := by
  intro hin
  have := mem_infix (x := 13) (by simp [crlf]) hin
  simp [respLine, (version_no_space _).2, (status_bytes _).2] at this

theorem respBuild_eq (o : HashOrder) (r : HttpResp) (old : Str) (h : r.status ≠ .UNKNOWN) :
    respBuild o r old = ({ r with header := respBuildHeader r },
      respLine r ++ crlf ++ headerToString o (respBuildHeader r) ++ r.body, kSuccess) := by
  unfold respBuild
  rw [if_neg h]
  rfl

theorem respBuild_message (o : HashOrder) (r : HttpResp) (old : Str) (h : WireResponse r) :
    ∃ text, respBuild o r old = ({ r with header := respBuildHeader r }, text, kSuccess) ∧
      MessageText text (respLine r) (headerLines o (respBuildHeader r)) r.body := by
  refine ⟨_, respBuild_eq o r old h.1, ?_⟩
  rw [messageText_iff]
  refine ⟨?_, respLine_clean r, headerLines_clean h.headers⟩
  simp [headerToString_eq]

theorem headerLines_ne_nil (o : HashOrder) (r : HttpResp) : headerLines o (respBuildHeader r) ≠ [] := by
  intro h
  have h1 : o.order (respBuildHeader r) = [] := by
    simpa [headerLines] using h
  have := (UMap.mem_order o (respBuildHeader r) (b!"Content-Length", intToStr (toInt32 r.body.length))).2
    (by simp [respBuildHeader_get])
  rw [h1] at this
  simp at this

theorem versionOfStr_toStr (v : HttpVersion) : versionOfStr (versionToStr v) = v := by
  cases v <;> decide +kernel

theorem statusOfInt_num (c : HttpStatus) : statusOfInt (statusNum c) = c := by
  cases c <;> decide +kernel

/-! ### C28 -/

/-- As C28, for bodies of any size: the length that is announced is narrowed to `int`. -/
theorem resp_round_trip (o : HashOrder) (r p : HttpResp) (old : Str) (h : WireResponse r) :
    ∃ r' text, respBuild o r old = (r', text, kSuccess) ∧ (Fits text →
      ∃ q, respParse p text = .ok (q, kSuccess) ∧
        q.status = r.status ∧ q.version = r.version ∧ q.body = r.body ∧
        headerGetContentLength q.header = toInt32 r.body.length ∧
        ∀ k, k ≠ b!"Content-Length" → q.header.get k = ((r.header.get k).or (p.header.get k))) := by
  obtain ⟨text, hb, hm⟩ := respBuild_message o r old h
  refine ⟨_, text, hb, fun hf => ?_⟩
  have hne := headerLines_ne_nil o r
  have hc := headerLines_clean (o := o) h.headers
  have hsub : Fits (joinWith crlf (headerLines o (respBuildHeader r))) := by
    have := (messageText_iff.1 hm).1
    unfold Fits at hf ⊢
    rw [this, joinWith_terminated hne] at hf
    simp only [List.length_append] at hf
    omega
  have hcol : ∀ l ∈ headerLines o (respBuildHeader r), 58 ∈ l := by
    intro l hl
    obtain ⟨p, hp, rfl⟩ := List.mem_map.1 hl
    exact colon_mem_line p
  have hj : joinWith crlf (headerLines o (respBuildHeader r)) ≠ [] := by
    intro e
    have := split_joined hne hc
    rw [e] at this
    rw [← this] at hc
    have := (hc [] (by rw [split_crlf_none (by simp)]; simp)).1
    simp at this
  have hp := respParse_message p hm hne hf
  rw [respTail_line _ (respLine_status r), stoi_intToStr _ (status_range _).1 (status_range _).2] at hp
  unfold respFinish at hp
  simp only [headerParse_eq _ _ hj hsub, split_joined hne hc, if_pos hcol, headerLines_good h.headers, bind,
    Except.bind, versionOfStr_toStr, statusOfInt_num] at hp
  have hget : ∀ k, (p.header.setAll (o.order (respBuildHeader r))).get k =
      ((respBuildHeader r).get k).or (p.header.get k) := fun k => UMap.get_setAll_order ..
  refine ⟨_, hp, rfl, rfl, rfl, ?_, fun k hk => ?_⟩
  · rw [getContentLength_of (n := r.body.length) (by simp [hget, respBuildHeader_get])]
  · simp only [hget, respBuildHeader_get, hk, if_false]

/-- C28: parsing the text of a built response with wire-safe headers, into any object, gives back
status, version, body and all headers that were set; Content-Length is the body length (below 2 GiB);
headers not set keep the value they had in the object parsed into (none for a fresh one). -/
theorem C28_round_trip (o : HashOrder) (r p : HttpResp) (old : Str) (h : WireResponse r) :
    ∃ r' text, respBuild o r old = (r', text, kSuccess) ∧ (Fits text →
      ∃ q, respParse p text = .ok (q, kSuccess) ∧
        q.status = r.status ∧ q.version = r.version ∧ q.body = r.body ∧
        (r.body.length < 2 ^ 31 → headerGetContentLength q.header = r.body.length) ∧
        ∀ k, k ≠ b!"Content-Length" → q.header.get k = ((r.header.get k).or (p.header.get k))) := by
  obtain ⟨r', text, hb, hc⟩ := resp_round_trip o r p old h
  refine ⟨r', text, hb, fun hf => ?_⟩
  obtain ⟨q, h1, h2, h3, h4, h5, h6⟩ := hc hf
  exact ⟨q, h1, h2, h3, h4, fun hl => by rw [h5, toInt32_small hl], h6⟩

/-- A response with a binary body that itself contains CRLFCRLF. -/
def demoResp : HttpResp :=
  { status := .NOT_FOUND, version := .HTTP_1_0, header := UMap.empty.set b!"X-Y" b!"1: 2", body := b!"a\r\n\r\nb" }

example : WireResponse demoResp := by
  refine ⟨by decide, fun k v hkv => ?_⟩
  have := (UMap.get_iff_mem _ _ _).1 hkv
  have e : demoResp.header.entries = [(b!"X-Y", b!"1: 2")] := by decide +kernel
  rw [e] at this
  simp only [List.mem_cons, List.not_mem_nil, or_false, Prod.mk.injEq] at this
  obtain ⟨rfl, rfl⟩ := this
  exact Or.inr ⟨by decide, by decide, by decide, 49, b!": 2", rfl, by decide⟩

example : (respBuild .insertion demoResp []).2.1 =
    b!"HTTP/1.0 404 Not Found\r\nX-Y: 1: 2\r\nContent-Length: 6\r\n\r\na\r\n\r\nb" := by decide +kernel

/-! ### C18, C25, C30 for responses -/

/-- C18, responses: Build announces the exact body length for bodies below 2 GiB … -/
theorem C18_announced_resp_partial (o : HashOrder) (r : HttpResp) (old : Str) (hs : r.status ≠ .UNKNOWN)
    (hl : r.body.length < 2 ^ 31) :
    headerGetContentLength (respBuild o r old).1.header = r.body.length := by
  rw [respBuild_eq o r old hs,
    getContentLength_of (n := r.body.length) (by simp [respBuildHeader_get]), toInt32_small hl]

/-- … and a wrong one for every larger body. -/
theorem C18_announced_resp_refuted (o : HashOrder) (r : HttpResp) (old : Str) (hs : r.status ≠ .UNKNOWN)
    (hl : 2 ^ 31 ≤ r.body.length) :
    headerGetContentLength (respBuild o r old).1.header ≠ r.body.length := by
  rw [respBuild_eq o r old hs, getContentLength_of (n := r.body.length) (by simp [respBuildHeader_get])]
  have := (toInt32_range r.body.length).2
  unfold intMax at this
  omega

/-- C25, responses, the part that holds: one line per header, nothing else. -/
theorem C25_no_injection_resp_partial (o : HashOrder) (r : HttpResp) (old : Str) (h : WireResponse r) :
    ∃ r' text line ls, respBuild o r old = (r', text, kSuccess) ∧ MessageText text line ls r.body ∧
      ls.length = r'.header.size ∧
      (∀ l, l ∈ ls ↔ ∃ k v, l = k ++ b!": " ++ v ∧ r'.header.get k = some v) ∧
      ∀ k, k ≠ b!"Content-Length" → r'.header.get k = r.header.get k := by
  obtain ⟨text, hb, hm⟩ := respBuild_message o r old h
  refine ⟨_, text, _, _, hb, hm, ?_, ?_, ?_⟩
  · simp [headerLines, UMap.size, (o.perm _).length_eq]
  · intro l
    simp only [headerLines, List.mem_map]
    constructor
    · rintro ⟨p, hp, rfl⟩
      exact ⟨p.1, p.2, rfl, (UMap.mem_order o _ p).1 hp⟩
    · rintro ⟨k, v, rfl, hk⟩
      exact ⟨(k, v), (UMap.mem_order o _ _).2 hk, rfl⟩
  · intro k k1
    simp only [respBuildHeader_get, k1, if_false]

/-- C25 is false for responses too: a redirect target with a CRLF adds a header, and a target with
CRLFCRLF ends the header block and replaces the body. -/
theorem C25_redirect_injection_refuted :
    (respBuild .insertion (respRedirect {} b!"/x\r\nEvil: 2" false) []).2.1 =
      b!"HTTP/1.1 302 Found\r\nContent-Type: text/html\r\nLocation: /x\r\nEvil: 2\r\nContent-Length: 44\r\n\r\n<html><body><h1>302 Found</h1></body></html>" ∧
    (respParse {} (respBuild .insertion (respRedirect {} b!"/x\r\n\r\nEvil" false) []).2.1).map (fun q => q.1.body) =
      .ok b!"Evil\r\nContent-Length: 44\r\n\r\n<html><body><h1>302 Found</h1></body></html>" := by
  decide +kernel

/-- C30, responses: the first CRLFCRLF of the built text ends the header block, what follows is exactly
the body, and the announced length is its length. -/
theorem C30_response_delimited (o : HashOrder) (r : HttpResp) (old : Str) (h : WireResponse r) :
    ∃ r' head, respBuild o r old = (r', head ++ crlf2 ++ r.body, kSuccess) ∧
      ¬ Occurs crlf2 (head ++ crlf2.dropLast) ∧
      (r.body.length < 2 ^ 31 → headerGetContentLength r'.header = r.body.length) := by
  obtain ⟨text, hb, hm⟩ := respBuild_message o r old h
  obtain ⟨head, h1, h2⟩ := message_head hm
  refine ⟨_, head, by rw [hb, h1], h2, fun hl => ?_⟩
  have := C18_announced_resp_partial o r old h.1 hl
  rwa [hb] at this

/-! ### C29, C69 -/

/-- C29 is false: the two-byte text CRLF makes Parse throw `std::out_of_range`. -/
theorem C29_total_refuted (r : HttpResp) : respParse r b!"\r\n" = .error .outOfRange := by
  have h1 : find b!"\r\n" crlf = some 0 := by decide +kernel
  have h2 : find b!"\r\n" crlf2 = none := by decide +kernel
  rw [respParse_eq r (by simp) h1, h2]
  have e1 : substr b!"\r\n" (0 + 2) (szSub (szSub (posOrNpos none) 0) 2) = .ok [] := by decide +kernel
  have e2 : substrFrom b!"\r\n" (szAdd (posOrNpos none) 4) = .error .outOfRange := by decide +kernel
  rw [e1, e2]
  rfl

/-- C29 for every other text: Parse returns success or a logic error, from any previous state. -/
theorem C29_total_partial (r : HttpResp) (s : Str) (hf : Fits s) (hs : s ≠ b!"\r\n") :
    ∃ r' rc, respParse r s = .ok (r', rc) ∧ (rc = kSuccess ∨ rc = kLogicErr) := by
  by_cases h0 : s = []
  · exact ⟨r, kLogicErr, by simp [respParse, h0], Or.inr rfl⟩
  cases hp : find s crlf with
  | none => exact ⟨r, kLogicErr, by simp [respParse, h0, hp], Or.inr rfl⟩
  | some pos =>
    have hpos : pos + 2 ≤ s.length := by
      rw [find_zero] at hp
      obtain ⟨a, b, rfl, rfl, _⟩ := (findAux_some_iff (by simp [crlf])).1 hp
      simp [crlf]
    have hlen : 3 ≤ s.length := by
      refine Classical.byContradiction fun hlt => hs ?_
      rw [find_zero] at hp
      obtain ⟨a, b, rfl, rfl, _⟩ := (findAux_some_iff (by simp [crlf])).1 hp
      simp only [List.length_append, crlf, List.length_cons, List.length_nil] at hlt
      have ha : a = [] := List.eq_nil_of_length_eq_zero (by omega)
      have hb : b = [] := List.eq_nil_of_length_eq_zero (by omega)
      simp [ha, hb, crlf]
    have hend : szAdd (posOrNpos (find s crlf2)) 4 ≤ s.length := by
      cases he : find s crlf2 with
      | none => simp only [posOrNpos, szAdd]; exact Nat.le_trans (by decide) hlen
      | some e =>
        rw [find_zero] at he
        obtain ⟨a, b, rfl, rfl, _⟩ := (findAux_some_iff (by simp [crlf2])).1 he
        unfold Fits at hf
        simp only [List.length_append, crlf2, List.length_cons, List.length_nil] at hf
        simp only [posOrNpos, szAdd, List.length_append, crlf2, List.length_cons, List.length_nil]
        omega
    rw [respParse_eq r h0 hp, substr_ok hpos, substrFrom_ok hend]
    simp only [bind, Except.bind]
    refine respTail_total _ _ _ ?_
    unfold Fits at hf ⊢
    simp only [List.length_take, List.length_drop]
    omega

example : respParse {} b!"HTTP/1.1 abc OK\r\n\r\n" = .ok ({}, kLogicErr) := by decide +kernel

/-- C69 is false: a response whose header block is not terminated (the connection broke inside it) is
accepted, and the text from its fourth byte on becomes the body. -/
theorem C69_unterminated_refuted :
    respParse {} b!"HTTP/1.1 200 OK\r\nA: b" =
      .ok ({ status := .OK, header := UMap.empty.set b!"A" b!"b", body := b!"P/1.1 200 OK\r\nA: b" }, kSuccess) := by
  decide +kernel

/-- C69 in general: every unterminated text with a good status line and header lines is accepted. -/
theorem C69_unterminated_general_refuted (r : HttpResp) (line v code phrase : Str) (ls : List Str) (n : Int)
    (hl : StatusLine line v code phrase) (hn : stoi code = .ok n) (hc : ¬ Occurs crlf line)
    (hne : ls ≠ []) (hls : ∀ l ∈ ls, l ≠ [] ∧ ¬ Occurs crlf l) (hcol : ∀ l ∈ ls, 58 ∈ l)
    (hf : Fits (line ++ crlf ++ joinWith crlf ls)) (hnb : ¬ Occurs crlf2 (line ++ crlf ++ joinWith crlf ls)) :
    ∃ q, respParse r (line ++ crlf ++ joinWith crlf ls) = .ok (q, kSuccess) ∧
      q.body = (line ++ crlf ++ joinWith crlf ls).drop 3 := by
  rw [occurs_iff_infix] at hc hnb
  replace hls : CleanLines ls := fun l hl => by have := hls l hl; rwa [occurs_iff_infix] at this
  have hp : find (line ++ crlf ++ joinWith crlf ls) crlf = some line.length := by
    rw [find_zero]; exact find_crlf_append hc
  have h2 : find (line ++ crlf ++ joinWith crlf ls) crlf2 = none := by
    rw [find_zero]; exact findAux_none.2 hnb
  have hj : joinWith crlf ls ≠ [] := by
    intro e
    have := split_joined hne hls
    rw [e] at this
    rw [← this] at hls
    have := (hls [] (by rw [split_crlf_none (by simp)]; simp)).1
    simp at this
  have hj1 : 1 ≤ (joinWith crlf ls).length := by
    cases hjj : joinWith crlf ls with
    | nil => exact absurd hjj hj
    | cons a b => simp
  have hlen : (line ++ crlf ++ joinWith crlf ls).length = line.length + 2 + (joinWith crlf ls).length := by
    simp [crlf]; omega
  unfold Fits at hf
  have hsub : Fits (joinWith crlf ls) := by unfold Fits; omega
  have e2 : szAdd (posOrNpos none) 4 = 3 := by decide +kernel
  rw [respParse_eq r (by simp [crlf]) hp, h2, substr_ok (by omega), e2, substrFrom_ok (by omega)]
  have hd : (line ++ crlf ++ joinWith crlf ls).drop (line.length + 2) = joinWith crlf ls := by
    rw [List.drop_append_of_le_length (by simp [crlf]), List.drop_of_length_le (by simp [crlf])]
    simp
  have ht : (joinWith crlf ls).take (szSub (szSub (posOrNpos none) line.length) 2) = joinWith crlf ls := by
    apply List.take_of_length_le
    simp only [posOrNpos, szSub, npos]
    omega
  have hline : (line ++ crlf ++ joinWith crlf ls).take line.length = line := by simp
  simp only [bind, Except.bind, hd, ht, hline]
  rw [respTail_line _ hl, hn]
  unfold respFinish
  simp only [headerParse_eq _ _ hj hsub, split_joined hne hls, if_pos hcol, bind, Except.bind]
  exact ⟨_, rfl, rfl⟩

/-- C69, the part that holds: a text without any CRLF is rejected and leaves the object unchanged. -/
theorem C69_no_line_partial (r : HttpResp) (s : Str) (h : ¬ Occurs crlf s) :
    respParse r s = .ok (r, kLogicErr) := by
  have : find s crlf = none := by rw [find_zero]; exact findAux_none.2 (fun hi => h (occurs_iff_infix.2 hi))
  by_cases hs : s = []
  · simp [respParse, hs]
  · simp [respParse, hs, this]

/-! ### C31 -/

/-- `r'` is `r` with status, body and Content-Type set, and nothing else changed. -/
def Spec.SetTo (r r' : HttpResp) (status : HttpStatus) (body type : Str) : Prop :=
  r'.status = status ∧ r'.body = body ∧ r'.version = r.version ∧
  r'.header.get b!"Content-Type" = some type ∧ ∀ k, k ≠ b!"Content-Type" → r'.header.get k = r.header.get k

theorem setTo_respType (r : HttpResp) (status : HttpStatus) (body type : Str) :
    SetTo r (respType { r with status, body } type) status body type :=
  ⟨rfl, rfl, rfl, by simp [respType], fun k hk => by simp [respType, UMap.get_set_ne _ _ hk]⟩

/-- C31: the helpers set exactly the documented status, body and Content-Type. -/
theorem C31_helpers (r : HttpResp) (body : Str) (status : HttpStatus) :
    SetTo r (respNotFound r) .NOT_FOUND b!"<html><body><h1>404 Not Found</h1></body></html>" b!"text/html" ∧
    SetTo r (respSuccessWithBinary r body) .OK body b!"application/octet-stream" ∧
    SetTo r (respSuccessWithJson r body) .OK body b!"application/json" ∧
    SetTo r (respBadRequest r body) .BAD_REQUEST body b!"text/html" ∧
    SetTo r (respInternalServerError r body) .INTERNAL_SERVER_ERROR body b!"text/html" ∧
    SetTo r (respJson r status body) status body b!"application/json" ∧
    SetTo r (respText r status body) status body b!"text/plain" ∧
    respSuccess0 r = { r with status := .OK } :=
  ⟨setTo_respType .., setTo_respType .., setTo_respType .., setTo_respType .., setTo_respType ..,
   setTo_respType .., setTo_respType .., rfl⟩

/-- C31: Redirect sets 301 or 302, the matching page, Content-Type and Location, and no other header. -/
theorem C31_redirect (r : HttpResp) (location : Str) (forever : Bool) :
    let q := respRedirect r location forever
    q.status = (if forever then .MOVED_PERMANENTLY else .FOUND) ∧
    q.body = (if forever then b!"<html><body><h1>301 Moved Permanently</h1></body></html>"
      else b!"<html><body><h1>302 Found</h1></body></html>") ∧ q.version = r.version ∧
    q.header.get b!"Content-Type" = some b!"text/html" ∧ q.header.get b!"Location" = some location ∧
    ∀ k, k ≠ b!"Content-Type" → k ≠ b!"Location" → q.header.get k = r.header.get k := by
  intro q
  have hne : (b!"Content-Type" : Str) ≠ b!"Location" := by decide
  refine ⟨?_, ?_, ?_, ?_, ?_, fun k h1 h2 => ?_⟩ <;> cases forever <;>
    simp [q, respRedirect, respType, headerAdd, UMap.get_set, *]

/-- C31: Success(type, body) with a built-in type; an empty body argument leaves the body alone. -/
theorem C31_success (g : UMap) (r : HttpResp) (t : ContentType) (name : Str) (suffixes : List Str) (body : Str)
    (ht : (t, name, suffixes) ∈ contentTable) :
    SetTo r (respSuccess g r t body).1 .OK (if body = [] then r.body else body) name ∧
    (respSuccess g r t body).2 = g := by
  have hn : contentTypeToStr g t [] = (name, g) := by
    simp only [contentTable, List.mem_cons, Prod.mk.injEq, List.not_mem_nil, or_false] at ht
    rcases ht with h | h | h | h | h | h | h | h | h | h <;> (obtain ⟨rfl, rfl, _⟩ := h; rfl)
  refine ⟨⟨?_, ?_, ?_, ?_, fun k hk => ?_⟩, ?_⟩ <;> by_cases hb : body = [] <;>
    simp [respSuccess, headerSetContentType, hn, hb, UMap.get_set, *]

/-- C31: Build fails exactly for status UNKNOWN, and then leaves object and text alone. -/
theorem C31_build_fails (o : HashOrder) (r : HttpResp) (old : Str) :
    (r.status = .UNKNOWN → respBuild o r old = (r, old, kLogicErr)) ∧
    (r.status ≠ .UNKNOWN → (respBuild o r old).2.2 = kSuccess) := by
  constructor
  · intro h; simp [respBuild, h]
  · intro h; rw [respBuild_eq o r old h]

example : (respRedirect demoResp b!"/y" true).header.get b!"X-Y" = some b!"1: 2" ∧
    (respNotFound demoResp).header.get b!"Content-Type" = some b!"text/html" := by decide +kernel

/-! ### C32 for responses -/

/-- C32 is false for responses: the headers of an earlier response stay (the client relies on the
caller to pass a fresh object). -/
theorem C32_stale_response_refuted :
    respParse { header := UMap.empty.set b!"Set-Cookie" b!"old" } b!"HTTP/1.1 200 OK\r\nA: b\r\n\r\n" =
      .ok ({ status := .OK, header := (UMap.empty.set b!"Set-Cookie" b!"old").set b!"A" b!"b" }, kSuccess) := by
  decide +kernel

/-- C32, the part that holds: after Clear, an accepted text gives exactly the object a fresh one would
hold, and the same texts are accepted. -/
theorem C32_resp_after_clear_partial (r q : HttpResp) (s : Str) :
    respParse (respClear r) s = .ok (q, kSuccess) ↔ respParse {} s = .ok (q, kSuccess) := by
  have key : ∀ v, respParse { version := v } s = .ok (q, kSuccess) ↔ respParse {} s = .ok (q, kSuccess) := by
    intro v
    by_cases h0 : s = []
    · simp [respParse, h0, kLogicErr, kSuccess]
    cases hp : find s crlf with
    | none => simp [respParse, h0, hp, kLogicErr, kSuccess]
    | some pos =>
      rw [respParse_eq _ h0 hp, respParse_eq _ h0 hp]
      cases substr s (pos + 2) (szSub (szSub (posOrNpos (find s crlf2)) pos) 2) with
      | error e => simp [bind, Except.bind]
      | ok header =>
        cases substrFrom s (szAdd (posOrNpos (find s crlf2)) 4) with
        | error e => simp [bind, Except.bind]
        | ok body =>
          simp only [bind, Except.bind]
          generalize s.take pos = line
          cases h1 : find line b!" " with
          | none => simp [respTail, h1, kLogicErr, kSuccess]
          | some a =>
            cases h2 : find line b!" " (a + 1) with
            | none => simp [respTail, h1, h2, kLogicErr, kSuccess]
            | some b =>
              obtain ⟨v, c, p, hs⟩ := statusLine_of_find h1 h2
              rw [respTail_line _ hs, respTail_line _ hs]
              cases stoi c with
              | error e => simp [respFinish, kLogicErr, kSuccess]
              | ok n => rfl
  exact key r.version

end Cppnet
