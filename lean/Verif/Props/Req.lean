import Verif.Props.Header
import Verif.Props.Strings
import Verif.Props.Route

/-!
# C18 (announced length), C23–C27, C30, C32: requests
-/

namespace Cppnet
open Spec

/-! ### What Build adds -/

/-- The headers of a built request: Content-Length is the (narrowed) body size, Host is `localhost` if
it was absent or empty, everything else is as before. -/
theorem reqBuildHeader_get (r : HttpReq) (k : Str) :
    (reqBuildHeader r).get k =
      if k = b!"Content-Length" then some (intToStr (toInt32 r.body.length))
      else if k = b!"Host" ∧ headerGet r.header b!"Host" = [] then some b!"localhost"
      else r.header.get k := by
  unfold reqBuildHeader headerSetContentLength headerAdd
  rw [UMap.get_set]
  by_cases h1 : k = b!"Content-Length"
  · simp [h1]
  · simp only [h1, if_false]
    by_cases h2 : headerGet r.header b!"Host" = []
    · simp only [h2, if_true, and_true, UMap.get_set]
    · simp [h2]

theorem intToStr_wire (i : Int) : ∃ c t, intToStr i = c :: t ∧ c ≠ 32 ∧ 13 ∉ intToStr i := by
  have hd := natToStr_digits i.natAbs
  have hne := natToStr_ne_nil i.natAbs
  have h13 : 13 ∉ natToStr i.natAbs := fun h => by have := hd 13 h; revert this; decide
  unfold intToStr
  split
  · exact ⟨45, _, rfl, by decide, by simp [h13]⟩
  · cases hn : natToStr i.natAbs with
    | nil => exact absurd hn hne
    | cons c t =>
      refine ⟨c, t, rfl, ?_, by rw [← hn]; exact h13⟩
      rintro rfl
      have := hd 32 (by rw [hn]; simp)
      revert this; decide

theorem contentLength_wire (i : Int) : WireField b!"Content-Length" (intToStr i) := by
  obtain ⟨c, t, h1, h2, h3⟩ := intToStr_wire i
  exact ⟨by decide, by decide, h3, c, t, h1, h2⟩

theorem getContentLength_of {h : HttpHeader} {n : Nat}
    (hg : h.get b!"Content-Length" = some (intToStr (toInt32 n))) : headerGetContentLength h = toInt32 n := by
  simp only [headerGetContentLength, hg, stoi_intToStr _ (toInt32_range n).1 (toInt32_range n).2]

/-- The caller's headers survive the wire (an empty Host and any Content-Length will be replaced). -/
def WireRequest (r : HttpReq) : Prop :=
  r.method ≠ .UNKNOWN ∧ r.version ≠ .UNKNOWN ∧ WireRoute r.route.path r.route.params ∧
  ∀ k v, r.header.get k = some v → k = b!"Content-Length" ∨ (k = b!"Host" ∧ v = []) ∨ WireField k v

theorem WireRequest.headers {r : HttpReq} (h : WireRequest r) : WireHeaders (reqBuildHeader r) := by
  intro k v hk
  rw [reqBuildHeader_get] at hk
  by_cases h1 : k = b!"Content-Length"
  · subst h1
    simp only [if_true, Option.some.injEq] at hk
    rw [← hk]; exact contentLength_wire _
  · simp only [h1, if_false] at hk
    by_cases h2 : k = b!"Host" ∧ headerGet r.header b!"Host" = []
    · rw [if_pos h2] at hk
      injection hk with hk
      rw [h2.1, ← hk]
      exact ⟨by decide, by decide, by decide, 108, b!"ocalhost", rfl, by decide⟩
    · rw [if_neg h2] at hk
      rcases h.2.2.2 k v hk with h' | ⟨h', rfl⟩ | h'
      · exact absurd h' h1
      · exfalso; apply h2
        refine ⟨h', ?_⟩
        rw [h'] at hk
        simp [headerGet, hk]
      · exact h'

/-- The lines of a header map. -/
def headerLines (o : HashOrder) (h : HttpHeader) : List Str :=
  (o.order h).map (fun p => p.1 ++ b!": " ++ p.2)

theorem headerToString_eq (o : HashOrder) (h : HttpHeader) :
    headerToString o h = terminated (headerLines o h) ++ crlf := by
  unfold headerToString terminated headerLines
  rw [List.map_map]
  rfl

theorem headerLines_clean {o : HashOrder} {h : HttpHeader} (hw : WireHeaders h) :
    CleanLines (headerLines o h) := by
  intro l hl
  obtain ⟨p, hp, rfl⟩ := List.mem_map.1 hl
  refine ⟨by simp, fun hin => line_no_cr (wirePairs_order hw o p hp) (mem_infix (by simp [crlf]) hin)⟩

theorem headerLines_good {o : HashOrder} {h : HttpHeader} (hw : WireHeaders h) :
    (goodLines (headerLines o h)).map codeField = o.order h := by
  have hc : ∀ l ∈ headerLines o h, 58 ∈ l := by
    intro l hl
    obtain ⟨p, hp, rfl⟩ := List.mem_map.1 hl
    exact colon_mem_line p
  have := goodLines_append_all (qs := []) hc
  rw [List.append_nil] at this
  rw [this]
  simp only [goodLines, List.takeWhile_nil, List.append_nil]
  exact map_codeField_lines _ (wirePairs_order hw o)

theorem method_no_space (m : HttpMethod) : 32 ∉ methodToStr m ∧ 13 ∉ methodToStr m := by
  cases m <;> decide

theorem version_no_space (v : HttpVersion) : 32 ∉ versionToStr v ∧ 13 ∉ versionToStr v := by
  cases v <;> decide

theorem target_bytes (o : HashOrder) (r : HttpRoute) : ∀ c ∈ routeToString o r, 32 < c ∧ c < 127 :=
  (C04_encode_bytes _).1

/-- The request line Build writes. -/
def reqLine (o : HashOrder) (r : HttpReq) : Str :=
  methodToStr r.method ++ b!" " ++ routeToString o r.route ++ b!" " ++ versionToStr r.version

theorem reqLine_three (o : HashOrder) (r : HttpReq) :
    ThreeTokens (reqLine o r) (methodToStr r.method) (routeToString o r.route) (versionToStr r.version) :=
  ⟨rfl, (method_no_space _).1, fun h => absurd (target_bytes o _ 32 h).1 (by decide), (version_no_space _).1⟩

theorem reqLine_no_cr (o : HashOrder) (r : HttpReq) : 13 ∉ reqLine o r := by
  have h : 13 ∉ routeToString o r.route := fun h => absurd (target_bytes o _ 13 h).1 (by decide)
  simp [reqLine, (method_no_space _).2, (version_no_space _).2, h]

theorem reqLine_clean (o : HashOrder) (r : HttpReq) : ¬ crlf <:+: reqLine o r :=
  fun hin => reqLine_no_cr o r (mem_infix (by simp [crlf]) hin)

theorem reqBuild_message (o : HashOrder) (r : HttpReq) (old : Str) (h : WireRequest r) :
    ∃ text, reqBuild o r old = ({ r with header := reqBuildHeader r }, text, kSuccess) ∧
      MessageText text (reqLine o r) (headerLines o (reqBuildHeader r)) r.body := by
  refine ⟨_, by unfold reqBuild; rw [if_neg (by simp [h.1, h.2.1])], ?_⟩
  rw [messageText_iff]
  refine ⟨?_, reqLine_clean o r, headerLines_clean h.headers⟩
  simp [headerToString_eq, reqLine]

/-! ### C23 -/

/-- As C23, for bodies of any size: the length that is announced is narrowed to `int`. -/
theorem req_round_trip (o : HashOrder) (r : HttpReq) (old : Str) (h : WireRequest r) :
    ∃ r' text, reqBuild o r old = (r', text, kSuccess) ∧ (Fits text →
      ∃ q, reqParse {} text = .ok (q, kSuccess) ∧
        q.method = r.method ∧ q.version = r.version ∧ q.route.path = r.route.path ∧
        SameMap q.route.params r.route.params ∧ q.body = r.body ∧
        headerGetContentLength q.header = toInt32 r.body.length ∧
        headerGetHost q.header =
          (if headerGetHost r.header = [] then b!"localhost" else headerGetHost r.header) ∧
        ∀ k, k ≠ b!"Content-Length" → k ≠ b!"Host" → q.header.get k = r.header.get k) := by
  obtain ⟨text, hb, hm⟩ := reqBuild_message o r old h
  refine ⟨_, text, hb, fun hf => ?_⟩
  have hp := reqParse_message {} hm hf
  obtain ⟨h1, h2, r', h3, h4, h5⟩ := WireRoute.result (o := o) h.2.2.1
  have em : methodOfStr (methodToStr r.method) = r.method := (C13_methods.2.2.1 _ _ h.1).2 rfl
  have ev : versionOfStr (versionToStr r.version) = r.version := (C13_versions.2.2.1 _ _ h.2.1).2 rfl
  rw [reqTail_three _ (reqLine_three o r) h1 h2 (by rw [em]; exact h.1) (by rw [ev]; exact h.2.1), em, ev,
    headerLines_good h.headers] at hp
  have hget : ∀ k, (UMap.empty.setAll (o.order (reqBuildHeader r))).get k = (reqBuildHeader r).get k := by
    intro k; rw [UMap.get_setAll_order]; simp
  refine ⟨_, hp, rfl, rfl, ?_, ?_, rfl, ?_, ?_, ?_⟩
  · simp only [h3]; exact h4
  · simp only [h3]; exact h5
  · rw [getContentLength_of (n := r.body.length) (by simp [hget, reqBuildHeader_get])]
  · obtain ⟨x, hx⟩ : ∃ x, r.header.get b!"Host" = x := ⟨_, rfl⟩
    cases x with
    | none => simp [headerGetHost, hget, reqBuildHeader_get, headerGet, hx]
    | some v => by_cases hv : v = [] <;> simp [headerGetHost, hget, reqBuildHeader_get, headerGet, hx, hv]
  · intro k k1 k2
    simp only [hget, reqBuildHeader_get, k1, k2, false_and, if_false]

/-- C23: parsing the text of a built request with wire-safe headers and route gives back method,
version, path, parameters, body and all headers; Host is added when it was missing; Content-Length is
the body length (below 2 GiB). -/
theorem C23_round_trip (o : HashOrder) (r : HttpReq) (old : Str) (h : WireRequest r) :
    ∃ r' text, reqBuild o r old = (r', text, kSuccess) ∧ (Fits text →
      ∃ q, reqParse {} text = .ok (q, kSuccess) ∧
        q.method = r.method ∧ q.version = r.version ∧ q.route.path = r.route.path ∧
        SameMap q.route.params r.route.params ∧ q.body = r.body ∧
        (r.body.length < 2 ^ 31 → headerGetContentLength q.header = r.body.length) ∧
        headerGetHost q.header =
          (if headerGetHost r.header = [] then b!"localhost" else headerGetHost r.header) ∧
        ∀ k, k ≠ b!"Content-Length" → k ≠ b!"Host" → q.header.get k = r.header.get k) := by
  obtain ⟨r', text, hb, hc⟩ := req_round_trip o r old h
  refine ⟨r', text, hb, fun hf => ?_⟩
  obtain ⟨q, h1, h2, h3, h4, h5, h6, h7, h8, h9⟩ := hc hf
  exact ⟨q, h1, h2, h3, h4, h5, h6, fun hl => by rw [h7, toInt32_small hl], h8, h9⟩

def demoReq : HttpReq :=
  { method := .POST, version := .HTTP_1_0, route := demoRoute, body := b!"a\r\n\r\nb",
    header := (UMap.empty.set b!"X-Y" b!"1: 2").set b!"Host" [] }

example : (reqBuild .insertion demoReq []).2.1 =
    b!"POST /a/b.c?q?=1+=%0D%0A%2B%25&= HTTP/1.0\r\nX-Y: 1: 2\r\nHost: localhost\r\nContent-Length: 6\r\n\r\na\r\n\r\nb" := by
  decide +kernel
example : ∀ k v, demoReq.header.get k = some v →
    k = b!"Content-Length" ∨ (k = b!"Host" ∧ v = []) ∨ WireField k v := by
  intro k v hkv
  have := (UMap.get_iff_mem _ _ _).1 hkv
  have : (k, v) = (b!"X-Y", b!"1: 2") ∨ (k, v) = (b!"Host", b!"") := by
    have e : demoReq.header.entries = [(b!"X-Y", b!"1: 2"), (b!"Host", b!"")] := by decide +kernel
    rw [e] at this
    simpa using this
  rcases this with e | e <;> cases e
  · exact Or.inr (Or.inr ⟨by decide, by decide, by decide, 49, b!": 2", rfl, by decide⟩)
  · exact Or.inr (Or.inl ⟨rfl, rfl⟩)

/-! ### C18, C30 -/

/-- C18, requests: Build announces the exact body length for bodies below 2 GiB … -/
theorem C18_announced_partial (o : HashOrder) (r : HttpReq) (old : Str) (hm : r.method ≠ .UNKNOWN)
    (hv : r.version ≠ .UNKNOWN) (hl : r.body.length < 2 ^ 31) :
    headerGetContentLength (reqBuild o r old).1.header = r.body.length := by
  have : (reqBuild o r old).1.header = reqBuildHeader r := by
    unfold reqBuild; rw [if_neg (by simp [hm, hv])]
  rw [this, getContentLength_of (n := r.body.length) (by simp [reqBuildHeader_get]), toInt32_small hl]

/-- … and a wrong one for every larger body (the size is narrowed to `int`), so C18 is false. -/
theorem C18_announced_refuted (o : HashOrder) (r : HttpReq) (old : Str) (hm : r.method ≠ .UNKNOWN)
    (hv : r.version ≠ .UNKNOWN) (hl : 2 ^ 31 ≤ r.body.length) :
    headerGetContentLength (reqBuild o r old).1.header ≠ r.body.length := by
  have : (reqBuild o r old).1.header = reqBuildHeader r := by
    unfold reqBuild; rw [if_neg (by simp [hm, hv])]
  rw [this, getContentLength_of (n := r.body.length) (by simp [reqBuildHeader_get])]
  have := (toInt32_range r.body.length).2
  unfold intMax at this
  omega

/-- C30, requests: the first CRLFCRLF of the built text ends the header block, what follows is exactly
the body, and the announced length is its length. -/
theorem C30_request_delimited (o : HashOrder) (r : HttpReq) (old : Str) (h : WireRequest r) :
    ∃ r' head, reqBuild o r old = (r', head ++ crlf2 ++ r.body, kSuccess) ∧
      ¬ Occurs crlf2 (head ++ crlf2.dropLast) ∧
      (r.body.length < 2 ^ 31 → headerGetContentLength r'.header = r.body.length) := by
  obtain ⟨text, hb, hm⟩ := reqBuild_message o r old h
  obtain ⟨head, h1, h2⟩ := message_head hm
  refine ⟨_, head, by rw [hb, h1], h2, fun hl => ?_⟩
  have := C18_announced_partial o r old h.1 h.2.1 hl
  rwa [hb] at this

/-! ### C24, C25 -/

/-- C24: whatever path, parameter names and values are, the built text starts with one request line
whose target has no space, no CR, no LF and no other byte outside printable ASCII, and this line
is ended by the first CRLF of the text. -/
theorem C24_request_line (o : HashOrder) (r : HttpReq) (old : Str) (hm : r.method ≠ .UNKNOWN)
    (hv : r.version ≠ .UNKNOWN) :
    ∃ r' m target v rest, reqBuild o r old =
        (r', m ++ b!" " ++ target ++ b!" " ++ v ++ crlf ++ rest, kSuccess) ∧
      (r.method, m) ∈ methodTable ∧ (r.version, v) ∈ versionTable ∧
      (∀ c ∈ target, 32 < c ∧ c < 127) ∧ 13 ∉ m ++ b!" " ++ target ++ b!" " ++ v := by
  refine ⟨{ r with header := reqBuildHeader r }, methodToStr r.method, routeToString o r.route, versionToStr r.version,
    headerToString o (reqBuildHeader r) ++ r.body, ?_, ?_, ?_, target_bytes o _, reqLine_no_cr o r⟩
  · unfold reqBuild; rw [if_neg (by simp [hm, hv])]; simp
  · obtain ⟨n, hn⟩ := C13_methods.2.1 _ hm
    rw [(C13_methods.1 _ _ hn).1]; exact hn
  · obtain ⟨n, hn⟩ := C13_versions.2.1 _ hv
    rw [(C13_versions.1 _ _ hn).1]; exact hn

def evilReq : HttpReq :=
  { method := .GET, route := { path := b!"/a b\r\nX: y" }, header := UMap.empty.set b!"A" b!"1\r\nEvil: 2" }

example : (reqBuild .insertion evilReq []).2.1.take 33 = b!"GET /a+b%0D%0AX%3A+y HTTP/1.1\r\nA:" := by
  decide +kernel

/-- C25 is false: a value with a CRLF in it adds a header the caller did not set (here seen by the
library's own parser). -/
theorem C25_header_injection_refuted :
    evilReq.header.get b!"Evil" = none ∧
    reqParse {} (reqBuild .insertion evilReq []).2.1 =
      .ok ({ method := .GET, route := { path := b!"/a+b%0D%0AX%3A+y" },
             header := (((UMap.empty.set b!"A" b!"1").set b!"Evil" b!"2").set b!"Host" b!"localhost").set
               b!"Content-Length" b!"0" }, kSuccess) := by
  decide +kernel

/-- C25, the part that holds: if no name has a colon or CR and no value a CR (and no value is empty or
starts with a space), the header block is exactly one line per header: the caller's and the
generated ones, each once. -/
theorem C25_no_injection_partial (o : HashOrder) (r : HttpReq) (old : Str) (h : WireRequest r) :
    ∃ r' text line ls, reqBuild o r old = (r', text, kSuccess) ∧ MessageText text line ls r.body ∧
      ls.length = r'.header.size ∧
      (∀ l, l ∈ ls ↔ ∃ k v, l = k ++ b!": " ++ v ∧ r'.header.get k = some v) ∧
      ∀ k, k ≠ b!"Content-Length" → k ≠ b!"Host" → r'.header.get k = r.header.get k := by
  obtain ⟨text, hb, hm⟩ := reqBuild_message o r old h
  refine ⟨_, text, _, _, hb, hm, ?_, ?_, ?_⟩
  · simp [headerLines, UMap.size, (o.perm _).length_eq]
  · intro l
    simp only [headerLines, List.mem_map]
    constructor
    · rintro ⟨p, hp, rfl⟩
      exact ⟨p.1, p.2, rfl, (UMap.mem_order o _ p).1 hp⟩
    · rintro ⟨k, v, rfl, hk⟩
      exact ⟨(k, v), (UMap.mem_order o _ _).2 hk, rfl⟩
  · intro k k1 k2
    simp only [reqBuildHeader_get, k1, k2, false_and, if_false]

/-! ### C26, C27 -/

/-- C26 for texts whose first line is below 2 GiB: Parse returns success or a logic error, whatever the
text and the previous state.  Missing: longer first lines (see the refutation). -/
theorem C26_total_partial (r : HttpReq) (s : Str) (hf : Fits s)
    (hl : ∀ line hdrs body, MessageText s line hdrs body → line.length < 2 ^ 31) :
    ∃ r' rc, reqParse r s = .ok (r', rc) ∧ (rc = kSuccess ∨ rc = kLogicErr) := by
  by_cases h : Occurs crlf2 s
  · obtain ⟨line, ls, body, hm⟩ := message_exists h
    obtain ⟨r', rc, h1, h2, _⟩ := reqTail_total
      { r with header := r.header.setAll ((goodLines ls).map codeField), body := body } line (hl _ _ _ hm)
    exact ⟨r', rc, by rw [reqParse_message r hm hf, h1], h2⟩
  · exact ⟨r, kLogicErr, reqParse_no_blank r h, Or.inr rfl⟩

/-- C26 is false without the bound: a request line with a `?` at position 2^31 of its target makes
Parse throw. -/
theorem C26_total_refuted (r : HttpReq) (path : Str) (h1 : 63 ∉ path) (h2 : 32 ∉ path) (h3 : 13 ∉ path)
    (hl : path.length = 2 ^ 31) :
    reqParse r (b!"GET " ++ path ++ b!"? HTTP/1.1\r\n\r\n") = .error .outOfRange := by
  have ht : ThreeTokens (b!"GET " ++ path ++ b!"? HTTP/1.1") b!"GET" (path ++ 63 :: []) b!"HTTP/1.1" := by
    refine ⟨by simp, by decide, by simp [h2], by decide⟩
  have hm : MessageText (b!"GET " ++ path ++ b!"? HTTP/1.1\r\n\r\n") (b!"GET " ++ path ++ b!"? HTTP/1.1") [] [] := by
    rw [messageText_iff]
    refine ⟨by simp [terminated, crlf], ?_, by simp [CleanLines]⟩
    intro hin
    have := mem_infix (x := 13) (by simp [crlf]) hin
    simp [h3] at this
  rw [reqParse_message r hm (by unfold Fits; simp [hl])]
  unfold reqTail
  rw [split_three ht]
  have e : methodOfStr b!"GET" = .GET := by decide +kernel
  simp only [e]
  rw [if_neg (by simp)]
  rw [(C21_route_parse_huge_refuted r.route path [] h1 (by simp)).1 hl]
  rfl

example : reqParse {} b!"GET /?a HTTP/1.1\r\n\r\nxyz" =
    .ok ({ method := .GET, route := { path := b!"/", params := UMap.empty.set b!"a" [] }, body := b!"xyz" },
      kSuccess) := by decide +kernel

/-- C27, what is accepted (first line below 2 GiB): exactly the texts that have a CRLFCRLF and whose
first line is a known method, a non-empty target and a known version, separated by single spaces.
The full property also demands a colon in every header line; the code does not check that. -/
theorem C27_accepts_partial (r : HttpReq) (s line : Str) (hdrs : List Str) (body : Str) (hf : Fits s)
    (hm : MessageText s line hdrs body) (hl : line.length < 2 ^ 31) :
    (∃ r', reqParse r s = .ok (r', kSuccess)) ↔
      ∃ m t v, ThreeTokens line m t v ∧ t ≠ [] ∧ (∃ me, (me, m) ∈ methodTable) ∧
        (∃ ve, (ve, v) ∈ versionTable) := by
  obtain ⟨r', rc, h1, h2, h3⟩ := reqTail_total
    { r with header := r.header.setAll ((goodLines hdrs).map codeField), body := body } line hl
  rw [reqParse_message r hm hf, h1]
  have hk : ∀ m, methodOfStr m ≠ .UNKNOWN ↔ ∃ me, (me, m) ∈ methodTable := by
    intro m
    rw [Ne, C13_methods.2.2.2 m]
    constructor
    · intro h
      refine Classical.byContradiction fun hn => h fun me n hmn he => hn ⟨me, by rw [he]; exact hmn⟩
    · rintro ⟨me, hme⟩ h; exact h me m hme rfl
  have hv : ∀ m, versionOfStr m ≠ .UNKNOWN ↔ ∃ me, (me, m) ∈ versionTable := by
    intro m
    rw [Ne, C13_versions.2.2.2 m]
    constructor
    · intro h
      refine Classical.byContradiction fun hn => h fun me n hmn he => hn ⟨me, by rw [he]; exact hmn⟩
    · rintro ⟨me, hme⟩ h; exact h me m hme rfl
  simp only [hk, hv] at h3
  rw [← h3]
  constructor
  · rintro ⟨q, hq⟩; injection hq with hq; exact congrArg Prod.snd hq
  · intro e; exact ⟨r', by rw [e]⟩

/-- C27: a text without CRLFCRLF is rejected. -/
theorem C27_rejects_unterminated (r : HttpReq) (s : Str) (h : ¬ Occurs crlf2 s) :
    reqParse r s = .ok (r, kLogicErr) := reqParse_no_blank r h

/-- C27, what is stored when a request is accepted: the body, and the header lines before the first one
without a colon. -/
theorem C27_stored_partial (s line m t v : Str) (good rest : List Str) (body : Str) (hf : Fits s)
    (hm : MessageText s line (good ++ rest) body) (h3 : ThreeTokens line m t v) (ht : t ≠ [])
    (htl : t.length < 2 ^ 31) (hme : methodOfStr m ≠ .UNKNOWN) (hve : versionOfStr v ≠ .UNKNOWN)
    (hg : ∀ l ∈ good, 58 ∈ l ∧ ¬ Blank (after 58 l)) (hr : rest = [] ∨ ∃ l r, rest = l :: r ∧ 58 ∉ l) :
    ∃ q, reqParse {} s = .ok (q, kSuccess) ∧ q.body = body ∧ q.method = methodOfStr m ∧
      q.version = versionOfStr v ∧ q.route.path = before 63 t ∧
      ∀ k, q.header.get k = lastFor k (good.map headerField) := by
  have hp := reqParse_message {} hm hf
  rw [reqTail_three _ h3 ht (fun h => by have := length_cut h; omega) hme hve] at hp
  refine ⟨_, hp, rfl, rfl, rfl, ?_, fun k => ?_⟩
  · simp only [routeResult]; split
    · rfl
    · rename_i h; simp [before_none h]
  · have hgood : goodLines (good ++ rest) = good := by
      rcases hr with rfl | ⟨l, r, rfl, hl⟩
      · rw [goodLines_append_all (fun l hl => (hg l hl).1)]; simp [goodLines]
      · rw [goodLines_append_all (fun l hl => (hg l hl).1)]; simp [goodLines, hl]
    have hmap : good.map codeField = good.map headerField := by
      apply List.map_congr_left
      intro l hl
      simp [codeField, headerField, (hg l hl).2]
    simp only [hgood, hmap]
    rw [get_setAll_last]; simp

/-- C27 is false: a request with a header line that has no colon is accepted, and the headers after
that line are silently dropped. -/
theorem C27_accepts_malformed_refuted :
    reqParse {} b!"GET / HTTP/1.1\r\nno colon here\r\nHost: a\r\n\r\n" =
      .ok ({ method := .GET, route := { path := b!"/" } }, kSuccess) := by
  decide +kernel

/-! ### C32 -/

/-- C32 is false: parsing into a used object keeps its old headers and parameters. -/
theorem C32_stale_request_refuted :
    reqParse { header := UMap.empty.set b!"Cookie" b!"old", route := { params := UMap.empty.set b!"a" b!"1" } }
      b!"GET /x HTTP/1.1\r\n\r\n" =
      .ok ({ method := .GET, header := UMap.empty.set b!"Cookie" b!"old",
             route := { path := b!"/x", params := UMap.empty.set b!"a" b!"1" } }, kSuccess) := by
  decide +kernel

/-- C32, the part that holds: after Clear, an accepted text gives exactly the object a fresh one would
hold, and the same texts are accepted. -/
theorem C32_after_clear_partial (r q : HttpReq) (s : Str) (hf : Fits s) :
    reqParse (reqClear r) s = .ok (q, kSuccess) ↔ reqParse {} s = .ok (q, kSuccess) := by
  have key : ∀ v, ∀ p : HttpReq, p = { method := .UNKNOWN, version := v } →
      (reqParse p s = .ok (q, kSuccess) ↔ reqParse {} s = .ok (q, kSuccess)) := by
    rintro v p rfl
    by_cases h : Occurs crlf2 s
    · obtain ⟨line, ls, body, hm⟩ := message_exists h
      rw [reqParse_message _ hm hf, reqParse_message _ hm hf]
      unfold reqTail
      split
      · rename_i m t w _
        simp only
        by_cases hm : methodOfStr m = .UNKNOWN
        · simp [hm, kLogicErr, kSuccess]
        · simp only [hm, if_false]
          cases hroute : routeParse { } t with
          | error e => simp [bind, Except.bind]
          | ok x =>
            simp only [bind, Except.bind]
            by_cases hx : x.2 ≠ kSuccess
            · rw [if_pos hx, if_pos hx]; simp [kLogicErr, kSuccess]
            · rw [if_neg hx, if_neg hx]
      · simp [kLogicErr, kSuccess]
    · rw [reqParse_no_blank _ h, reqParse_no_blank _ h]
      simp [kLogicErr, kSuccess]
  exact key .UNKNOWN _ rfl

end Cppnet
