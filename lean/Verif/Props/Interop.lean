import Verif.Props.Conversation
import Verif.Spec.Interop

/-!
# C130 to C132: peers that are not cppnet
-/

namespace Cppnet
open Spec
variable {σ : Type}

/-! ### C131: requests of any HTTP/1.1 client -/

/-- The method names do not start with a line feed. -/
theorem method_start {m : Str} (h : methodOfStr m ≠ .UNKNOWN) (rest : Str) : 10 ∉ (m ++ rest).take 3 := by
  have hm : m = methodToStr (methodOfStr m) := (C13_methods.2.2.1 m _ h).1 rfl
  rw [hm]
  generalize methodOfStr m = k at h
  cases k <;> simp [methodToStr] at h ⊢

/-- A request whose header lines all have a name and a value, on the stream. -/
theorem request_on_stream (env : Env) (s : Server σ) {text line m t v : Str} {hdrs : List Str} {body rest : Str} (fin : Int) (u : σ)
    (hm : MessageText text line hdrs (body ++ rest)) (hl : text.length < 2 ^ 31) (h3 : ThreeTokens line m t v) (ht : t ≠ [])
    (hme : methodOfStr m ≠ .UNKNOWN) (hve : versionOfStr v ≠ .UNKNOWN) (hg : ∀ l ∈ hdrs, 58 ∈ l ∧ ¬ Blank (after 58 l))
    (hb : ∀ h : UMap, (∀ k, h.get k = lastFor k (hdrs.map headerField)) → (body.length : Int) = max 0 (headerGetContentLength h))
    (hmax : body.length ≤ maxRw) :
    ∃ q : HttpReq, q.method = methodOfStr m ∧ q.version = versionOfStr v ∧ q.route.path = before 63 t ∧ q.body = cString body ∧
      (∀ k, q.header.get k = lastFor k (hdrs.map headerField)) ∧
      handleRead env s ⟨text, fin⟩ u = serveRequest env s q ⟨rest, fin⟩ u := by
  obtain ⟨head, e1, e2, e3⟩ := message_cut hm
  have hlen := congrArg List.length e1
  simp only [List.length_append] at hlen
  have hline : line.length ≤ text.length := by rw [hm.1]; simp
  have htl : t.length ≤ line.length := by rw [h3.1]; simp; omega
  obtain ⟨q, p1, p2, p3, p4, p5, p6⟩ := C27_stored_partial (head ++ crlf2) line m t v hdrs [] []
    (by unfold Fits; simp only [List.length_append]; omega) (by simpa using e3) h3 ht (by omega) hme hve hg (Or.inl rfl)
  refine ⟨{ q with body := cString body }, p3, p4, p5, rfl, p6, ?_⟩
  rw [e1]
  have h2 : 10 ∉ text.take 3 := by
    have e : text = m ++ (b!" " ++ t ++ b!" " ++ v ++ (crlf ++ (hdrs.map (· ++ crlf)).flatten ++ crlf ++ (body ++ rest))) := by
      rw [hm.1, h3.1]; simp
    rw [e]; exact method_start hme _
  rw [e1] at h2
  exact handleRead_complete env s head body rest fin u e2 h2 (by rw [← e1]; unfold Fits; omega)
    (by simp only [List.length_append]; omega) q p1 (hb _ p6) hmax

/-- No header line has exactly this name. -/
theorem lastFor_none {k : Str} {hdrs : List Str} (h : ∀ l ∈ hdrs, before 58 l ≠ k) : lastFor k (hdrs.map headerField) = none := by
  have : (hdrs.map headerField).filter (fun p => decide (p.1 = k)) = [] := by
    rw [List.filter_eq_nil_iff]
    intro p hp
    obtain ⟨l, hl, rfl⟩ := List.mem_map.1 hp
    intro e
    exact h l hl (of_decide_eq_true e)
  simp [lastFor, this]

/-- C131 is false for every request that is not framed by a header spelled exactly `Content-Length` — one spelled
`content-length`, or the chunked coding: the handlers are given an empty body, and the body is left on the stream, where
the next report takes it for a request. -/
theorem C131_framed_refuted (env : Env) (s : Server σ) (text line m t v : Str) (hdrs : List Str) (body wire : Str) (fin : Int)
    (u : σ) (hm : MessageText text line hdrs wire) (hl : text.length < 2 ^ 31) (h3 : ThreeTokens line m t v) (ht : t ≠ [])
    (hme : methodOfStr m ≠ .UNKNOWN) (hve : versionOfStr v ≠ .UNKNOWN) (hg : ∀ l ∈ hdrs, 58 ∈ l ∧ ¬ Blank (after 58 l))
    (_hfr : Framed hdrs body wire) (hb : body ≠ []) (hno : ∀ l ∈ hdrs, before 58 l ≠ b!"Content-Length") :
    ∃ q : HttpReq, q.method = methodOfStr m ∧ q.route.path = before 63 t ∧ q.body ≠ body ∧ q.body = [] ∧
      handleRead env s ⟨text, fin⟩ u = serveRequest env s q ⟨wire, fin⟩ u := by
  obtain ⟨q, p1, _, p3, p4, _, p6⟩ := request_on_stream env s (body := []) (rest := wire) fin u hm hl h3 ht hme hve hg
    (fun h hh => by simp only [headerGetContentLength, hh, lastFor_none hno]; rfl) (by simp)
  have p4' : q.body = [] := p4
  exact ⟨q, p1, p3, by rw [p4']; exact fun e => hb e.symm, p4', p6⟩

/-- Both framings, concretely. -/
example : Framed [b!"Host: a", b!"content-length: 2"] b!"hi" b!"hi" :=
  .length (line := b!"content-length: 2") (by simp) (by unfold Named; decide +kernel) (by decide +kernel)
example : Framed [b!"Host: a", b!"Transfer-Encoding: chunked"] b!"hello" b!"5\r\nhello\r\n0\r\n\r\n" :=
  .chunks (line := b!"Transfer-Encoding: chunked") [b!"hello"] (by simp) (by unfold Named; decide +kernel) (by decide +kernel)
    (by simp) (by simp)

set_option synthInstance.maxSize 1000 in
/-- C131 is false: a request for `/admin` inside the body of another request is served. -/
theorem C131_smuggled_refuted : (do
    let s ← registerAll [⟨[], b!"/", ⟨echo, false, []⟩⟩]
    let (rs, _, seen, _) ← serveReads s [{}, {}]
      ⟨b!"POST /a HTTP/1.1\r\ncontent-length: 23\r\n\r\nGET /admin HTTP/1.1\r\n\r\n", 0⟩ [] UMap.empty
    .ok (rs.length, seen) : Out _) = .ok (2, [(.POST, b!"/a", []), (.GET, b!"/admin", [])]) := by
  decide +kernel

/-- C131, what holds: the last header spelled `Content-Length` gives the length of the body, which has no NUL byte: the
handlers get exactly this body and all headers, and what follows is left on the stream. -/
theorem C131_length_partial (env : Env) (s : Server σ) (text line m t v : Str) (hdrs : List Str) (body rest : Str) (fin : Int)
    (u : σ) (hm : MessageText text line hdrs (body ++ rest)) (hl : text.length < 2 ^ 31) (h3 : ThreeTokens line m t v)
    (ht : t ≠ []) (hme : methodOfStr m ≠ .UNKNOWN) (hve : versionOfStr v ≠ .UNKNOWN)
    (hg : ∀ l ∈ hdrs, 58 ∈ l ∧ ¬ Blank (after 58 l))
    (hcl : lastFor b!"Content-Length" (hdrs.map headerField) = some (intToStr body.length)) (h0 : 0 ∉ body)
    (hmax : body.length ≤ maxRw) :
    ∃ q : HttpReq, q.method = methodOfStr m ∧ q.version = versionOfStr v ∧ q.route.path = before 63 t ∧ q.body = body ∧
      (∀ k, q.header.get k = lastFor k (hdrs.map headerField)) ∧
      handleRead env s ⟨text, fin⟩ u = serveRequest env s q ⟨rest, fin⟩ u := by
  obtain ⟨q, p1, p2, p3, p4, p5, p6⟩ := request_on_stream env s fin u hm hl h3 ht hme hve hg
    (fun h hh => by
      have hb : body.length < 2 ^ 31 := by
        have := congrArg List.length hm.1
        simp only [List.length_append] at this
        omega
      rw [getContentLength_of (n := body.length) (by rw [hh, hcl, toInt32_small hb]), toInt32_small hb]
      omega) hmax
  exact ⟨q, p1, p2, p3, by rw [p4, cString_eq_self.2 h0], p5, p6⟩

example : (do
    let s ← demoServer
    let r ← handleRead {} s ⟨b!"POST /a HTTP/1.1\r\nHost:  x\r\nContent-Length: 2\r\n\r\nhiGET", 0⟩ []
    .ok (r.user, r.conn.input) : Out _) = .ok ([(.POST, b!"/a", b!"hi")], b!"GET") := by decide +kernel

/-! ### C130: responses of any HTTP/1.1 server -/

/-- The version names do not start with a line feed. -/
theorem version_start {v : Str} (h : versionOfStr v ≠ .UNKNOWN) (rest : Str) : 10 ∉ (v ++ rest).take 3 := by
  have hm : v = versionToStr (versionOfStr v) := (C13_versions.2.2.1 v _ h).1 rfl
  rw [hm]
  generalize versionOfStr v = k at h
  cases k <;> simp [versionToStr] at h ⊢

/-- A response whose header lines all have a name and a value, as the client's parser reads it. -/
theorem response_parsed (p : HttpResp) {head line v code phrase : Str} {hdrs : List Str} {n : Int}
    (hm : MessageText (head ++ crlf2) line hdrs []) (hf : Fits (head ++ crlf2)) (hne : hdrs ≠ []) (hs : StatusLine line v code phrase)
    (hc : LeadingNumeral code n) (hn : intMin ≤ n ∧ n ≤ intMax) (hg : ∀ l ∈ hdrs, 58 ∈ l ∧ ¬ Blank (after 58 l)) :
    ∃ q : HttpResp, respParse p (head ++ crlf2) = .ok (q, kSuccess) ∧ q.status = statusOfInt n ∧ q.version = versionOfStr v ∧
      ∀ k, q.header.get k = (lastFor k (hdrs.map headerField)).or (p.header.get k) := by
  have hclean : CleanLines hdrs := (messageText_iff.1 hm).2.2
  have hstoi : stoi code = .ok n := by
    rw [stoi_of_numeral hc, if_pos hn]
  have hjne : joinWith crlf hdrs ≠ [] := by
    cases hdrs with
    | nil => exact absurd rfl hne
    | cons l ls =>
      have : l ≠ [] := (hclean l (by simp)).1
      cases ls with
      | nil => simpa [joinWith] using this
      | cons m ms => simp [joinWith, this]
  have hjf : Fits (joinWith crlf hdrs) := by
    have h1 := joinWith_terminated hne
    have h2 := congrArg List.length (messageText_iff.1 hm).1
    have h3 := congrArg List.length h1
    unfold Fits at *
    simp only [List.length_append] at h2 h3 hf ⊢
    omega
  have hgood : goodLines hdrs = hdrs := by
    have := goodLines_append_all (qs := []) (fun l hl => (hg l hl).1)
    simpa [goodLines] using this
  have hmap : hdrs.map codeField = hdrs.map headerField := by
    apply List.map_congr_left
    intro l hl
    simp [codeField, headerField, (hg l hl).2]
  rw [respParse_message p hm hne hf, respTail_line _ hs, hstoi]
  simp only [respFinish]
  rw [headerParse_eq _ _ hjne hjf, split_joined hne hclean, hgood, if_pos (fun l hl => (hg l hl).1)]
  simp only [bind, Except.bind, hmap]
  refine ⟨_, rfl, rfl, rfl, fun k => ?_⟩
  exact get_setAll_last _ _ _

/-- What `Send` does when the response starts with such a head. -/
theorem send_head (o : HashOrder) (req : HttpReq) (p : HttpResp) (w : Int) {text line v code phrase : Str} {hdrs : List Str}
    {n : Int} {wire : Str} (fin : Int) (hreq : req.method ≠ .UNKNOWN ∧ req.version ≠ .UNKNOWN) (hw : 0 < w)
    (hm : MessageText text line hdrs wire) (hl : text.length < 2 ^ 31) (hne : hdrs ≠ []) (hs : StatusLine line v code phrase)
    (hve : versionOfStr v ≠ .UNKNOWN) (hc : LeadingNumeral code n) (hn : intMin ≤ n ∧ n ≤ intMax)
    (hg : ∀ l ∈ hdrs, 58 ∈ l ∧ ¬ Blank (after 58 l)) :
    ∃ (req' : HttpReq) (reqText : Str) (q : HttpResp), q.status = statusOfInt n ∧ q.version = versionOfStr v ∧
      (∀ k, q.header.get k = (lastFor k (hdrs.map headerField)).or (p.header.get k)) ∧
      clientSend o req p w ⟨text, fin⟩ =
        if headerGetContentLength q.header > 0 then
          (if (sockRead ⟨wire, fin⟩ (headerGetContentLength q.header).toNat true 0).1 ≠ headerGetContentLength q.header then
            .ok ⟨kLogicErr, req', q, some reqText, (sockRead ⟨wire, fin⟩ (headerGetContentLength q.header).toNat true 0).2.2⟩
          else .ok ⟨0, req', { q with body := (sockRead ⟨wire, fin⟩ (headerGetContentLength q.header).toNat true 0).2.1 },
            some reqText, (sockRead ⟨wire, fin⟩ (headerGetContentLength q.header).toNat true 0).2.2⟩)
        else .ok ⟨0, req', { q with body := [] }, some reqText, ⟨wire, fin⟩⟩ := by
  obtain ⟨head, e1, e2, e3⟩ := message_cut hm
  have hlen := congrArg List.length e1
  simp only [List.length_append] at hlen
  obtain ⟨q, q1, q2, q3, q4⟩ := response_parsed p e3 (by unfold Fits; simp only [List.length_append]; omega) hne hs hc hn hg
  have hreq' : ∃ r' t, reqBuild o req [] = (r', t, kSuccess) := by
    unfold reqBuild
    rw [if_neg (by simp [hreq.1, hreq.2])]
    exact ⟨_, _, rfl⟩
  obtain ⟨req', reqText, hb⟩ := hreq'
  refine ⟨req', reqText, q, q2, q3, q4, ?_⟩
  have h2 : 10 ∉ text.take 3 := by
    have e : text = v ++ (b!" " ++ code ++ b!" " ++ phrase ++ (crlf ++ (hdrs.map (· ++ crlf)).flatten ++ crlf ++ wire)) := by
      rw [hm.1, hs.1]; simp
    rw [e]; exact version_start hve _
  rw [e1] at h2 ⊢
  unfold clientSend
  rw [hb]
  simp only
  rw [if_neg (by simp), if_neg (by omega), readHead e2 h2 (by rw [← e1]; unfold Fits; omega),
    toInt32_small (by simp only [List.length_append]; omega)]
  simp only [bind, Except.bind]
  rw [if_neg (by simp [crlf2]; omega), q1]
  simp only
  rw [if_neg (by simp)]

/-- C130 is false for every response that is not framed by a header spelled exactly `Content-Length` (another spelling, the
chunked coding, or a body that ends with the connection): `Send` returns 0 with an empty body, and the body stays on the
stream, where the next `Send` takes it for its response. -/
theorem C130_framed_refuted (o : HashOrder) (req : HttpReq) (w : Int) (text line v code phrase : Str) (hdrs : List Str) (n : Int)
    (body wire : Str) (fin : Int) (hreq : req.method ≠ .UNKNOWN ∧ req.version ≠ .UNKNOWN) (hw : 0 < w)
    (hm : MessageText text line hdrs wire) (hl : text.length < 2 ^ 31) (hne : hdrs ≠ []) (hs : StatusLine line v code phrase)
    (hve : versionOfStr v ≠ .UNKNOWN) (hc : LeadingNumeral code n) (hn : intMin ≤ n ∧ n ≤ intMax)
    (hg : ∀ l ∈ hdrs, 58 ∈ l ∧ ¬ Blank (after 58 l)) (_hfr : FramedResponse hdrs body wire) (hb : body ≠ [])
    (hno : ∀ l ∈ hdrs, before 58 l ≠ b!"Content-Length") :
    ∃ sent, clientSend o req {} w ⟨text, fin⟩ = .ok sent ∧ sent.rc = 0 ∧ sent.resp.status = statusOfInt n ∧
      sent.resp.body ≠ body ∧ sent.resp.body = [] ∧ sent.conn = ⟨wire, fin⟩ := by
  obtain ⟨req', reqText, q, q1, q2, q3, q4⟩ := send_head o req {} w fin hreq hw hm hl hne hs hve hc hn hg
  have hcl : headerGetContentLength q.header = -1 := by
    simp only [headerGetContentLength, q3, lastFor_none hno]; rfl
  rw [q4, hcl, if_neg (by decide)]
  exact ⟨_, rfl, rfl, q1, fun e => hb e.symm, rfl, rfl⟩

example : FramedResponse [b!"Server: x"] b!"until the end" b!"until the end" :=
  Or.inr ⟨rfl, fun l hl => by
    simp only [List.mem_cons, List.not_mem_nil, or_false] at hl
    subst hl
    unfold Named
    decide +kernel⟩

/-- C130 is false: after a chunked response `Send` returns 0 with no body, and the next `Send` throws out of `substr`
(the length of a chunk of less than 16 bytes brings a line feed among the first three bytes, C34). -/
theorem C130_chunked_refuted :
    (let get : HttpReq := { method := .GET, route := { path := b!"/" } }
     (clientSend .insertion get {} 1 ⟨b!"HTTP/1.1 200 OK\r\nTransfer-Encoding: chunked\r\n\r\n2\r\nok\r\n0\r\n\r\n", 0⟩).map
      (fun s1 => (s1.rc, s1.resp.body, (clientSend .insertion get {} 1 s1.conn).map (·.rc)))) =
    .ok (0, [], .error .outOfRange) := by decide +kernel

/-- C130 is false for a response to HEAD: it announces the length of a body that does not follow, and `Send` waits for it;
it returns an error when the connection ends, or takes what comes next for the body. -/
theorem C130_head_refuted (o : HashOrder) (req : HttpReq) (w : Int) (text line v code phrase : Str) (hdrs : List Str) (n : Int)
    (len : Nat) (fin : Int) (hreq : req.method = .HEAD ∧ req.version ≠ .UNKNOWN) (hw : 0 < w)
    (hm : MessageText text line hdrs []) (hl : text.length < 2 ^ 31) (hne : hdrs ≠ []) (hs : StatusLine line v code phrase)
    (hve : versionOfStr v ≠ .UNKNOWN) (hc : LeadingNumeral code n) (hn : intMin ≤ n ∧ n ≤ intMax)
    (hg : ∀ l ∈ hdrs, 58 ∈ l ∧ ¬ Blank (after 58 l))
    (hcl : lastFor b!"Content-Length" (hdrs.map headerField) = some (intToStr len)) (h1 : 0 < len) (h2 : len < 2 ^ 31)
    (hfin : fin ≤ 0) : ∃ sent, clientSend o req {} w ⟨text, fin⟩ = .ok sent ∧ sent.rc = kLogicErr := by
  obtain ⟨req', reqText, q, q1, q2, q3, q4⟩ :=
    send_head o req {} w fin ⟨by rw [hreq.1]; decide, hreq.2⟩ hw hm hl hne hs hve hc hn hg
  have hlen : headerGetContentLength q.header = len := by
    rw [getContentLength_of (n := len) (by rw [q3, hcl, toInt32_small h2]; rfl), toInt32_small h2]
  rw [q4, hlen, if_pos (by omega), if_pos]
  · exact ⟨_, rfl, rfl⟩
  · have : (sockRead ⟨[], fin⟩ ((len : Int).toNat) true 0).1 = fin := by
      have h0 : ¬ (len : Int).toNat = 0 := by omega
      simp only [sockRead, ioRead, if_neg h0, if_true]
    rw [this]
    omega

/-- C130 is false for a response without header lines: an error, whatever the status. -/
theorem C130_no_headers_refuted (o : HashOrder) (req : HttpReq) (p : HttpResp) (w : Int) (line v code phrase wire : Str) (fin : Int)
    (hreq : req.method ≠ .UNKNOWN ∧ req.version ≠ .UNKNOWN) (hw : 0 < w) (hs : StatusLine line v code phrase)
    (hve : versionOfStr v ≠ .UNKNOWN) (hcr : 13 ∉ line) (hl : (line ++ crlf2 ++ wire).length < 2 ^ 31) :
    ∃ sent, clientSend o req p w ⟨line ++ crlf2 ++ wire, fin⟩ = .ok sent ∧ sent.rc = kLogicErr := by
  have hocc : ¬ Occurs crlf line := fun h => hcr ((occurs_iff_infix.1 h).subset (by simp [crlf]))
  have hm : MessageText (line ++ crlf2 ++ wire) line [] wire := ⟨by simp [crlf2, crlf], hocc, by simp⟩
  have hm0 : MessageText (line ++ crlf2) line [] [] := ⟨by simp [crlf2, crlf], hocc, by simp⟩
  obtain ⟨head, e1, e2, -⟩ := message_cut hm
  have : head = line := by
    have := List.append_cancel_right (List.append_cancel_right e1)
    exact this.symm
  subst this
  have hreq' : ∃ r' t, reqBuild o req [] = (r', t, kSuccess) := by
    unfold reqBuild
    rw [if_neg (by simp [hreq.1, hreq.2])]
    exact ⟨_, _, rfl⟩
  obtain ⟨req', reqText, hb⟩ := hreq'
  have h2 : 10 ∉ (head ++ crlf2 ++ wire).take 3 := by
    have e : head ++ crlf2 ++ wire = v ++ (b!" " ++ code ++ b!" " ++ phrase ++ (crlf2 ++ wire)) := by
      rw [hs.1]; simp
    rw [e]; exact version_start hve _
  simp only [List.length_append] at hl
  have hparse : ∃ q, respParse p (head ++ crlf2) = .ok (q, kLogicErr) := by
    rw [respParse_eq p (by simp [crlf2]) (crlf_of_message hm0), crlf2_of_message hm0]
    have e1 : szSub (szSub (posOrNpos (some (head.length + (terminated []).length))) head.length) 2 = 2 ^ 64 - 2 := by
      simp only [posOrNpos, szSub, terminated, List.map_nil, List.flatten_nil, List.length_nil]; omega
    have e2 : szAdd (posOrNpos (some (head.length + (terminated []).length))) 4 = head.length + 4 := by
      simp only [posOrNpos, szAdd, terminated, List.map_nil, List.flatten_nil, List.length_nil]; omega
    have hlen : (head ++ crlf2).length = head.length + 4 := by simp [crlf2]
    rw [e1, e2, substr_ok (by omega), substrFrom_ok (by omega)]
    have hd : ((head ++ crlf2).drop (head.length + 2)).take (2 ^ 64 - 2) = crlf := by
      rw [← List.drop_drop, List.drop_left]; rfl
    have ht : (head ++ crlf2).take head.length = head := by simp
    simp only [bind, Except.bind, hd, ht]
    rw [respTail_line _ hs]
    cases stoi code with
    | error e => exact ⟨_, rfl⟩
    | ok n =>
      have : ∀ h : HttpHeader, headerParse h crlf = .ok (h, kLogicErr) := by
        intro h
        rw [headerParse_eq h crlf (by simp [crlf]) (by unfold Fits; simp [crlf])]
        have : split crlf crlf = [[], []] := by decide +kernel
        rw [this]
        simp [goodLines]
      simp only [respFinish, this, bind, Except.bind]
      exact ⟨_, rfl⟩
  obtain ⟨q, hq⟩ := hparse
  unfold clientSend
  rw [hb]
  simp only
  rw [if_neg (by simp), if_neg (by omega), readHead e2 h2 (by unfold Fits; simp only [List.length_append]; omega),
    toInt32_small (by simp only [List.length_append]; omega)]
  simp only [bind, Except.bind]
  rw [if_neg (by simp [crlf2]; omega), hq]
  simp only
  rw [if_pos (by decide)]
  exact ⟨_, rfl, rfl⟩

example : StatusLine b!"HTTP/1.1 204 No Content" b!"HTTP/1.1" b!"204" b!"No Content" := by
  refine ⟨by simp, by decide, by decide⟩

/-- C130, what holds: the last header spelled `Content-Length` gives the length of the body, which has no NUL byte: `Send`
returns 0 with the status, the headers and exactly this body, and leaves what follows on the stream. -/
theorem C130_length_partial (o : HashOrder) (req : HttpReq) (w : Int) (text line v code phrase : Str) (hdrs : List Str) (n : Int)
    (body rest : Str) (fin : Int) (hreq : req.method ≠ .UNKNOWN ∧ req.version ≠ .UNKNOWN) (hw : 0 < w)
    (hm : MessageText text line hdrs (body ++ rest)) (hl : text.length < 2 ^ 31) (hne : hdrs ≠ [])
    (hs : StatusLine line v code phrase) (hve : versionOfStr v ≠ .UNKNOWN) (hc : LeadingNumeral code n)
    (hn : intMin ≤ n ∧ n ≤ intMax) (hg : ∀ l ∈ hdrs, 58 ∈ l ∧ ¬ Blank (after 58 l))
    (hcl : lastFor b!"Content-Length" (hdrs.map headerField) = some (intToStr body.length)) (h0 : 0 ∉ body)
    (hmax : body.length ≤ maxRw) :
    ∃ sent, clientSend o req {} w ⟨text, fin⟩ = .ok sent ∧ sent.rc = 0 ∧ sent.resp.status = statusOfInt n ∧
      sent.resp.version = versionOfStr v ∧ (∀ k, sent.resp.header.get k = lastFor k (hdrs.map headerField)) ∧
      sent.resp.body = body ∧ sent.conn = ⟨rest, fin⟩ := by
  obtain ⟨req', reqText, q, q1, q2, q3, q4⟩ := send_head o req {} w fin hreq hw hm hl hne hs hve hc hn hg
  have hb : body.length < 2 ^ 31 := by
    have := congrArg List.length hm.1
    simp only [List.length_append] at this
    omega
  have hlen : headerGetContentLength q.header = body.length := by
    rw [getContentLength_of (n := body.length) (by rw [q3, hcl, toInt32_small hb]; rfl), toInt32_small hb]
  have hq : ∀ k, q.header.get k = lastFor k (hdrs.map headerField) := by
    intro k
    rw [q3]
    simp
  rw [q4, hlen]
  by_cases hpos : (body.length : Int) > 0
  · rw [if_pos hpos, readBody (rest := rest) (fin := fin) rfl hpos hmax]
    simp only [ne_eq, not_true_eq_false, if_false]
    exact ⟨_, rfl, rfl, q1, q2, hq, cString_eq_self.2 h0, rfl⟩
  · have : body = [] := List.eq_nil_of_length_eq_zero (by omega)
    subst this
    rw [if_neg hpos]
    exact ⟨_, rfl, rfl, q1, q2, hq, rfl, rfl⟩

example : (clientSend .insertion { method := .GET, route := { path := b!"/" } } {} 1
    ⟨b!"HTTP/1.1 200 Fine\r\nX: y\r\nContent-Length: 2\r\n\r\nhiHTTP", 0⟩).map (fun s => (s.rc, s.resp.body, s.conn.input)) =
    .ok (0, b!"hi", b!"HTTP") := by decide +kernel

/-! ### C132: header names in any case -/

/-- C132 is false for all names that differ only in case: what was added (or received) under one is not found under the other. -/
theorem C132_case_refuted (h : HttpHeader) (k k' v : Str) (_hl : lower k = lower k') (hne : k ≠ k') (h0 : h.get k' = none) :
    headerGet (headerAdd h k v) k' = [] := by
  have hn : ¬ k' = k := fun e => hne e.symm
  simp only [headerGet, headerAdd, UMap.get_set, if_neg hn, h0]

example : lower b!"Host" = lower b!"host" ∧ b!"host" ≠ b!"Host" := by decide +kernel

/-- C132 is false: a request with `host: a` has no host for the library. -/
theorem C132_host_refuted :
    (headerParse UMap.empty b!"host: a").map (fun r => headerGetHost r.1) = .ok [] := by decide +kernel

/-- C132, what holds: under exactly the name it was added with, it is found. -/
theorem C132_exact_partial (h : HttpHeader) (k v : Str) : headerGet (headerAdd h k v) k = v := by
  simp [headerGet, headerAdd, UMap.get_set]

end Cppnet
