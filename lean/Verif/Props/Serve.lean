import Verif.Proofs.Serve

/-!
# C37–C39, C45–C47, C75: client and server together
-/

namespace Cppnet
open Spec
variable {σ : Type}
set_option synthInstance.maxSize 1000

/-! ### C37 -/

/-- What a client writes: `Send` hands exactly the text of `Build` to the connection. -/
theorem clientSend_written (o : HashOrder) (r : HttpReq) (p : HttpResp) (w : Int) (c : Conn) (sent : Sent)
    {r' : HttpReq} {text : Str} (hb : reqBuild o r [] = (r', text, kSuccess))
    (h : clientSend o r p w c = .ok sent) : sent.written = some text ∧ sent.req = r' := by
  simp only [clientSend, hb, bind, Except.bind] at h
  rw [if_neg (by simp)] at h
  by_cases hw : w ≤ 0
  · rw [if_pos hw] at h; cases h; exact ⟨rfl, rfl⟩
  · rw [if_neg hw] at h
    cases h1 : sockReadUntil c [] crlf2 with
    | error e => simp [h1] at h
    | ok x =>
      obtain ⟨len, buf, c'⟩ := x
      simp only [h1] at h
      by_cases hl : len ≤ 0
      · rw [if_pos hl] at h; cases h; exact ⟨rfl, rfl⟩
      · rw [if_neg hl] at h
        cases h2 : respParse p buf with
        | error e => simp [h2] at h
        | ok y =>
          obtain ⟨resp, rc⟩ := y
          simp only [h2] at h
          by_cases hrc : rc = kSuccess
          case neg => rw [if_pos hrc] at h; cases h; exact ⟨rfl, rfl⟩
          rw [if_neg (by simp [hrc])] at h
          by_cases hn : headerGetContentLength resp.header > 0
          · rw [if_pos hn] at h
            by_cases hg : (sockRead c' (headerGetContentLength resp.header).toNat true 0).1 = headerGetContentLength resp.header
            · rw [if_neg (by simp [hg])] at h; cases h; exact ⟨rfl, rfl⟩
            · rw [if_pos hg] at h; cases h; exact ⟨rfl, rfl⟩
          · rw [if_neg hn] at h; cases h; exact ⟨rfl, rfl⟩

/-- The core of C37, for bodies of any size: what the server's handlers see of a request a client built. -/
theorem serve_any (env : Env) (s : Server σ) (o : HashOrder) (r : HttpReq) (later : Str) (fin : Int) (u : σ) (h : WireRequest r) :
    ∃ r' text, reqBuild o r [] = (r', text, kSuccess) ∧ (Fits (text ++ later) → text.length < 2 ^ 31 + r.body.length →
      ∃ q : HttpReq, handleRead env s ⟨text ++ later, fin⟩ u =
          serveRequest env s q ⟨r.body.drop (min (toInt32 r.body.length).toNat maxRw) ++ later, fin⟩ u ∧
        q.method = r.method ∧ q.version = r.version ∧ q.route.path = r.route.path ∧
        SameMap q.route.params r.route.params ∧ q.body = cString (r.body.take (min (toInt32 r.body.length).toNat maxRw)) ∧
        headerGetContentLength q.header = toInt32 r.body.length ∧
        headerGetHost q.header = (if headerGetHost r.header = [] then b!"localhost" else headerGetHost r.header) ∧
        ∀ k, k ≠ b!"Content-Length" → k ≠ b!"Host" → q.header.get k = r.header.get k) := by
  obtain ⟨text, hb, hm⟩ := reqBuild_message o r [] h
  obtain ⟨r', text', hb', hc⟩ := req_round_trip o r [] h
  rw [hb] at hb'
  cases hb'
  refine ⟨_, text, hb, fun hf hlen => ?_⟩
  have hft : Fits text := by
    unfold Fits at *
    simp only [List.length_append] at hf
    omega
  obtain ⟨q, hq, q1, q2, q3, q4, q5, q6, q7, q8⟩ := hc hft
  obtain ⟨head, e1, e2, e3⟩ := message_cut hm
  obtain ⟨q', hq', rfl⟩ := parse_head hm hft head e1 e3 hq
  have hcl := q6
  have hstart : 10 ∉ (head ++ crlf2 ++ (r.body ++ later)).take 3 := by
    have : head ++ crlf2 ++ (r.body ++ later) = reqLine o r ++ (crlf ++ (terminated (headerLines o (reqBuildHeader r)) ++ crlf) ++ (r.body ++ later)) := by
      rw [(messageText_iff.1 e3).1]; simp
    rw [this]
    exact reqLine_start o r _
  have hin : text ++ later = head ++ crlf2 ++ (r.body ++ later) := by rw [e1]; simp
  have hhl : (head ++ crlf2).length < 2 ^ 31 := by
    have : text.length = (head ++ crlf2).length + r.body.length := by rw [e1]; simp only [List.length_append]
    omega
  have hread := readHead (fin := fin) e2 hstart (by rw [← hin]; exact hf)
  rw [toInt32_small hhl] at hread
  refine ⟨{ q with body := cString (r.body.take (min (toInt32 r.body.length).toNat maxRw)) }, ?_, q1, q2, q3, q4, rfl, hcl, q7, q8⟩
  unfold handleRead
  rw [hin, hread]
  simp only [bind, Except.bind]
  have hp : ¬ (((head ++ crlf2).length : Nat) : Int) ≤ 0 := by simp [crlf2]; omega
  rw [if_neg hp, hq']
  simp only
  rw [if_neg (by simp)]
  by_cases hz : 0 < toInt32 r.body.length
  · have hpos : headerGetContentLength q.header > 0 := by rw [hcl]; exact hz
    rw [if_pos hpos, hcl, readBody_any (rest := later) (fin := fin) (toInt32_le _) hz]
    simp only
    rw [if_neg]
    have : 0 < maxRw := by decide
    omega
  · have hneg : ¬ headerGetContentLength q.header > 0 := by rw [hcl]; exact hz
    have h0 : (toInt32 r.body.length).toNat = 0 := by omega
    rw [if_neg hneg, h0]
    simp [cString]

/-- The core of C37: what the server's handlers see of a request a client built. -/
theorem serve_built (env : Env) (s : Server σ) (o : HashOrder) (r : HttpReq) (later : Str) (fin : Int) (u : σ)
    (h : WireRequest r) (hmax : r.body.length ≤ maxRw) :
    ∃ r' text, reqBuild o r [] = (r', text, kSuccess) ∧ (Fits (text ++ later) → text.length < 2 ^ 31 →
      ∃ q : HttpReq, handleRead env s ⟨text ++ later, fin⟩ u = serveRequest env s q ⟨later, fin⟩ u ∧
        q.method = r.method ∧ q.version = r.version ∧ q.route.path = r.route.path ∧
        SameMap q.route.params r.route.params ∧ q.body = cString r.body ∧
        headerGetContentLength q.header = r.body.length ∧
        headerGetHost q.header = (if headerGetHost r.header = [] then b!"localhost" else headerGetHost r.header) ∧
        ∀ k, k ≠ b!"Content-Length" → k ≠ b!"Host" → q.header.get k = r.header.get k) := by
  obtain ⟨r', text, hb, hc⟩ := serve_any env s o r later fin u h
  refine ⟨r', text, hb, fun hf hlen => ?_⟩
  have hbl : r.body.length < 2 ^ 31 := Nat.lt_of_le_of_lt hmax (by decide)
  have hk : min (toInt32 r.body.length).toNat maxRw = r.body.length := by rw [toInt32_small hbl]; omega
  have := hc hf (by omega)
  rw [hk, toInt32_small hbl, List.take_length, List.drop_length, List.nil_append] at this
  exact this

/-- C37: what a client's `Send` writes for a request with wire-safe headers, route and NUL-free body is
served as a request with the same method, version, path, parameters, body and headers (Host added if
missing), and bytes after it stay in the stream.  Missing: bodies with NUL bytes and bodies above the kernel's limit for one
receive (both refuted below), routes that are not wire-safe (C70). -/
theorem C37_request_received_partial (env : Env) (s : Server σ) (o : HashOrder) (r : HttpReq) (later : Str) (fin : Int)
    (u : σ) (h : WireRequest r) (hmax : r.body.length ≤ maxRw) (h0 : 0 ∉ r.body) :
    ∃ text, (∀ p w c sent, clientSend o r p w c = .ok sent → sent.written = some text) ∧
      (Fits (text ++ later) → text.length < 2 ^ 31 →
      ∃ q : HttpReq, handleRead env s ⟨text ++ later, fin⟩ u = serveRequest env s q ⟨later, fin⟩ u ∧
        q.method = r.method ∧ q.version = r.version ∧ q.route.path = r.route.path ∧
        SameMap q.route.params r.route.params ∧ q.body = r.body ∧
        headerGetContentLength q.header = r.body.length ∧
        headerGetHost q.header = (if headerGetHost r.header = [] then b!"localhost" else headerGetHost r.header) ∧
        ∀ k, k ≠ b!"Content-Length" → k ≠ b!"Host" → q.header.get k = r.header.get k) := by
  obtain ⟨r', text, hb, hc⟩ := serve_built env s o r later fin u h hmax
  refine ⟨text, fun p w c sent hs => (clientSend_written o r p w c sent hb hs).1, fun hf hl => ?_⟩
  have hcs := cString_eq_self.2 h0
  rw [hcs] at hc
  exact hc hf hl

/-- C37 is false for every body with a NUL byte: the handlers see a shorter body. -/
theorem C37_nul_body_refuted (env : Env) (s : Server σ) (o : HashOrder) (r : HttpReq) (later : Str) (fin : Int)
    (u : σ) (h : WireRequest r) (hmax : r.body.length ≤ maxRw) (h0 : 0 ∈ r.body) :
    ∃ r' text, reqBuild o r [] = (r', text, kSuccess) ∧ (Fits (text ++ later) → text.length < 2 ^ 31 →
      ∃ q : HttpReq, handleRead env s ⟨text ++ later, fin⟩ u = serveRequest env s q ⟨later, fin⟩ u ∧
        q.body ≠ r.body) := by
  obtain ⟨r', text, hb, hc⟩ := serve_built env s o r later fin u h hmax
  refine ⟨r', text, hb, fun hf hl => ?_⟩
  obtain ⟨q, h1, _, _, _, _, h2, _⟩ := hc hf hl
  exact ⟨q, h1, fun e => cString_eq_self.1 (h2 ▸ e) h0⟩

theorem cString_take_eq {body : Str} {k : Nat} : cString (body.take k) = body ↔ 0 ∉ body ∧ body.length ≤ k := by
  constructor
  · intro e
    have h1 : (cString (body.take k)).length ≤ (body.take k).length := List.IsPrefix.length_le (List.takeWhile_prefix _)
    rw [e, List.length_take] at h1
    have hk : body.length ≤ k := by omega
    rw [List.take_of_length_le hk] at e
    exact ⟨cString_eq_self.1 e, hk⟩
  · rintro ⟨h0, hk⟩
    rw [List.take_of_length_le hk]
    exact cString_eq_self.2 h0

theorem seen_all {n : Nat} : n ≤ min (toInt32 n).toNat maxRw ↔ n ≤ maxRw := by
  constructor
  · omega
  · intro h
    have : n < 2 ^ 31 := Nat.lt_of_le_of_lt h (by decide)
    rw [toInt32_small this]
    omega

/-- C37, for bodies of any size: a wire-safe request is served with its method, version, path, parameters and headers, and it
is served with its body exactly if the body holds no NUL and is not longer than 2147479552 bytes, the kernel's limit for one receive.
Missing: the other bodies, see the refutations. -/
theorem C37_exact_partial (env : Env) (s : Server σ) (o : HashOrder) (r : HttpReq) (later : Str) (fin : Int) (u : σ)
    (h : WireRequest r) :
    ∃ text, (∀ p w c sent, clientSend o r p w c = .ok sent → sent.written = some text) ∧
      (Fits (text ++ later) → text.length < 2 ^ 31 + r.body.length →
      ∃ (q : HttpReq) (left : Str), handleRead env s ⟨text ++ later, fin⟩ u = serveRequest env s q ⟨left ++ later, fin⟩ u ∧
        q.method = r.method ∧ q.version = r.version ∧ q.route.path = r.route.path ∧ SameMap q.route.params r.route.params ∧
        (∀ k, k ≠ b!"Content-Length" → k ≠ b!"Host" → q.header.get k = r.header.get k) ∧
        (q.body = r.body ↔ 0 ∉ r.body ∧ r.body.length ≤ 2147479552) ∧ (left = [] ↔ r.body.length ≤ 2147479552)) := by
  rw [show (2147479552 : Nat) = maxRw from rfl]
  obtain ⟨r', text, hb, hc⟩ := serve_any env s o r later fin u h
  refine ⟨text, fun p w c sent hs => (clientSend_written o r p w c sent hb hs).1, fun hf hl => ?_⟩
  obtain ⟨q, h1, h2, h3, h4, h5, h6, _, _, h9⟩ := hc hf hl
  refine ⟨q, _, h1, h2, h3, h4, h5, h9, ?_, ?_⟩
  · rw [h6, cString_take_eq, seen_all]
  · rw [List.drop_eq_nil_iff, seen_all]

/-- C37 is false for every body above the kernel's limit for one receive: the handlers see another body, and the bytes of the
body that are left are taken for the next request. -/
theorem C37_huge_body_refuted (env : Env) (s : Server σ) (o : HashOrder) (r : HttpReq) (later : Str) (fin : Int)
    (u : σ) (h : WireRequest r) (hbig : 2147479552 < r.body.length) :
    ∃ r' text, reqBuild o r [] = (r', text, kSuccess) ∧ (Fits (text ++ later) → text.length < 2 ^ 31 + r.body.length →
      ∃ (q : HttpReq) (left : Str), handleRead env s ⟨text ++ later, fin⟩ u = serveRequest env s q ⟨left ++ later, fin⟩ u ∧
        q.body ≠ r.body ∧ left ≠ [] ∧ left <:+ r.body) := by
  have hbig : maxRw < r.body.length := hbig
  obtain ⟨r', text, hb, hc⟩ := serve_any env s o r later fin u h
  refine ⟨r', text, hb, fun hf hl => ?_⟩
  obtain ⟨q, h1, _, _, _, _, h6, _⟩ := hc hf hl
  refine ⟨q, _, h1, fun e => ?_, fun e => ?_, List.drop_suffix _ _⟩
  · have := (cString_take_eq.1 (h6 ▸ e)).2
    rw [seen_all] at this
    omega
  · rw [List.drop_eq_nil_iff, seen_all] at e
    omega

/-- The request of such a body: the announced length is negative. -/
example (body : Str) (hl : body.length = 2 ^ 31) :
    (reqBuild .insertion { method := .POST, route := { path := b!"/a" }, body } []).2.1 =
      b!"POST /a HTTP/1.1\r\nHost: localhost\r\nContent-Length: -2147483648\r\n\r\n" ++ body := by
  simp only [reqBuild, reqBuildHeader, hl]
  rw [if_neg (by decide)]
  simp only
  congr 1

/-- A handler that records the method, path and body it sees and answers with a page. -/
def echo : Option (Handler (List (HttpMethod × Str × Str))) := some fun c =>
  .ok { c with user := c.user ++ [(c.req.method, c.req.route.path, c.req.body)],
               resp := respText c.resp .OK (c.req.body ++ b!"!") }

def demoServer : Out (Server (List (HttpMethod × Str × Str))) := registerAll [⟨[], b!"/a", ⟨echo, true, []⟩⟩]

/-- Serve a stream with it: what was sent, closed?, what the handlers saw, what is left. -/
def demoServe (input : Str) : Out (List Str × Bool × List (HttpMethod × Str × Str) × Str) := do
  let s ← demoServer
  let r ← handleRead {} s ⟨input, 0⟩ []
  .ok (r.sent, r.closed, r.user, r.conn.input)

def demoInput : Str := b!"POST /a HTTP/1.1\r\nContent-Length: 3\r\n\r\nxyzGET /"

def demoAnswer : Str := b!"HTTP/1.1 200 OK\r\nContent-Type: text/plain\r\nContent-Length: 4\r\n\r\nxyz!"

example : demoServe demoInput = .ok ([demoAnswer], false, [(.POST, b!"/a", b!"xyz")], b!"GET /") := by
  decide +kernel

/-! ### C38 -/

/-- The core of C38, for bodies of any size: what `Send` returns when the stream starts with a built response. -/
theorem recv_any (o o' : HashOrder) (req : HttpReq) (p r : HttpResp) (w : Int) (later : Str) (fin : Int)
    (hm : req.method ≠ .UNKNOWN) (hv : req.version ≠ .UNKNOWN) (hw : 0 < w) (h : WireResponse r) :
    ∃ r' text, respBuild o' r [] = (r', text, kSuccess) ∧ (Fits (text ++ later) → text.length < 2 ^ 31 + r.body.length →
      ∃ sent, clientSend o req p w ⟨text ++ later, fin⟩ = .ok sent ∧
        sent.rc = (if (maxRw : Int) < toInt32 r.body.length then kLogicErr else 0) ∧
        sent.conn = ⟨r.body.drop (min (toInt32 r.body.length).toNat maxRw) ++ later, fin⟩ ∧
        sent.resp.status = r.status ∧ sent.resp.version = r.version ∧
        (sent.rc = 0 → sent.resp.body = cString (r.body.take (toInt32 r.body.length).toNat)) ∧
        headerGetContentLength sent.resp.header = toInt32 r.body.length ∧
        ∀ k, k ≠ b!"Content-Length" → sent.resp.header.get k = ((r.header.get k).or (p.header.get k))) := by
  obtain ⟨text, hb, hmsg⟩ := respBuild_message o' r [] h
  refine ⟨_, text, hb, fun hf hlen => ?_⟩
  have hft : Fits text := by
    unfold Fits at *
    simp only [List.length_append] at hf
    omega
  obtain ⟨head, e1, e2, e3⟩ := message_cut hmsg
  -- the response without its body
  have hne := headerLines_ne_nil o' r
  have hhead : Fits (head ++ crlf2) := by
    unfold Fits at *
    rw [e1] at hft
    simp only [List.length_append] at hft ⊢
    omega
  obtain ⟨r2, text2, hb2, hc⟩ := resp_round_trip o' r p [] h
  rw [hb] at hb2
  cases hb2
  obtain ⟨q, hq, q1, q2, q3, q4, q5⟩ := hc hft
  have hq' : respParse p (head ++ crlf2) = .ok ({ q with body := [] }, kSuccess) := by
    have ea := respParse_message p hmsg hne hft
    have eb := respParse_message p e3 hne hhead
    rw [ea, respTail_line _ (respLine_status r), stoi_intToStr _ (status_range _).1 (status_range _).2] at hq
    rw [eb, respTail_line _ (respLine_status r), stoi_intToStr _ (status_range _).1 (status_range _).2]
    unfold respFinish at hq ⊢
    simp only [bind, Except.bind] at hq ⊢
    cases hh : headerParse p.header (joinWith crlf (headerLines o' (respBuildHeader r))) with
    | error e => simp [hh] at hq
    | ok x =>
      obtain ⟨hd, rc⟩ := x
      simp only [hh] at hq ⊢
      cases hq
      rfl
  have hcl := q4
  have hstart : 10 ∉ (head ++ crlf2 ++ (r.body ++ later)).take 3 := by
    have : head ++ crlf2 ++ (r.body ++ later) = respLine r ++ (crlf ++ (terminated (headerLines o' (respBuildHeader r)) ++ crlf) ++ (r.body ++ later)) := by
      rw [(messageText_iff.1 e3).1]; simp
    rw [this]
    exact respLine_start r h.1 _
  have hin : text ++ later = head ++ crlf2 ++ (r.body ++ later) := by rw [e1]; simp
  have hhl : (head ++ crlf2).length < 2 ^ 31 := by
    have : text.length = (head ++ crlf2).length + r.body.length := by rw [e1]; simp only [List.length_append]
    omega
  have hread := readHead (fin := fin) e2 hstart (by rw [← hin]; exact hf)
  rw [toInt32_small hhl] at hread
  have hreq : ∃ r' t, reqBuild o req [] = (r', t, kSuccess) := by
    unfold reqBuild
    rw [if_neg (by simp [hm, hv])]
    exact ⟨_, _, rfl⟩
  obtain ⟨req', reqText, hreq⟩ := hreq
  have hp : ¬ (((head ++ crlf2).length : Nat) : Int) ≤ 0 := by simp [crlf2]; omega
  have hsend : clientSend o req p w ⟨text ++ later, fin⟩ =
      if 0 < toInt32 r.body.length then
        if ((min (toInt32 r.body.length).toNat maxRw : Nat) : Int) ≠ toInt32 r.body.length then
          .ok ⟨kLogicErr, req', { q with body := [] }, some reqText, ⟨r.body.drop (min (toInt32 r.body.length).toNat maxRw) ++ later, fin⟩⟩
        else .ok ⟨0, req', { q with body := cString (r.body.take (min (toInt32 r.body.length).toNat maxRw)) }, some reqText,
          ⟨r.body.drop (min (toInt32 r.body.length).toNat maxRw) ++ later, fin⟩⟩
      else .ok ⟨0, req', { q with body := [] }, some reqText, ⟨r.body ++ later, fin⟩⟩ := by
    unfold clientSend
    rw [hin, hreq]
    simp only [bind, Except.bind]
    rw [if_neg (by simp), if_neg (by omega), hread]
    simp only
    rw [if_neg hp, hq']
    simp only
    rw [if_neg (by simp), hcl]
    by_cases hz : 0 < toInt32 r.body.length
    · rw [if_pos hz, if_pos hz, readBody_any (rest := later) (fin := fin) (toInt32_le _) hz]
    · rw [if_neg hz, if_neg hz]
  by_cases hz : 0 < toInt32 r.body.length
  · rw [if_pos hz] at hsend
    by_cases hg : (maxRw : Int) < toInt32 r.body.length
    · rw [if_pos (by omega)] at hsend
      exact ⟨_, hsend, by rw [if_pos hg], rfl, q1, q2, fun e => absurd e (show kLogicErr ≠ 0 by decide), hcl, q5⟩
    · rw [if_neg (by omega)] at hsend
      refine ⟨_, hsend, by rw [if_neg hg], rfl, q1, q2, fun _ => ?_, hcl, q5⟩
      rw [show min (toInt32 r.body.length).toNat maxRw = (toInt32 r.body.length).toNat by omega]
  · rw [if_neg hz] at hsend
    have h0 : (toInt32 r.body.length).toNat = 0 := by omega
    refine ⟨_, hsend, ?_, ?_, q1, q2, fun _ => ?_, hcl, q5⟩
    · rw [if_neg]
      have : 0 < maxRw := by decide
      omega
    · simp [h0]
    · simp [h0, cString]

/-- The core of C38: what `Send` returns when the stream starts with a built response. -/
theorem recv_built (o o' : HashOrder) (req : HttpReq) (p r : HttpResp) (w : Int) (later : Str) (fin : Int)
    (hm : req.method ≠ .UNKNOWN) (hv : req.version ≠ .UNKNOWN) (hw : 0 < w) (h : WireResponse r)
    (hmax : r.body.length ≤ maxRw) :
    ∃ r' text, respBuild o' r [] = (r', text, kSuccess) ∧ (Fits (text ++ later) → text.length < 2 ^ 31 →
      ∃ sent, clientSend o req p w ⟨text ++ later, fin⟩ = .ok sent ∧ sent.rc = 0 ∧ sent.conn = ⟨later, fin⟩ ∧
        sent.resp.status = r.status ∧ sent.resp.version = r.version ∧ sent.resp.body = cString r.body ∧
        headerGetContentLength sent.resp.header = r.body.length ∧
        ∀ k, k ≠ b!"Content-Length" → sent.resp.header.get k = ((r.header.get k).or (p.header.get k))) := by
  obtain ⟨r', text, hb, hc⟩ := recv_any o o' req p r w later fin hm hv hw h
  refine ⟨r', text, hb, fun hf hlen => ?_⟩
  have hbl : r.body.length < 2 ^ 31 := Nat.lt_of_le_of_lt hmax (by decide)
  have hk : min (toInt32 r.body.length).toNat maxRw = r.body.length := by rw [toInt32_small hbl]; omega
  obtain ⟨sent, h1, h2, h3, h4, h5, h6, h7, h8⟩ := hc hf (by omega)
  rw [toInt32_small hbl] at h2 h6 h7
  rw [if_neg (by omega)] at h2
  rw [hk, List.drop_length, List.nil_append] at h3
  have e := h6 h2
  rw [Int.toNat_natCast, List.take_length] at e
  exact ⟨sent, h1, h2, h3, h4, h5, e, h7, h8⟩

/-- The text the server writes is that of `Build`. -/
theorem responseText_eq (o : HashOrder) (r : HttpResp) (h : r.status ≠ .UNKNOWN) :
    responseText o r = (respBuild o r []).2.1 := by
  unfold responseText
  simp only [h, if_false]
  rw [respBuild_eq o r [] h]
  simp

/-- C38: when the handlers leave a response with a status and wire-safe headers and a NUL-free body, the
server writes one text (after whatever the handlers wrote themselves), and a client whose stream starts
with it gets 0, that status, version and body, every header that was set, and leaves later bytes unread.
The response object passed in keeps headers of its own that the server did not send (`p.header`, none if
it is fresh). -/
theorem C38_response_received_partial (env : Env) (s : Server σ) (req0 : HttpReq) (conn : Conn) (u : σ) (ctx : Ctx σ)
    (hd : dispatch s req0.route.path
      { req := req0, conn, running := env.running, types := env.types, fs := env.fs, live := env.live, user := u } = .ok ctx)
    (h : WireResponse ctx.resp) (hmax : ctx.resp.body.length ≤ maxRw) (h0 : 0 ∉ ctx.resp.body)
    (o : HashOrder) (req : HttpReq) (p : HttpResp) (w : Int) (later : Str) (fin : Int)
    (hm : req.method ≠ .UNKNOWN) (hv : req.version ≠ .UNKNOWN) (hw : 0 < w) :
    ∃ served text, serveRequest env s req0 conn u = .ok served ∧ served.sent = ctx.sent ++ [text] ∧
      (Fits (text ++ later) → text.length < 2 ^ 31 →
      ∃ sent, clientSend o req p w ⟨text ++ later, fin⟩ = .ok sent ∧ sent.rc = 0 ∧ sent.conn = ⟨later, fin⟩ ∧
        sent.resp.status = ctx.resp.status ∧ sent.resp.version = ctx.resp.version ∧ sent.resp.body = ctx.resp.body ∧
        ∀ k, k ≠ b!"Content-Length" → sent.resp.header.get k = ((ctx.resp.header.get k).or (p.header.get k))) := by
  obtain ⟨r', text, hb, hc⟩ := recv_built o env.order req p ctx.resp w later fin hm hv hw h hmax
  refine ⟨_, text, by simp only [serveRequest, hd, bind, Except.bind]; rfl, ?_, fun hf hl => ?_⟩
  · simp [responseText_eq _ _ h.1, hb]
  · obtain ⟨sent, h1, h2, h3, h4, h5, h6, _, h8⟩ := hc hf hl
    rw [cString_eq_self.2 h0] at h6
    exact ⟨sent, h1, h2, h3, h4, h5, h6, h8⟩

/-- C38 is false for every body with a NUL byte: `Send` returns 0 with a shorter body. -/
theorem C38_nul_body_refuted (o o' : HashOrder) (req : HttpReq) (p r : HttpResp) (w : Int) (later : Str) (fin : Int)
    (hm : req.method ≠ .UNKNOWN) (hv : req.version ≠ .UNKNOWN) (hw : 0 < w) (h : WireResponse r)
    (hmax : r.body.length ≤ maxRw) (h0 : 0 ∈ r.body) :
    ∃ r' text, respBuild o' r [] = (r', text, kSuccess) ∧ (Fits (text ++ later) → text.length < 2 ^ 31 →
      ∃ sent, clientSend o req p w ⟨text ++ later, fin⟩ = .ok sent ∧ sent.rc = 0 ∧ sent.resp.body ≠ r.body) := by
  obtain ⟨r', text, hb, hc⟩ := recv_built o o' req p r w later fin hm hv hw h hmax
  refine ⟨r', text, hb, fun hf hl => ?_⟩
  obtain ⟨sent, h1, h2, _, _, _, h6, _⟩ := hc hf hl
  exact ⟨sent, h1, h2, fun e => cString_eq_self.1 (h6 ▸ e) h0⟩

/-- C38, for bodies of any size: `Send` returns 0 and gives the body that the server sent exactly if the body holds no NUL and is
not longer than the kernel's limit for one receive.
Missing: the other bodies, see the refutations. -/
theorem C38_exact_partial (o o' : HashOrder) (req : HttpReq) (p r : HttpResp) (w : Int) (later : Str) (fin : Int)
    (hm : req.method ≠ .UNKNOWN) (hv : req.version ≠ .UNKNOWN) (hw : 0 < w) (h : WireResponse r) :
    ∃ r' text, respBuild o' r [] = (r', text, kSuccess) ∧ (Fits (text ++ later) → text.length < 2 ^ 31 + r.body.length →
      ∃ sent, clientSend o req p w ⟨text ++ later, fin⟩ = .ok sent ∧ sent.resp.status = r.status ∧ sent.resp.version = r.version ∧
        (∀ k, k ≠ b!"Content-Length" → sent.resp.header.get k = ((r.header.get k).or (p.header.get k))) ∧
        (sent.rc = 0 ∧ sent.resp.body = r.body ↔ 0 ∉ r.body ∧ r.body.length ≤ maxRw)) := by
  obtain ⟨r', text, hb, hc⟩ := recv_any o o' req p r w later fin hm hv hw h
  refine ⟨r', text, hb, fun hf hl => ?_⟩
  obtain ⟨sent, h1, h2, _, h4, h5, h6, _, h8⟩ := hc hf hl
  refine ⟨sent, h1, h4, h5, h8, ?_, ?_⟩
  · rintro ⟨e1, e2⟩
    rw [h6 e1, cString_take_eq] at e2
    refine ⟨e2.1, seen_all.1 ?_⟩
    rw [e1] at h2
    have : ¬ (maxRw : Int) < toInt32 r.body.length := by
      intro hlt
      rw [if_pos hlt] at h2
      exact absurd h2 (by decide)
    omega
  · rintro ⟨e1, e2⟩
    have hs := seen_all.2 e2
    have hrc : sent.rc = 0 := by
      rw [h2, if_neg]
      have := toInt32_le r.body.length
      omega
    exact ⟨hrc, by rw [h6 hrc, cString_take_eq]; exact ⟨e1, by omega⟩⟩

/-- C38 is false for every body of 2 to 4 GiB: `Send` returns 0 with an empty body, and the whole body is left in the connection,
where the next response is expected. -/
theorem C38_huge_body_refuted (o o' : HashOrder) (req : HttpReq) (p r : HttpResp) (w : Int) (later : Str) (fin : Int)
    (hm : req.method ≠ .UNKNOWN) (hv : req.version ≠ .UNKNOWN) (hw : 0 < w) (h : WireResponse r)
    (h1 : 2 ^ 31 ≤ r.body.length) (h2 : r.body.length < 2 ^ 32) :
    ∃ r' text, respBuild o' r [] = (r', text, kSuccess) ∧ (Fits (text ++ later) → text.length < 2 ^ 31 + r.body.length →
      ∃ sent, clientSend o req p w ⟨text ++ later, fin⟩ = .ok sent ∧ sent.rc = 0 ∧ sent.resp.body = [] ∧
        sent.conn = ⟨r.body ++ later, fin⟩) := by
  obtain ⟨r', text, hb, hc⟩ := recv_any o o' req p r w later fin hm hv hw h
  refine ⟨r', text, hb, fun hf hl => ?_⟩
  obtain ⟨sent, e1, e2, e3, _, _, e6, _⟩ := hc hf hl
  have hneg : toInt32 r.body.length < 0 := by
    unfold toInt32
    rw [Nat.mod_eq_of_lt h2]
    simp only
    rw [if_neg (by omega)]
    omega
  have h0 : (toInt32 r.body.length).toNat = 0 := by omega
  have hrc : sent.rc = 0 := by
    rw [e2, if_neg]
    omega
  refine ⟨sent, e1, hrc, ?_, ?_⟩
  · rw [e6 hrc, h0]; rfl
  · rw [e3, h0]; simp

/-- A whole exchange, concretely: the client's text is served, the server's text is received. -/
example : (do
    let req : HttpReq := { method := .POST, route := { path := b!"/a" }, body := b!"q" }
    let (srvSent, _, seen, _) ← demoServe (reqBuild .insertion req []).2.1
    let sent ← clientSend .insertion req {} 9 ⟨srvSent.flatten, 0⟩
    .ok (seen, sent.rc, sent.resp.status, sent.resp.body) : Out _) =
    .ok ([(.POST, b!"/a", b!"q")], 0, .OK, b!"q!") := by decide +kernel

/-! ### C39 -/

/-- C39 is false: when the request cannot be written, `Send` returns 0 and leaves the response object
untouched. -/
theorem C39_write_failure_refuted (o : HashOrder) (r : HttpReq) (p : HttpResp) (w : Int) (c : Conn)
    (hm : r.method ≠ .UNKNOWN) (hv : r.version ≠ .UNKNOWN) (hw : w ≤ 0) :
    ∃ sent, clientSend o r p w c = .ok sent ∧ sent.rc = 0 ∧ sent.resp = p ∧ sent.conn = c := by
  have hreq : ∃ r' t, reqBuild o r [] = (r', t, kSuccess) := by
    unfold reqBuild
    rw [if_neg (by simp [hm, hv])]
    exact ⟨_, _, rfl⟩
  obtain ⟨req', reqText, hreq⟩ := hreq
  refine ⟨⟨kSuccess, req', p, some reqText, c⟩, ?_, rfl, rfl, rfl⟩
  simp [clientSend, hreq, hw, bind, Except.bind]

/-- C39, what holds: if the request was written and `Send` returns 0, then the stream held a complete
header block, which was parsed, and all of the announced bytes; the stream afterwards starts right
behind them.  (The body stored is the C string in those bytes, see C35.) -/
theorem C39_success_partial (o : HashOrder) (r : HttpReq) (p : HttpResp) (w : Int) (c : Conn) (sent : Sent)
    (hw : 0 < w) (hfin : c.fin ≤ 0) (hf : Fits c.input) (h : clientSend o r p w c = .ok sent) (hrc : sent.rc = 0) :
    (∃ r' text, reqBuild o r [] = (r', text, kSuccess) ∧ sent.written = some text) ∧
    ∃ head body rest q, c.input = head ++ crlf2 ++ body ++ rest ∧ ¬ Occurs crlf2 (head ++ crlf2.dropLast) ∧
      respParse p (head ++ crlf2) = .ok (q, kSuccess) ∧ sent.resp = { q with body := cString body } ∧
      (body.length : Int) = max 0 (headerGetContentLength q.header) ∧ sent.conn = ⟨rest, c.fin⟩ := by
  obtain ⟨x, hx⟩ : ∃ x, reqBuild o r [] = x := ⟨_, rfl⟩
  obtain ⟨r', text, rc⟩ := x
  simp only [clientSend, hx, bind, Except.bind] at h
  by_cases h1 : rc = kSuccess
  case neg =>
    rw [if_pos h1] at h
    cases h
    exact absurd hrc h1
  subst h1
  rw [if_neg (by simp), if_neg (by omega)] at h
  by_cases hearly : EarlyEnd crlf2 0 c.input
  · have := ((C34_throws_iff_partial c [] crlf2 (by simp [Fits, crlf2]) (by simpa using hf)).1).2 (by simpa using hearly)
    rw [this] at h
    cases h
  by_cases hocc : Occurs crlf2 c.input
  case neg =>
    rw [C33_stream_end_partial c crlf2 (by simp [crlf2]) hocc hf hearly] at h
    simp only [hfin, if_true] at h
    cases h
    simp [kLogicErr] at hrc
  obtain ⟨head, tail, e1, e2⟩ := first_blank hocc
  have hc : c = ⟨head ++ crlf2 ++ tail, c.fin⟩ := by rw [← e1]
  have hread : sockReadUntil c [] crlf2 = .ok (toInt32 (head ++ crlf2).length, head ++ crlf2, ⟨tail, c.fin⟩) := by
    rw [hc]
    refine readHead e2 ?_ (by rw [← e1]; exact hf)
    rw [← e1, ← earlyEnd_crlf2]; exact hearly
  rw [hread] at h
  simp only at h
  by_cases h2 : toInt32 (head ++ crlf2).length ≤ 0
  · rw [if_pos h2] at h; cases h; simp [kLogicErr] at hrc
  rw [if_neg h2] at h
  cases hp : respParse p (head ++ crlf2) with
  | error e => simp [hp] at h
  | ok y =>
    obtain ⟨q, rc⟩ := y
    simp only [hp] at h
    by_cases h3 : rc = kSuccess
    case neg => rw [if_pos h3] at h; cases h; exact absurd hrc h3
    subst h3
    rw [if_neg (by simp)] at h
    by_cases hn : headerGetContentLength q.header > 0
    · rw [if_pos hn] at h
      by_cases hg : (sockRead ⟨tail, c.fin⟩ (headerGetContentLength q.header).toNat true 0).1 =
          headerGetContentLength q.header
      case neg => rw [if_pos hg] at h; cases h; simp [kLogicErr] at hrc
      rw [if_neg (by simp [hg])] at h
      cases h
      have htail : tail ≠ [] := by
        rintro rfl
        rw [sockRead, ioRead] at hg
        rw [if_neg (by omega)] at hg
        simp at hg
        omega
      obtain ⟨b, rest, f1, _, f3, _, _, f6, _⟩ := C35_read_partial ⟨tail, c.fin⟩
        (headerGetContentLength q.header).toNat 0 true (by omega) htail
      rw [f6] at hg
      refine ⟨⟨_, _, hx, rfl⟩, head, b, rest, q, by rw [e1, List.append_assoc _ b rest, ← f1], e2, hp, ?_, ?_, ?_⟩
      · simp [f6]
      · simp only at hg; omega
      · simp [f6]
    · rw [if_neg hn] at h
      cases h
      exact ⟨⟨_, _, hx, rfl⟩, head, [], tail, q, by simp [e1], e2, hp, rfl, by simp; omega, rfl⟩

example : (clientSend .insertion { method := .GET, route := { path := b!"/" } } {} 9
    ⟨b!"HTTP/1.1 200 OK\r\nContent-Length: 3\r\n\r\nab", 0⟩).map (·.rc) = .ok kLogicErr ∧
    (clientSend .insertion { method := .GET, route := { path := b!"/" } } {} 9
    ⟨b!"HTTP/1.1 200 OK\r\nContent-Length: 3\r\n\r\nabc", 0⟩).map (fun x => (x.rc, x.resp.body)) = .ok (0, b!"abc") := by
  decide +kernel

/-! ### C45 -/

/-- What the library's own parser reads in a text. -/
def Spec.Reads (text : Str) (status : HttpStatus) (body : Str) : Prop :=
  ∃ q, respParse {} text = .ok (q, kSuccess) ∧ q.status = status ∧ q.body = body

theorem wireField_html : WireField b!"Content-Type" b!"text/html" :=
  ⟨by decide, by decide, by decide, 116, b!"ext/html", rfl, by decide⟩

theorem reads_built (o : HashOrder) (r : HttpResp) (h : WireResponse r) (hf : Fits (respBuild o r []).2.1) :
    Reads (respBuild o r []).2.1 r.status r.body := by
  obtain ⟨r', text, hb, hc⟩ := C28_round_trip o r {} [] h
  rw [hb] at hf ⊢
  obtain ⟨q, h1, h2, _, h4, _⟩ := hc hf
  exact ⟨q, h1, h2, h4⟩

/-- C45 is false: a complete request whose first byte is a line feed, such as this one, cannot be parsed, but instead of
being answered with 400 it makes `HandleRead` throw. -/
theorem C45_line_feed_refuted (env : Env) (s : Server σ) (rest : Str) (fin : Int) (u : σ) :
    (∃ q rc, reqParse {} b!"\nGET / HTTP/1.1\r\n\r\n" = .ok (q, rc) ∧ rc ≠ 0) ∧
    handleRead env s ⟨b!"\nGET / HTTP/1.1\r\n\r\n" ++ rest, fin⟩ u = .error .outOfRange := by
  constructor
  · have h : ((reqParse {} b!"\nGET / HTTP/1.1\r\n\r\n").map (fun x => decide (x.2 ≠ 0))) = .ok true := by decide +kernel
    cases hp : reqParse {} b!"\nGET / HTTP/1.1\r\n\r\n" with
    | error e => rw [hp] at h; cases h
    | ok x =>
      rw [hp] at h
      simp only [Except.map, Except.ok.injEq, decide_eq_true_eq] at h
      exact ⟨x.1, x.2, rfl, h⟩
  · unfold handleRead
    have e : b!"\nGET / HTTP/1.1\r\n\r\n" ++ rest = b!"\n" ++ (b!"GET / HTTP/1.1\r\n\r\n" ++ rest) := by
      rw [← List.append_assoc]; rfl
    rw [e, C34_line_feed_throws_refuted]
    rfl

/-- C45, a request that cannot be parsed: one 400 answer with the parser's message, then the connection is
closed; no handler runs.  Missing: requests with a line feed in the first three bytes, or of 2 GiB and more. -/
theorem C45_bad_request_partial (env : Env) (s : Server σ) (head rest : Str) (fin : Int) (u : σ)
    (h1 : ¬ Occurs crlf2 (head ++ crlf2.dropLast)) (h2 : 10 ∉ (head ++ crlf2 ++ rest).take 3)
    (hf : Fits (head ++ crlf2 ++ rest)) (hl : (head ++ crlf2).length < 2 ^ 31) (q : HttpReq) (rc : Int)
    (hp : reqParse {} (head ++ crlf2) = .ok (q, rc)) (hrc : rc ≠ 0) :
    ∃ text, handleRead env s ⟨head ++ crlf2 ++ rest, fin⟩ u = .ok ⟨[text], true, ⟨rest, fin⟩, u, env.types⟩ ∧
      (Fits text → Reads text .BAD_REQUEST (reqErrText (head ++ crlf2))) := by
  refine ⟨(respBuild env.order (respBadRequest {} (reqErrText (head ++ crlf2))) []).2.1, ?_, ?_⟩
  · unfold handleRead
    rw [readHead h1 h2 hf, toInt32_small hl]
    simp only [bind, Except.bind]
    rw [if_neg (by simp [crlf2]; omega), hp]
    simp only
    rw [if_pos (by simpa [kSuccess] using hrc)]
  · refine reads_built env.order (respBadRequest {} (reqErrText (head ++ crlf2))) ⟨by simp [respBadRequest, respType], ?_⟩
    intro k v hk
    simp only [respBadRequest, respType, UMap.get_set] at hk
    by_cases e : k = b!"Content-Type"
    · simp only [e, if_true, Option.some.injEq] at hk
      rw [e, ← hk]; exact Or.inr wireField_html
    · simp [e] at hk

/-- After a successful parse of a header block alone, the body is empty. -/
theorem parse_head_body {head : Str} (hf : Fits (head ++ crlf2)) {q : HttpReq} {rc : Int}
    (h1 : ¬ Occurs crlf2 (head ++ crlf2.dropLast)) (hp : reqParse {} (head ++ crlf2) = .ok (q, rc)) : q.body = [] := by
  have hocc : Occurs crlf2 (head ++ crlf2) := occurs_iff_infix.2 ⟨head, [], by simp⟩
  obtain ⟨line, ls, body, hm⟩ := message_exists hocc
  obtain ⟨head', e1, e2, e3⟩ := message_cut hm
  have hb : body = [] := by
    have a1 := crlf2_of_message hm
    have a2 : find (head ++ crlf2) crlf2 = some head.length := by
      rw [find_zero]
      exact (findAux_some_iff (by simp [crlf2])).2 ⟨head, [], by simp, rfl, fun h => h1 (occurs_iff_infix.2 h)⟩
    have a3 : find (head ++ crlf2) crlf2 = some head'.length := by
      rw [e1, find_zero]
      exact (findAux_some_iff (by simp [crlf2])).2 ⟨head', body, rfl, rfl, fun h => e2 (occurs_iff_infix.2 h)⟩
    rw [a2] at a3
    injection a3 with a3
    have := congrArg List.length e1
    simp only [List.length_append] at this
    exact List.eq_nil_of_length_eq_zero (by omega)
  subst hb
  obtain ⟨q', h1, h2⟩ := parse_head hm hf head' e1 e3 hp
  have : head' ++ crlf2 = head ++ crlf2 := by rw [e1]; simp
  rw [this, hp] at h1
  cases h1
  rw [h2]

/-- Step 1 of `HandleRead` for a complete request. -/
theorem handleRead_complete (env : Env) (s : Server σ) (head body rest : Str) (fin : Int) (u : σ)
    (h1 : ¬ Occurs crlf2 (head ++ crlf2.dropLast)) (h2 : 10 ∉ (head ++ crlf2 ++ (body ++ rest)).take 3)
    (hf : Fits (head ++ crlf2 ++ (body ++ rest))) (hl : (head ++ crlf2).length < 2 ^ 31) (q : HttpReq)
    (hp : reqParse {} (head ++ crlf2) = .ok (q, kSuccess))
    (hb : (body.length : Int) = max 0 (headerGetContentLength q.header)) (hmax : body.length ≤ maxRw) :
    handleRead env s ⟨head ++ crlf2 ++ (body ++ rest), fin⟩ u =
      serveRequest env s { q with body := cString body } ⟨rest, fin⟩ u := by
  have hqb : q.body = [] := by
    refine parse_head_body ?_ h1 hp
    unfold Fits at *
    simp only [List.length_append] at hf ⊢
    omega
  unfold handleRead
  rw [readHead h1 h2 hf, toInt32_small hl]
  simp only [bind, Except.bind]
  rw [if_neg (by simp [crlf2]; omega), hp]
  simp only
  rw [if_neg (by simp)]
  by_cases hz : headerGetContentLength q.header > 0
  · rw [if_pos hz, readBody (rest := rest) (fin := fin) (by omega) hz hmax]
    simp only
    rw [if_neg (by omega)]
  · rw [if_neg hz]
    have : body = [] := List.eq_nil_of_length_eq_zero (by omega)
    subst this
    have e : ({ q with body := cString [] } : HttpReq) = q := by
      cases q; simp only at hqb; subst hqb; rfl
    rw [e]; rfl

/-- C45, a request that can be parsed and whose body is complete: the server writes exactly one response
after whatever the handlers wrote themselves.  If the handlers set no status it is the 404 page;
otherwise it is the handlers' response.  (Read back with the library's parser, for headers that
survive the wire; in any case it is the text `Build` gives.)  Missing: requests with a line feed in the first three
bytes, or of 2 GiB and more. -/
theorem C45_answered_partial (env : Env) (s : Server σ) (head body rest : Str) (fin : Int) (u : σ)
    (h1 : ¬ Occurs crlf2 (head ++ crlf2.dropLast)) (h2 : 10 ∉ (head ++ crlf2 ++ (body ++ rest)).take 3)
    (hf : Fits (head ++ crlf2 ++ (body ++ rest))) (hl : (head ++ crlf2).length < 2 ^ 31) (q : HttpReq)
    (hp : reqParse {} (head ++ crlf2) = .ok (q, kSuccess))
    (hb : (body.length : Int) = max 0 (headerGetContentLength q.header)) (hmax : body.length ≤ maxRw) (ctx : Ctx σ)
    (hd : dispatch s q.route.path
      { req := { q with body := cString body }, conn := ⟨rest, fin⟩, running := env.running, types := env.types,
        fs := env.fs, live := env.live, user := u } = .ok ctx) :
    ∃ text, handleRead env s ⟨head ++ crlf2 ++ (body ++ rest), fin⟩ u =
        .ok ⟨ctx.sent ++ [text], decide (env.writeRc < 0), ctx.conn, ctx.user, ctx.types⟩ ∧
      (ctx.resp.status ≠ .UNKNOWN → text = (respBuild env.order ctx.resp []).2.1) ∧
      ((∀ k v, ctx.resp.header.get k = some v → k = b!"Content-Length" ∨ WireField k v) → Fits text →
        (ctx.resp.status = .UNKNOWN → Reads text .NOT_FOUND b!"<html><body><h1>404 Not Found</h1></body></html>") ∧
        (ctx.resp.status ≠ .UNKNOWN → Reads text ctx.resp.status ctx.resp.body)) := by
  refine ⟨responseText env.order ctx.resp, ?_, fun h => responseText_eq _ _ h, fun hw hft => ⟨fun hs => ?_, fun hs => ?_⟩⟩
  · rw [handleRead_complete env s head body rest fin u h1 h2 hf hl q hp hb hmax]
    simp only [serveRequest, hd, bind, Except.bind]
  · have e : responseText env.order ctx.resp = (respBuild env.order (respNotFound ctx.resp) []).2.1 := by
      unfold responseText
      simp only [hs, if_true]
      rw [respBuild_eq _ _ _ (by simp [respNotFound, respType])]
      simp
    rw [e] at hft ⊢
    have := reads_built env.order (respNotFound ctx.resp) ⟨by simp [respNotFound, respType], fun k v hk => ?_⟩ hft
    · exact this
    · simp only [respNotFound, respType, UMap.get_set] at hk
      by_cases e : k = b!"Content-Type"
      · simp only [e, if_true, Option.some.injEq] at hk
        rw [e, ← hk]; exact Or.inr wireField_html
      · simp only [e, if_false] at hk
        exact hw k v hk
  · rw [responseText_eq _ _ hs] at hft ⊢
    exact reads_built env.order ctx.resp ⟨hs, hw⟩ hft

/-- C45, a stream that ends before the blank line: no answer, no handler, closed. -/
theorem C45_incomplete (env : Env) (s : Server σ) (c : Conn) (u : σ) (h1 : ¬ Occurs crlf2 c.input) (h2 : 10 ∉ c.input.take 3)
    (hf : Fits c.input) (hfin : c.fin ≤ 0) : handleRead env s c u = .ok ⟨[], true, ⟨[], c.fin⟩, u, env.types⟩ := by
  unfold handleRead
  rw [C33_stream_end_partial c crlf2 (by simp [crlf2]) h1 hf (by rw [earlyEnd_crlf2]; exact h2)]
  simp [hfin, bind, Except.bind]

example : (demoServe b!"GET /b HTTP/1.1\r\n\r\n").map (fun x => (x.1.map (·.take 22), x.2.1, x.2.2.1)) =
    .ok ([b!"HTTP/1.1 404 Not Found"], false, []) ∧
    (demoServe b!"GET /a\r\n\r\n").map (fun x => (x.1.map (·.take 24), x.2.1, x.2.2.1)) =
    .ok ([b!"HTTP/1.1 400 Bad Request"], true, []) ∧
    demoServe b!"GET /a HTTP/1.1\r\nA: b\r\n" = .ok ([], true, [], []) := by decide +kernel
example : (reqParse {} (b!"GET /b HTTP/1.1" ++ crlf2)).map (fun x => (x.2, headerGetContentLength x.1.header)) = .ok (0, -1) ∧
    10 ∉ (b!"GET /b HTTP/1.1" ++ crlf2).take 3 ∧ find (b!"GET /b HTTP/1.1" ++ crlf2.dropLast) crlf2 = none := by
  decide +kernel

/-! ### C46 -/

/-- The handler and the filters never fail. -/
def Spec.TotalEntry (e : Entry σ) : Prop :=
  (∀ f, e.callback = some f → ∀ ctx, ∃ ctx', f ctx = .ok ctx') ∧ ∀ f ∈ e.filters, ∀ r, ∃ b, f r = .ok b

theorem runInOrder_total (es : List (Entry σ)) (h : ∀ e ∈ es, TotalEntry e) :
    ∀ ctx, ∃ ctx', runInOrder es ctx = .ok ctx' := by
  induction es with
  | nil => intro ctx; exact ⟨ctx, rfl⟩
  | cons e es ih =>
    intro ctx
    obtain ⟨ht, hfil⟩ := h e (by simp)
    replace ih := ih fun x hx => h x (by simp [hx])
    obtain ⟨b, hb⟩ := accepts_total fun f hf => hfil f hf ctx.req
    simp only [runInOrder, hb, bind, Except.bind]
    cases b with
    | false => exact ih ctx
    | true =>
      cases hc : e.callback with
      | none => exact ih ctx
      | some f =>
        obtain ⟨c1, h1⟩ := ht f hc ctx
        simp only [h1]
        cases hr : c1.running with
        | true => simpa using ih c1
        | false => exact ⟨c1, by simp⟩

theorem tableRun_entries {regs : List (Reg σ)} {m} (h : TableRun regs m) :
    ∀ k l, m k = some l → ∀ e ∈ l, ∃ r ∈ regs, r.entry = e := by
  induction h with
  | nil => simp
  | @snoc regs m r m' hrun hstep ih =>
    intro k l hk e he
    have weaken : (∃ x ∈ regs, x.entry = e) → ∃ x ∈ regs ++ [r], x.entry = e := by
      rintro ⟨x, hx, e⟩; exact ⟨x, by simp [hx], e⟩
    rcases hstep with ⟨p, _, rfl⟩ | ⟨_, rfl⟩
    · simp only at hk
      split at hk
      · cases hm : m k with
        | none => simp [hm] at hk
        | some l0 =>
          simp only [hm, Option.map_some, Option.some.injEq] at hk
          rw [← hk] at he
          rcases List.mem_append.1 he with he | he
          · exact weaken (ih k l0 hm e he)
          · simp only [List.mem_singleton] at he; exact ⟨r, by simp, he.symm⟩
      · exact weaken (ih k l hk e he)
    · simp only at hk
      split at hk
      · injection hk with hk
        rw [← hk] at he
        simp only [List.mem_singleton] at he
        exact ⟨r, by simp, he.symm⟩
      · exact weaken (ih k l hk e he)

theorem dispatch_total (regs : List (Reg σ)) (ha : AsciiRegs regs) (ht : ∀ r ∈ regs, TotalEntry r.entry) (s : Server σ)
    (hs : registerAll regs = .ok s) (path : Str) (hp : Ascii path) (ctx : Ctx σ) : ∃ ctx', dispatch s path ctx = .ok ctx' := by
  obtain ⟨s', m, h1, h2, h3⟩ := C40_exact_partial regs ha
  rw [hs] at h1
  cases h1
  rw [h3 path hp ctx]
  apply runInOrder_total
  intro e he
  unfold tableCandidates at he
  obtain ⟨i, _, hi⟩ := List.mem_flatMap.1 he
  have hi := (List.mem_filter.1 hi).1
  cases hm : m (path.take i) with
  | none => simp [hm] at hi
  | some l =>
    rw [hm] at hi
    obtain ⟨r, hr, rfl⟩ := tableRun_entries h2 _ _ hm e hi
    exact ht r hr

/-- The path of a parsed request is part of its first line. -/
theorem parsed_path {s line : Str} {ls : List Str} {body : Str} (hm : MessageText s line ls body) (hf : Fits s)
    (hl : line.length < 2 ^ 31) {q : HttpReq} (hp : reqParse {} s = .ok (q, kSuccess)) :
    ∀ c ∈ q.route.path, c ∈ line := by
  rw [reqParse_message {} hm hf] at hp
  obtain ⟨r', rc, h1, _, h3⟩ := reqTail_total ({ header := UMap.empty.setAll ((goodLines ls).map codeField), body := body } : HttpReq) line hl
  rw [h1] at hp
  cases hp
  obtain ⟨m, t, v, h4, h5, h6, h7⟩ := h3.1 rfl
  have hb : 63 ∈ t → (before 63 t).length < 2 ^ 31 - 1 := by
    intro h
    have e := h4.1
    have h8 : (before 63 t).length < t.length := by
      have := congrArg List.length (cut_eq h)
      simp only [List.length_append, List.length_cons] at this
      omega
    have : t.length + 2 ≤ line.length := by rw [e]; simp; omega
    omega
  rw [reqTail_three _ h4 h5 hb h6 h7] at h1
  cases h1
  intro c hc
  have ht : c ∈ t := by
    simp only [routeResult] at hc
    split at hc
    · exact (List.takeWhile_prefix (p := fun b => b != 63) (l := t)).subset hc
    · exact hc
  rw [h4.1]
  simp [ht]

/-- C46, what holds: if no line feed is among the first three bytes, the first line is ASCII, the whole
input is below 2 GiB, and no handler or filter fails, then `HandleRead` finishes normally, whatever the
client sends.  Missing: the inputs refuted below. -/
theorem C46_total_partial (env : Env) (regs : List (Reg σ)) (ha : AsciiRegs regs) (ht : ∀ r ∈ regs, TotalEntry r.entry)
    (s : Server σ) (hs : registerAll regs = .ok s) (c : Conn) (u : σ) (hlen : c.input.length < 2 ^ 31)
    (h3 : 10 ∉ c.input.take 3) (hline : ∀ line rest, c.input = line ++ crlf ++ rest → ¬ Occurs crlf line → Ascii line) :
    ∃ served, handleRead env s c u = .ok served := by
  have hserve : ∀ q conn, Ascii q.route.path → ∃ served, serveRequest env s q conn u = .ok served := by
    intro q conn hq
    obtain ⟨ctx, hc⟩ := dispatch_total regs ha ht s hs q.route.path hq
      { req := q, conn := conn, running := env.running, types := env.types, fs := env.fs, live := env.live, user := u }
    exact ⟨_, by simp only [serveRequest, hc, bind, Except.bind]; rfl⟩
  have hf : Fits c.input := by unfold Fits; omega
  unfold handleRead
  by_cases hocc : Occurs crlf2 c.input
  case neg =>
    rw [C33_stream_end_partial c crlf2 (by simp [crlf2]) hocc hf (by rw [earlyEnd_crlf2]; exact h3)]
    simp only [bind, Except.bind]
    by_cases hfin : c.fin ≤ 0
    · rw [if_pos hfin]; exact ⟨_, rfl⟩
    · rw [if_neg hfin, reqParse_no_blank {} hocc]
      exact ⟨_, rfl⟩
  obtain ⟨line, ls, tail, hm0⟩ := message_exists hocc
  obtain ⟨head, e1, e2, hm⟩ := message_cut hm0
  have hc : c = ⟨head ++ crlf2 ++ tail, c.fin⟩ := by rw [← e1]
  have hhl : (head ++ crlf2).length < 2 ^ 31 := by
    have : (head ++ crlf2).length ≤ c.input.length := by rw [e1]; simp
    omega
  have hread : sockReadUntil c [] crlf2 = .ok (((head ++ crlf2).length : Int), head ++ crlf2, ⟨tail, c.fin⟩) := by
    rw [hc, readHead e2 (by rw [← e1]; exact h3) (by rw [← e1]; exact hf), toInt32_small hhl]
  rw [hread]
  simp only [bind, Except.bind]
  rw [if_neg (by simp [crlf2]; omega)]
  have hfh : Fits (head ++ crlf2) := by unfold Fits; omega
  have hll : line.length < 2 ^ 31 := by
    have := congrArg List.length (messageText_iff.1 hm).1
    simp only [List.length_append] at this hhl
    omega
  obtain ⟨q, rc, hp, _⟩ := C26_total_partial {} (head ++ crlf2) hfh (by
    intro l hd b hm'
    have := congrArg List.length (messageText_iff.1 hm').1
    simp only [List.length_append] at this hhl
    omega)
  rw [hp]
  simp only
  by_cases hrc : rc = kSuccess
  case neg => rw [if_pos hrc]; exact ⟨_, rfl⟩
  subst hrc
  rw [if_neg (by simp)]
  have hpath : Ascii q.route.path := by
    have hal : Ascii line := by
      refine hline line (terminated ls ++ (crlf ++ tail)) (messageText_iff.1 hm0).1 ?_
      rw [occurs_iff_infix]; exact (messageText_iff.1 hm).2.1
    intro x hx
    exact hal x (parsed_path hm hfh hll hp x hx)
  split
  · split
    · exact ⟨_, rfl⟩
    · exact hserve _ _ hpath
  · exact hserve _ _ hpath

/-- C46 is false: one line feed from any client makes `HandleRead` throw (and nothing above it catches). -/
theorem C46_line_feed_refuted (env : Env) (s : Server σ) (rest : Str) (fin : Int) (u : σ) :
    handleRead env s ⟨b!"\n" ++ rest, fin⟩ u = .error .outOfRange := by
  unfold handleRead
  rw [C34_line_feed_throws_refuted]
  rfl

/-- C46 is false: a byte above 127 in the path indexes the trie's child array out of bounds. -/
theorem C46_non_ascii_refuted : demoServe (b!"GET /a" ++ [200] ++ b!" HTTP/1.1\r\n\r\n") = .error .ub := by
  decide +kernel

/-- C46 is false: a URL below a static directory with a component that is too long makes `HandleRead`
throw `filesystem_error` (`stat` fails with ENAMETOOLONG). -/
theorem C46_long_name_refuted :
    (do
      let s ← groupStaticDir 0 [] b!"/s" b!"www" [] ({} : Server Unit)
      let r ← handleRead { fs := fun p => if p.length > 255 then .failed else .missing } s
        ⟨b!"GET /s/" ++ List.replicate 260 97 ++ b!" HTTP/1.1\r\n\r\n", 0⟩ ()
      .ok r.sent : Out (List Str)) = .error .fsError := by decide +kernel

example : TotalEntry (⟨echo, true, [methodFilter .GET]⟩ : Entry (List (HttpMethod × Str × Str))) := by
  refine ⟨fun f hf ctx => ?_, fun f hf r => ?_⟩
  · cases hf; exact ⟨_, rfl⟩
  · simp only [List.mem_singleton] at hf
    subst hf; exact ⟨_, rfl⟩

/-! ### C47 -/

/-- C47 is false: if some but not all of the announced bytes arrive before the peer closes (or the receive
times out), the handlers run on the truncated body, and the answer is the same as if it were complete. -/
theorem C47_truncated_refuted (env : Env) (s : Server σ) (head part : Str) (fin : Int) (u : σ)
    (h1 : ¬ Occurs crlf2 (head ++ crlf2.dropLast)) (h2 : 10 ∉ (head ++ crlf2 ++ part).take 3)
    (hf : Fits (head ++ crlf2 ++ part)) (hl : (head ++ crlf2).length < 2 ^ 31) (q : HttpReq)
    (hp : reqParse {} (head ++ crlf2) = .ok (q, kSuccess)) (hne : part ≠ [])
    (hshort : (part.length : Int) < headerGetContentLength q.header)
    (hmax : headerGetContentLength q.header ≤ maxRw) :
    handleRead env s ⟨head ++ crlf2 ++ part, fin⟩ u = serveRequest env s { q with body := cString part } ⟨[], fin⟩ u := by
  unfold handleRead
  rw [readHead h1 h2 hf, toInt32_small hl]
  simp only [bind, Except.bind]
  rw [if_neg (by simp [crlf2]; omega), hp]
  simp only
  rw [if_neg (by simp)]
  rw [if_pos (show headerGetContentLength q.header > 0 by omega)]
  obtain ⟨b, r, f1, f2, f3, _, f5, f6, _⟩ := C35_read_partial ⟨part, fin⟩ (headerGetContentLength q.header).toNat 0 true
    (by omega) hne
  have hr := f5 rfl (by simp only; omega) (by omega)
  subst hr
  simp only [List.append_nil] at f1
  subst f1
  rw [f6]
  simp only
  have := List.length_pos_iff.2 f2
  rw [if_neg (by omega)]

/-- … concretely: 3 of 10 bytes. -/
example : (demoServe b!"POST /a HTTP/1.1\r\nContent-Length: 10\r\n\r\nxyz").map (fun x => (x.1.map (·.take 15), x.2.2.1)) =
    .ok ([b!"HTTP/1.1 200 OK"], [(.POST, b!"/a", b!"xyz")]) := by decide +kernel

/-- C47, what holds: if none of the announced bytes arrives, no handler runs and the connection is closed
without an answer. -/
theorem C47_no_body_partial (env : Env) (s : Server σ) (head : Str) (fin : Int) (u : σ)
    (h1 : ¬ Occurs crlf2 (head ++ crlf2.dropLast)) (h2 : 10 ∉ (head ++ crlf2).take 3)
    (hl : (head ++ crlf2).length < 2 ^ 31) (q : HttpReq)
    (hp : reqParse {} (head ++ crlf2) = .ok (q, kSuccess)) (hn : 0 < headerGetContentLength q.header) (hfin : fin ≤ 0) :
    handleRead env s ⟨head ++ crlf2, fin⟩ u = .ok ⟨[], true, ⟨[], fin⟩, u, env.types⟩ := by
  have hr := readHead (head := head) (rest := []) (fin := fin) h1 (by simpa using h2)
    (by unfold Fits; simp only [List.append_nil]; omega)
  rw [List.append_nil] at hr
  unfold handleRead
  rw [hr, toInt32_small hl]
  simp only [bind, Except.bind]
  rw [if_neg (by simp [crlf2]; omega), hp]
  simp only
  rw [if_neg (by simp)]
  rw [if_pos hn]
  have hx : sockRead ⟨[], fin⟩ (headerGetContentLength q.header).toNat true 0 = (fin, [], ⟨[], fin⟩) := by
    unfold sockRead ioRead
    rw [if_neg (by omega)]
    simp [cString, List.replicate_succ]
  rw [hx]
  simp [hfin]

example : demoServe b!"POST /a HTTP/1.1\r\nContent-Length: 10\r\n\r\n" = .ok ([], true, [], []) := by decide +kernel

/-! ### C75 -/

/-- C75 is false: whenever the write takes only a part of the response (any count from 0 up to its
length), the connection stays open, so the peer sees a truncated response followed by the next one. -/
theorem C75_short_write_refuted (env : Env) (s : Server σ) (req : HttpReq) (conn : Conn) (u : σ) (served : Served σ)
    (h : serveRequest env s req conn u = .ok served) (h0 : 0 ≤ env.writeRc) : served.closed = false := by
  simp only [serveRequest, bind, Except.bind] at h
  split at h
  · cases h
  · cases h
    simp; omega

/-- C75, what holds: if the write fails, the connection is closed; and so it is after every answer to a
request that cannot be parsed (`C45_bad_request_partial`). -/
theorem C75_failed_write_partial (env : Env) (s : Server σ) (req : HttpReq) (conn : Conn) (u : σ) (served : Served σ)
    (h : serveRequest env s req conn u = .ok served) (h0 : env.writeRc < 0) : served.closed = true := by
  simp only [serveRequest, bind, Except.bind] at h
  split at h
  · cases h
  · cases h
    simp; omega

example : (do
    let s ← demoServer
    let r ← handleRead { writeRc := 5 } s ⟨b!"GET /a HTTP/1.1\r\n\r\n", 0⟩ []
    .ok (r.sent.map (fun t => decide (5 < t.length)), r.closed) : Out (List Bool × Bool)) = .ok ([true], false) := by
  decide +kernel

end Cppnet
