import Verif.Spec.Hangup
import Verif.Props.Conversation

/-!
# C122, C123: peers that hang up, and the log
-/

namespace Cppnet
open Spec
variable {σ : Type}

/-! ### C122 -/

theorem writeAll_ignored : ∀ (texts : List Str) (p : Peer) (rc : Int) (evs : List (List PeerEv)),
    ∃ rc' p', writeAll true p rc texts evs = .ok (rc', p') := by
  intro texts
  induction texts with
  | nil => intro p rc evs; exact ⟨rc, p, rfl⟩
  | cons x xs ih =>
    intro p rc evs
    simp only [writeAll]
    cases (evs.headD []).foldl Peer.on p with
    | here => exact ih .here _ evs.tail
    | closed => exact ih .closed _ evs.tail
    | reset => exact ih .gone _ evs.tail
    | gone => exact ih .gone _ evs.tail

theorem writeAll_here (ign : Bool) : ∀ (texts : List Str) (rc : Int) (evs : List (List PeerEv)), 0 ≤ rc →
    (∀ e ∈ evs, e = []) → ∃ rc', 0 ≤ rc' ∧ writeAll ign .here rc texts evs = .ok (rc', .here) := by
  intro texts
  induction texts with
  | nil => intro rc evs h _; exact ⟨rc, h, rfl⟩
  | cons x xs ih =>
    intro rc evs h he
    have : evs.headD [] = [] := by
      cases evs with
      | nil => rfl
      | cons e es => exact he e (by simp)
    simp only [writeAll, this, List.foldl_nil, Peer.send, bind, Except.bind]
    exact ih _ evs.tail (by omega) (fun e h => he e (List.mem_of_mem_tail h))

/-- **C122**, what holds: if the application has arranged that `SIGPIPE` is ignored, nothing a client does to its
connection between the server's writes stops the server.  The reports that a client who stays would get served are
served up to the failed write, with the same answers, and then the connection is closed.  Missing: the default
disposition of `SIGPIPE`, see the refutation. -/
theorem C122_ignored_partial (s : Server σ) : ∀ (jobs : List (Env × List (List PeerEv))) (c : Conn) (u : σ) (t : UMap)
    (p : Peer) (rs0 : List (Served σ)) (c' : Conn) (u' : σ) (t' : UMap),
    serveReads s (staying jobs) c u t = .ok (rs0, c', u', t') →
    ∃ rs, hangReads true s jobs c u t p = .ok rs ∧ rs.map (·.sent) <+: rs0.map (·.sent) ∧
      (rs.length = rs0.length ∨ ∃ r, rs.getLast? = some r ∧ r.closed = true) := by
  intro jobs
  induction jobs with
  | nil =>
    intro c u t p rs0 c' u' t' h
    simp only [staying, List.map_nil, serveReads, Except.ok.injEq, Prod.mk.injEq] at h
    exact ⟨[], rfl, List.nil_prefix, .inl (by rw [← h.1])⟩
  | cons j jobs ih =>
    obtain ⟨env, evs⟩ := j
    intro c u t p rs0 c' u' t' h
    simp only [staying, List.map_cons, serveReads] at h
    obtain ⟨r, hr, h⟩ := bind_ok h
    obtain ⟨rc, p', hw⟩ := writeAll_ignored r.sent p 0 evs
    have hr' : handleRead { env with types := t, writeRc := 0 } s c u = .ok r := hr
    simp only [hangReads, hr', hw, bind, Except.bind]
    by_cases hc : r.closed = true
    · rw [if_pos hc] at h
      simp only [Except.ok.injEq, Prod.mk.injEq] at h
      rw [if_pos (by simp [hc])]
      refine ⟨_, rfl, ?_, .inr ⟨_, rfl, rfl⟩⟩
      rw [← h.1]
      exact List.prefix_refl _
    · rw [if_neg hc] at h
      obtain ⟨⟨rs, c1, u1, t1⟩, hs, h⟩ := bind_ok h
      simp only [Except.ok.injEq, Prod.mk.injEq] at h
      by_cases hn : rc < 0
      · rw [if_pos (by simp [hn])]
        refine ⟨_, rfl, ?_, .inr ⟨_, rfl, rfl⟩⟩
        rw [← h.1]
        simp
      · rw [if_neg (by simp [hc]; omega)]
        obtain ⟨rs', h1, h2, h3⟩ := ih _ _ _ p' _ _ _ _ hs
        rw [h1]
        refine ⟨_, rfl, ?_, ?_⟩
        · rw [← h.1]
          simp only [List.map_cons, List.cons_prefix_cons, true_and]
          exact h2
        · rcases h3 with h3 | ⟨r', h3, h4⟩
          · exact .inl (by rw [← h.1]; simp [h3])
          · refine .inr ⟨r', ?_, h4⟩
            cases rs' with
            | nil => simp at h3
            | cons a as => rw [List.getLast?_cons_cons]; exact h3

/-- **C122**, what holds: a client that stays is served as before, whatever the disposition of `SIGPIPE`. -/
theorem C122_staying_partial (ign : Bool) (s : Server σ) : ∀ (jobs : List (Env × List (List PeerEv))) (c : Conn) (u : σ)
    (t : UMap) (rs0 : List (Served σ)) (c' : Conn) (u' : σ) (t' : UMap), (∀ j ∈ jobs, ∀ e ∈ j.2, e = []) →
    serveReads s (staying jobs) c u t = .ok (rs0, c', u', t') → hangReads ign s jobs c u t .here = .ok rs0 := by
  intro jobs
  induction jobs with
  | nil =>
    intro c u t rs0 c' u' t' _ h
    simp only [staying, List.map_nil, serveReads, Except.ok.injEq, Prod.mk.injEq] at h
    rw [← h.1]; rfl
  | cons j jobs ih =>
    obtain ⟨env, evs⟩ := j
    intro c u t rs0 c' u' t' hj h
    simp only [staying, List.map_cons, serveReads] at h
    obtain ⟨r, hr, h⟩ := bind_ok h
    obtain ⟨rc, h0, hw⟩ := writeAll_here ign r.sent 0 evs (by omega) (hj (env, evs) (by simp))
    have hr' : handleRead { env with types := t, writeRc := 0 } s c u = .ok r := hr
    have hn : ¬ rc < 0 := by omega
    simp only [hangReads, hr', hw, bind, Except.bind]
    by_cases hc : r.closed = true
    · rw [if_pos hc] at h
      simp only [Except.ok.injEq, Prod.mk.injEq] at h
      rw [if_pos (by simp [hc]), ← h.1]
      cases r; simp only at hc; rw [hc]
    · rw [if_neg hc] at h
      obtain ⟨⟨rs, c1, u1, t1⟩, hs, h⟩ := bind_ok h
      simp only [Except.ok.injEq, Prod.mk.injEq] at h
      rw [if_neg (by simp [hc]; omega), ih _ _ _ _ _ _ _ (fun j h => hj j (List.mem_cons_of_mem _ h)) hs, ← h.1]

/-- **C122**, exactly when the process ends by default: when a write is made on a connection whose peer is gone. -/
theorem C122_killed_partial : ∀ (texts : List Str) (p : Peer) (rc : Int) (evs : List (List PeerEv)),
    writeAll false p rc texts evs = .error .terminate ↔ ∃ i, i < texts.length ∧ peerAt p evs i = .gone := by
  intro texts
  induction texts with
  | nil => intro p rc evs; simp [writeAll]
  | cons x xs ih =>
    intro p rc evs
    have split : (∃ i, i < (x :: xs).length ∧ peerAt p evs i = .gone) ↔
        peerAt p evs 0 = .gone ∨ ∃ i, i < xs.length ∧ peerAt p evs (i + 1) = .gone := by
      constructor
      · rintro ⟨i, h1, h2⟩
        cases i with
        | zero => exact .inl h2
        | succ i => exact .inr ⟨i, by simpa using h1, h2⟩
      · rintro (h | ⟨i, h1, h2⟩)
        · exact ⟨0, by simp, h⟩
        · exact ⟨i + 1, by simpa using h1, h2⟩
    rw [split]
    simp only [writeAll, peerAt]
    cases (evs.headD []).foldl Peer.on p with
    | here => simpa [Peer.send, bind, Except.bind] using ih .here x.length evs.tail
    | closed => simpa [Peer.send, bind, Except.bind] using ih .closed x.length evs.tail
    | reset => simpa [Peer.send, bind, Except.bind] using ih .gone (-1) evs.tail
    | gone => simp [Peer.send, bind, Except.bind]

/-- Two requests in one segment, after which the client closes. -/
def hangInput : Str := b!"GET /a HTTP/1.1\r\n\r\nGET /a HTTP/1.1\r\n\r\n"

/-- The client closes after its requests; the RST that answers the first response arrives before the second. -/
def hangJobs : List (Env × List (List PeerEv)) := [({}, [[.fin]]), ({}, [[.rst]])]

theorem hang_killed : (do
    let s ← demoServer
    let rs ← hangReads false s hangJobs ⟨hangInput, 0⟩ [] UMap.empty .here
    .ok rs.length : Out Nat) = .error .terminate := by decide +kernel

/-- The same with `SIGPIPE` ignored: two requests handled, the connection closed. -/
theorem hang_ignored : (do
    let s ← demoServer
    let rs ← hangReads true s hangJobs ⟨hangInput, 0⟩ [] UMap.empty .here
    .ok (rs.map fun r => (r.closed, r.user.length)) : Out (List (Bool × Nat))) = .ok [(false, 1), (true, 2)] := by
  decide +kernel

/-- **C122**, refuted as stated: a client sends two complete requests to a server with one harmless handler and closes
its connection.  The server answers the first; the answer to the second one ends the process. -/
theorem C122_hangup_refuted : ¬ ∀ (s : Server (List (HttpMethod × Str × Str))) (jobs : List (Env × List (List PeerEv)))
    (c : Conn), (∃ x, serveReads s (staying jobs) c [] UMap.empty = .ok x) →
    ∃ rs, hangReads false s jobs c [] UMap.empty .here = .ok rs := by
  intro h
  have hk := hang_killed
  cases hs : demoServer with
  | error e => exact absurd hs (by
      intro q
      have : (demoServer.map fun _ => ()) = .ok () := by decide +kernel
      rw [q] at this; cases this)
  | ok s =>
    have fine : (do
        let s ← demoServer
        let x ← serveReads s (staying hangJobs) ⟨hangInput, 0⟩ [] UMap.empty
        .ok x.1.length : Out Nat) = .ok 2 := by decide +kernel
    rw [hs] at hk fine
    obtain ⟨s', e, fine⟩ := bind_ok fine
    cases e
    obtain ⟨x, hx, _⟩ := bind_ok fine
    obtain ⟨rs, hr⟩ := h s hangJobs ⟨hangInput, 0⟩ ⟨x, hx⟩
    simp only [bind, Except.bind, hr] at hk
    cases hk

/-- **C122**, for clients, refuted as stated: the server has closed an idle connection; the first `Send` on it gets no
answer, and the second one ends the client's process. -/
theorem C122_client_refuted : ¬ ∀ (req : HttpReq) (evs evs' : List PeerEv) (c : Conn) (r : Sent) (p : Peer),
    clientHang false .insertion req c evs .here = .ok (r, p) →
    ∃ r' p', clientHang false .insertion req r.conn evs' p = .ok (r', p') := by
  intro h
  let req : HttpReq := { method := .GET, version := .HTTP_1_1, route := { path := b!"/" } }
  have q : (clientHang false .insertion req ⟨[], 0⟩ [.fin] .here).map (fun x => (x.1.rc, x.1.conn, x.2)) =
      .ok (kLogicErr, ⟨[], 0⟩, .closed) := by decide +kernel
  cases hc : clientHang false .insertion req ⟨[], 0⟩ [.fin] .here with
  | error e => rw [hc] at q; cases q
  | ok x =>
    obtain ⟨r, p⟩ := x
    rw [hc] at q
    simp only [Except.map, Except.ok.injEq, Prod.mk.injEq] at q
    obtain ⟨r', p', h'⟩ := h req [.fin] [.rst] _ r p hc
    rw [q.2.1, q.2.2] at h'
    have k : (clientHang false .insertion req ⟨[], 0⟩ [.rst] .closed).map (fun x => x.1.rc) = .error .terminate := by
      decide +kernel
    rw [h'] at k
    cases k

/-- **C122**, for clients, what holds: with `SIGPIPE` ignored no `Send` of a request that can be built ends the process.  To a server that is
there, or that has closed its side, it sends as always, whatever the disposition; to one that is gone it reads nothing and leaves the response
as it was (and returns success: C39). -/
theorem C122_client_ignored_partial (o : HashOrder) (req : HttpReq) (c : Conn) (evs : List PeerEv) (p : Peer)
    (hb : (reqBuild o req []).2.2 = kSuccess) :
    (evs.foldl Peer.on p = .reset ∨ evs.foldl Peer.on p = .gone →
      ∃ r, clientHang true o req c evs p = .ok (r, .gone) ∧ r.rc = kSuccess ∧ r.resp = {} ∧ r.conn = c) ∧
    (evs.foldl Peer.on p = .here ∨ evs.foldl Peer.on p = .closed → ∀ ign,
      clientHang ign o req c evs p =
        (clientSend o req {} (reqBuild o req []).2.1.length c).map fun r => (r, evs.foldl Peer.on p)) := by
  refine ⟨fun h => ?_, fun h ign => ?_⟩
  · have hs : (evs.foldl Peer.on p).send true (reqBuild o req []).2.1.length = .ok (-1, .gone) := by
      rcases h with h | h <;> rw [h] <;> rfl
    have hc : clientSend o req {} (-1) c =
        .ok { rc := kSuccess, req := (reqBuild o req []).1, resp := {}, written := some (reqBuild o req []).2.1, conn := c } := by
      unfold clientSend
      simp [hb]
    unfold clientHang
    simp only [hb, ne_eq, not_true_eq_false, if_false, bind, Except.bind, hs, hc]
    exact ⟨_, rfl, rfl, rfl, rfl⟩
  · have hs : (evs.foldl Peer.on p).send ign (reqBuild o req []).2.1.length = .ok ((reqBuild o req []).2.1.length, evs.foldl Peer.on p) := by
      rcases h with h | h <;> rw [h] <;> rfl
    unfold clientHang
    simp only [hb, ne_eq, not_true_eq_false, if_false, bind, Except.bind, hs]
    cases clientSend o req {} (reqBuild o req []).2.1.length c <;> rfl

/-- Both cases are met: a server that closed and then reset, and one that is there. -/
example : (clientHang true .insertion { method := .GET, version := .HTTP_1_1, route := { path := b!"/" } } ⟨b!"HTTP/1.1 404 Not Found\r\nContent-Length: 0\r\n\r\n", 0⟩
      [.fin, .rst] .here).map (fun x => (x.1.rc, x.1.resp.status, x.2)) = .ok (0, .UNKNOWN, .gone) ∧
    (clientHang false .insertion { method := .GET, version := .HTTP_1_1, route := { path := b!"/" } } ⟨b!"HTTP/1.1 404 Not Found\r\nContent-Length: 0\r\n\r\n", 0⟩
      [.fin] .here).map (fun x => (x.1.rc, x.1.resp.status, x.2)) = .ok (0, .NOT_FOUND, .closed) := by decide +kernel

/-! ### C123 -/

/-- **C123**, what holds: a complete request is logged by two messages: one with its method, path and connection when it
was read, and, if the answer could be written, one with the status that the answer carries.  (Only the server's own
messages.)  Missing: that each message is one line, see the refutations. -/
theorem C123_logged_partial (fd : Int) (timedOut : Bool) (sys : Str) (env : Env) (s : Server σ) (head body rest : Str)
    (fin : Int) (u : σ) (h1 : ¬ Occurs crlf2 (head ++ crlf2.dropLast))
    (h2 : 10 ∉ (head ++ crlf2 ++ (body ++ rest)).take 3) (hf : Fits (head ++ crlf2 ++ (body ++ rest)))
    (hl : (head ++ crlf2).length < 2 ^ 31) (q : HttpReq) (hp : reqParse {} (head ++ crlf2) = .ok (q, kSuccess))
    (hb : (body.length : Int) = max 0 (headerGetContentLength q.header)) (hmax : body.length ≤ maxRw) (ctx : Ctx σ)
    (hd : dispatch s q.route.path (freshCtx env { q with body := cString body } ⟨rest, fin⟩ u) = .ok ctx) :
    ∃ text st more, handleRead env s ⟨head ++ crlf2 ++ (body ++ rest), fin⟩ u =
        .ok ⟨ctx.sent ++ [text], decide (env.writeRc < 0), ctx.conn, ctx.user, ctx.types⟩ ∧
      text = versionToStr ctx.resp.version ++ b!" " ++ intToStr (statusNum st) ++ b!" " ++ statusToStr st ++ crlf ++ more ∧
      handleReadLog fd timedOut sys env s ⟨head ++ crlf2 ++ (body ++ rest), fin⟩ u =
        .ok [(.info, b!"req: " ++ methodToStr q.method ++ b!" " ++ q.route.path ++ b!" soc:" ++ intToStr fd),
             if env.writeRc < 0 then (.error, b!"[soc.Write]" ++ sys)
             else (.info, b!"resp: " ++ statusToStr st ++ b!" soc:" ++ intToStr fd ++ b!"\n")] := by
  have hr : handleReadLog fd timedOut sys env s ⟨head ++ crlf2 ++ (body ++ rest), fin⟩ u =
      serveRequestLog fd sys env s { q with body := cString body } ⟨rest, fin⟩ u := by
    have hqb : q.body = [] := by
      refine parse_head_body ?_ h1 hp
      unfold Fits at *
      simp only [List.length_append] at hf ⊢
      omega
    unfold handleReadLog
    rw [readHead h1 h2 hf, toInt32_small hl]
    simp only [bind, Except.bind]
    rw [if_neg (by simp [crlf2]; omega), if_neg (by omega), hp]
    simp only
    rw [if_neg (by simp)]
    by_cases hz : headerGetContentLength q.header > 0
    · rw [if_pos hz, readBody (rest := rest) (fin := fin) (by omega) hz hmax]
      simp only
      rw [if_neg (by omega), if_neg (by omega)]
    · rw [if_neg hz]
      have : body = [] := List.eq_nil_of_length_eq_zero (by omega)
      subst this
      have e : ({ q with body := cString [] } : HttpReq) = q := by
        cases q; simp only at hqb; subst hqb; rfl
      rw [e]; rfl
  obtain ⟨text, a1, a2, _⟩ := C45_answered_partial env s head body rest fin u h1 h2 hf hl q hp hb hmax ctx hd
  have at' : text = responseText env.order ctx.resp := by
    have := a1
    rw [handleRead_complete env s head body rest fin u h1 h2 hf hl q hp hb hmax] at this
    unfold freshCtx at hd
    simp only [serveRequest, hd, bind, Except.bind, Except.ok.injEq, Served.mk.injEq, List.append_cancel_left_eq,
      List.cons.injEq, and_true] at this
    exact this.symm
  refine ⟨text, if ctx.resp.status = .UNKNOWN then .NOT_FOUND else ctx.resp.status, ?_⟩
  have key : ∃ more, text = versionToStr ctx.resp.version ++ b!" " ++
      intToStr (statusNum (if ctx.resp.status = .UNKNOWN then .NOT_FOUND else ctx.resp.status)) ++ b!" " ++
      statusToStr (if ctx.resp.status = .UNKNOWN then .NOT_FOUND else ctx.resp.status) ++ crlf ++ more := by
    rw [at']
    unfold responseText
    by_cases hu : ctx.resp.status = .UNKNOWN
    · rw [if_pos hu, if_pos hu]
      have e : (respNotFound ctx.resp).status = .NOT_FOUND := rfl
      refine ⟨headerToString env.order (headerSetContentLength (respNotFound ctx.resp).header
        (toInt32 (respNotFound ctx.resp).body.length)) ++ (respNotFound ctx.resp).body, ?_⟩
      have v : (respNotFound ctx.resp).version = ctx.resp.version := rfl
      simp only [respBuild, e, reduceCtorEq, if_false, v]
      simp
    · rw [if_neg hu, if_neg hu]
      refine ⟨headerToString env.order (headerSetContentLength ctx.resp.header
        (toInt32 ctx.resp.body.length)) ++ ctx.resp.body, ?_⟩
      simp only [respBuild, hu, if_false]
      simp
  obtain ⟨more, key⟩ := key
  refine ⟨more, a1, key, ?_⟩
  rw [hr]
  unfold freshCtx at hd
  simp only [serveRequestLog, hd, bind, Except.bind, logReqLine, logRespLine]

/-- **C123**, what holds: the message about a request is a single line when its decoded path has no line break. -/
theorem C123_one_line_partial (fd : Int) (q : HttpReq) (h : 10 ∉ q.route.path) : 10 ∉ logReqLine fd q := by
  have d : ∀ fuel n, 10 ∉ decDigits fuel n := by
    intro fuel
    induction fuel with
    | zero => intro n; simp [decDigits]
    | succ fuel ih =>
      intro n
      have dig : ∀ k, k < 10 → (10 : UInt8) ≠ 48 + UInt8.ofNat k := by decide
      unfold decDigits
      by_cases hn : n < 10
      · rw [if_pos hn]; simpa using dig n hn
      · rw [if_neg hn]
        simp only [List.mem_append, List.mem_singleton, not_or]
        exact ⟨ih _, dig _ (Nat.mod_lt _ (by omega))⟩
  have hi : 10 ∉ intToStr fd := by
    unfold intToStr natToStr
    by_cases hn : fd < 0
    · rw [if_pos hn]; simpa using d _ _
    · rw [if_neg hn]; exact d _ _
  have hm : 10 ∉ methodToStr q.method := by cases q.method <;> decide
  simp only [logReqLine, List.mem_append, not_or]
  exact ⟨⟨⟨⟨⟨by decide, hm⟩, by decide⟩, h⟩, by decide⟩, hi⟩

/-- The messages for one request on connection 7 of the demo server. -/
def demoLog (input : Str) : Out (List (Level × Str)) := do
  let s ← demoServer
  handleReadLog 7 false [] {} s ⟨input, 0⟩ []

def forgedInput : Str := b!"GET /x\n[ERROR]:disk-full HTTP/1.1\r\n\r\n"

/-- **C123**, refuted as stated: one request whose path has a line break in it makes the console look exactly as if the
application had logged a message that the client made up.  (The path may have no spaces; it may have line breaks.) -/
theorem C123_forged_refuted : ¬ ∀ (input : Str) (msgs honest : List (Level × Str)),
    demoLog input = .ok msgs → (console msgs).flatten = (console honest).flatten →
    msgs.length = honest.length := by
  intro h
  have := h forgedInput
    [(.info, b!"req: GET /x\n[ERROR]:disk-full soc:7"), (.info, b!"resp: Not Found soc:7\n")]
    [(.info, b!"req: GET /x"), (.error, b!"disk-full soc:7"), (.info, b!"resp: Not Found soc:7\n")]
    (by decide +kernel) (by decide +kernel)
  exact absurd this (by decide)

/-- **C123**, a request that never becomes complete: one message of level error, which says whether the client closed, was too slow, or the
connection failed; nothing about an answer, and none is sent. -/
theorem C123_incomplete_partial (fd : Int) (timedOut : Bool) (sys : Str) (env : Env) (s : Server σ) (c : Conn) (u : σ)
    (h1 : ¬ Occurs crlf2 c.input) (h2 : 10 ∉ c.input.take 3) (hf : Fits c.input) (hfin : c.fin ≤ 0) :
    handleRead env s c u = .ok ⟨[], true, ⟨[], c.fin⟩, u, env.types⟩ ∧
    handleReadLog fd timedOut sys env s c u =
      .ok [(.error, if c.fin = 0 then b!"[soc.ReadUntil]: peer close before read complete"
        else if timedOut then b!"[soc.ReadUntil]: read timeout" else b!"[soc.ReadUntil]:" ++ sys)] := by
  refine ⟨C45_incomplete env s c u h1 h2 hf hfin, ?_⟩
  unfold handleReadLog
  rw [C33_stream_end_partial c crlf2 (by simp [crlf2]) h1 hf (by rw [earlyEnd_crlf2]; exact h2)]
  simp only [bind, Except.bind]
  by_cases h0 : c.fin = 0
  · rw [if_pos h0, if_pos h0]
  · rw [if_neg h0, if_neg h0, if_pos (by omega)]

/-- **C123**, a request that cannot be parsed: a message of level error with the parser's reason, and one with the status 400 of the answer. -/
theorem C123_bad_request_partial (fd : Int) (timedOut : Bool) (sys : Str) (env : Env) (s : Server σ) (head rest : Str) (fin : Int) (u : σ)
    (h1 : ¬ Occurs crlf2 (head ++ crlf2.dropLast)) (h2 : 10 ∉ (head ++ crlf2 ++ rest).take 3)
    (hf : Fits (head ++ crlf2 ++ rest)) (hl : (head ++ crlf2).length < 2 ^ 31) (q : HttpReq) (rc : Int)
    (hp : reqParse {} (head ++ crlf2) = .ok (q, rc)) (hrc : rc ≠ 0) :
    ∃ text, handleRead env s ⟨head ++ crlf2 ++ rest, fin⟩ u = .ok ⟨[text], true, ⟨rest, fin⟩, u, env.types⟩ ∧
      (Fits text → Reads text .BAD_REQUEST (reqErrText (head ++ crlf2))) ∧
      handleReadLog fd timedOut sys env s ⟨head ++ crlf2 ++ rest, fin⟩ u =
        .ok [(.error, b!"[req.Parse]:" ++ reqErrText (head ++ crlf2)), (.info, b!"resp: Bad Request soc:" ++ intToStr fd ++ b!"\n")] := by
  obtain ⟨text, a1, a2⟩ := C45_bad_request_partial env s head rest fin u h1 h2 hf hl q rc hp hrc
  refine ⟨text, a1, a2, ?_⟩
  unfold handleReadLog
  rw [readHead h1 h2 hf, toInt32_small hl]
  simp only [bind, Except.bind]
  rw [if_neg (by simp [crlf2]; omega), if_neg (by omega), hp]
  simp only
  rw [if_pos (by simpa [kSuccess] using hrc)]
  rfl

/-- **C123**, a request that announces a body of which nothing comes: one message of level error, nothing about an answer, and none is sent.
(A body that comes in part is served, C45.) -/
theorem C123_no_body_partial (fd : Int) (timedOut : Bool) (sys : Str) (env : Env) (s : Server σ) (head : Str)
    (fin : Int) (u : σ) (h1 : ¬ Occurs crlf2 (head ++ crlf2.dropLast)) (h2 : 10 ∉ (head ++ crlf2).take 3)
    (hf : Fits (head ++ crlf2)) (hl : (head ++ crlf2).length < 2 ^ 31) (q : HttpReq)
    (hp : reqParse {} (head ++ crlf2) = .ok (q, kSuccess)) (hpos : 0 < headerGetContentLength q.header) (hfin : fin ≤ 0) :
    handleRead env s ⟨head ++ crlf2, fin⟩ u = .ok ⟨[], true, ⟨[], fin⟩, u, env.types⟩ ∧
    handleReadLog fd timedOut sys env s ⟨head ++ crlf2, fin⟩ u =
      .ok [(.error, if fin = 0 then b!"[soc.Read]: peer close before read complete"
        else if timedOut then b!"[soc.Read]: read body timeout" else b!"[soc.Read]: " ++ sys)] := by
  have hrd := readHead (head := head) (rest := []) (fin := fin) h1 (by simpa using h2) (by simpa using hf)
  rw [List.append_nil] at hrd
  have hn : (headerGetContentLength q.header).toNat ≠ 0 := by omega
  have hr : ∃ r, sockRead ⟨[], fin⟩ (headerGetContentLength q.header).toNat true 0 = (fin, r, ⟨[], fin⟩) := by
    simp only [sockRead, ioRead, if_neg hn, if_true]
    exact ⟨_, rfl⟩
  obtain ⟨r, hr⟩ := hr
  constructor
  · unfold handleRead
    rw [hrd, toInt32_small hl]
    simp only [bind, Except.bind]
    rw [if_neg (by simp [crlf2]; omega), hp]
    simp only
    rw [if_neg (by simp), if_pos hpos, hr]
    simp [hfin]
  · unfold handleReadLog
    rw [hrd, toInt32_small hl]
    simp only [bind, Except.bind]
    rw [if_neg (by simp [crlf2]; omega), if_neg (by omega), hp]
    simp only
    rw [if_neg (by simp), if_pos hpos, hr]
    simp only
    by_cases h0 : fin = 0
    · rw [if_pos h0, if_pos h0]
    · rw [if_neg h0, if_neg h0, if_pos (by omega)]

/-- **C123**, refuted as stated: the message about the answer always carries a line break of its own, so the log has an
empty line after it. -/
theorem C123_blank_line_refuted (fd : Int) (st : HttpStatus) : ∃ t, console [(.info, logRespLine fd st)] = [t ++ b!"\n\n"] := by
  refine ⟨b!"[INFO]:" ++ (b!"resp: " ++ statusToStr st ++ b!" soc:" ++ intToStr fd), ?_⟩
  simp [console, stdLog, logRespLine, Level.val]

example : demoLog b!"GET /a HTTP/1.1\r\n\r\n" = .ok [(.info, b!"req: GET /a soc:7"), (.info, b!"resp: OK soc:7\n")] ∧
    demoLog b!"GET\r\n\r\n" = .ok [(.error, b!"[req.Parse]:[logicerr]:invalid http request"), (.info, b!"resp: Bad Request soc:7\n")] ∧
    demoLog b!"GET /a" = .ok [(.error, b!"[soc.ReadUntil]: peer close before read complete")] ∧
    demoLog b!"POST /a HTTP/1.1\r\nContent-Length: 3\r\n\r\n" = .ok [(.error, b!"[soc.Read]: peer close before read complete")] := by decide +kernel

end Cppnet
