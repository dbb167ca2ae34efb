import Verif.Spec.Conversation
import Verif.Props.Serve
import Verif.Proofs.TcpRel

/-!
# C105–C109: several requests on one connection, several connections
-/

namespace Cppnet
open Spec
variable {σ : Type}
set_option synthInstance.maxSize 1000

/-! ### Framing -/

theorem methodOfStr_table {m : Str} (h : methodOfStr m ≠ .UNKNOWN) : 3 ≤ m.length ∧ 10 ∉ m := by
  unfold methodOfStr at h
  repeat' split at h
  all_goals first | (subst m; decide) | exact absurd rfl h

/-- A request that parses does not start with a line feed. -/
theorem parsed_start {head : Str} (hl : (head ++ crlf2).length < 2 ^ 31) {q : HttpReq}
    (hp : reqParse {} (head ++ crlf2) = .ok (q, kSuccess)) (rest : Str) : 10 ∉ (head ++ crlf2 ++ rest).take 3 := by
  have hocc : Occurs crlf2 (head ++ crlf2) := occurs_iff_infix.2 ⟨head, [], by simp⟩
  obtain ⟨line, ls, body, hm⟩ := message_exists hocc
  have hf : Fits (head ++ crlf2) := by unfold Fits; omega
  have e := (messageText_iff.1 hm).1
  have hll : line.length < 2 ^ 31 := by
    have := congrArg List.length e
    simp only [List.length_append] at this hl
    omega
  rw [reqParse_message {} hm hf] at hp
  obtain ⟨r', rc, h1, _, h3⟩ := reqTail_total ({ header := UMap.empty.setAll ((goodLines ls).map codeField), body := body } : HttpReq) line hll
  rw [h1] at hp
  cases hp
  obtain ⟨m, t, v, h4, _, h6, _⟩ := h3.1 rfl
  obtain ⟨h7, h8⟩ := methodOfStr_table h6
  rw [e, h4.1]
  simp only [List.append_assoc]
  rw [List.take_append_of_le_length h7]
  exact fun h => h8 (List.mem_of_mem_take h)

/-- One complete request at the start of a stream. -/
theorem complete_served (env : Env) (s : Server σ) {text : Str} (h : CompleteRequest text) :
    ∃ q : HttpReq, Ascii q.route.path ∧ ∀ later fin u, Fits (text ++ later) →
      handleRead env s ⟨text ++ later, fin⟩ u = serveRequest env s q ⟨later, fin⟩ u := by
  obtain ⟨head, body, q, rfl, h1, hp, ha, hb, hmax, hl⟩ := h
  refine ⟨{ q with body := cString body }, ha, fun later fin u hf => ?_⟩
  have e : head ++ crlf2 ++ body ++ later = head ++ crlf2 ++ (body ++ later) := by simp
  rw [e] at hf ⊢
  exact handleRead_complete env s head body later fin u h1 (parsed_start hl hp _) hf hl q hp hb hmax

/-! ### Handlers that do not look at the stream -/

theorem runInOrder_aloof (es : List (Entry σ)) (h : ∀ e ∈ es, AloofEntry e) :
    ∀ ctx : Ctx σ, ∃ ctx' : Ctx σ, ∀ c, runInOrder es { ctx with conn := c } = .ok { ctx' with conn := c } := by
  induction es with
  | nil => intro ctx; exact ⟨ctx, fun c => rfl⟩
  | cons e es ih =>
    intro ctx
    obtain ⟨ht, hfil⟩ := h e (by simp)
    replace ih := ih fun x hx => h x (by simp [hx])
    obtain ⟨b, hb⟩ := accepts_total fun f hf => hfil f hf ctx.req
    simp only [runInOrder, hb, bind, Except.bind]
    cases b with
    | false => exact ih ctx
    | true =>
      cases hc : e.callback with
      | none => exact ih ctx
      | some f =>
        obtain ⟨c1, h1⟩ := ht f hc ctx
        simp only [h1]
        by_cases hr : c1.running = true
        · obtain ⟨c2, h2⟩ := ih c1
          exact ⟨c2, fun c => by rw [← h2 c]; exact if_pos hr⟩
        · exact ⟨c1, fun c => if_neg hr⟩

theorem registered_entries (regs : List (Reg σ)) (ha : AsciiRegs regs) (s : Server σ) (hs : registerAll regs = .ok s)
    (path : Str) (hp : Ascii path) : ∃ es, (∀ e ∈ es, ∃ r ∈ regs, r.entry = e) ∧ ∀ ctx, dispatch s path ctx = runInOrder es ctx := by
  obtain ⟨s', m, h1, h2, h3⟩ := C40_exact_partial regs ha
  rw [hs] at h1
  cases h1
  refine ⟨tableCandidates m path, fun e he => ?_, h3 path hp⟩
  unfold tableCandidates at he
  obtain ⟨i, _, hi⟩ := List.mem_flatMap.1 he
  have hi := (List.mem_filter.1 hi).1
  cases hm : m (path.take i) with
  | none => simp [hm] at hi
  | some l =>
    rw [hm] at hi
    exact tableRun_entries h2 _ _ hm e hi

theorem serve_aloof (regs : List (Reg σ)) (ha : AsciiRegs regs) (hal : ∀ r ∈ regs, AloofEntry r.entry) (s : Server σ)
    (hs : registerAll regs = .ok s) (env : Env) (q : HttpReq) (hq : Ascii q.route.path) (u : σ) :
    ∃ r : Served σ, r.closed = decide (env.writeRc < 0) ∧ r.sent ≠ [] ∧
      ∀ c, serveRequest env s q c u = .ok { r with conn := c } := by
  obtain ⟨es, h1, h2⟩ := registered_entries regs ha s hs q.route.path hq
  obtain ⟨ctx, h3⟩ := runInOrder_aloof es (fun e he => by
    obtain ⟨r, hr, rfl⟩ := h1 e he
    exact hal r hr) (freshCtx env q ⟨[], 0⟩ u)
  refine ⟨⟨ctx.sent ++ [responseText env.order ctx.resp], decide (env.writeRc < 0), ⟨[], 0⟩, ctx.user, ctx.types⟩, rfl, by simp, fun c => ?_⟩
  have h4 : runInOrder es ({ req := q, conn := c, running := env.running, types := env.types, fs := env.fs, live := env.live, user := u } : Ctx σ) =
      .ok { ctx with conn := c } := h3 c
  simp only [serveRequest, h2, bind, Except.bind, h4]

/-! ### C105 -/

/-- C105: complete requests that follow one another on a connection are served one by one, in order, each exactly as if
it had come alone; what follows them stays in the stream. -/
theorem C105_in_order (regs : List (Reg σ)) (ha : AsciiRegs regs) (hal : ∀ r ∈ regs, AloofEntry r.entry) (s : Server σ)
    (hs : registerAll regs = .ok s) (jobs : List (Env × Str)) (hj : ∀ j ∈ jobs, CompleteRequest j.2 ∧ 0 ≤ j.1.writeRc)
    (later : Str) (fin : Int) (u : σ) (t : UMap) (hf : Fits ((jobs.map (·.2)).flatten ++ later)) :
    ∃ rs u' t', serveReads s (jobs.map (·.1)) ⟨(jobs.map (·.2)).flatten ++ later, fin⟩ u t = .ok (rs, ⟨later, fin⟩, u', t') ∧
      EachAlone s jobs u t (rs.map (·.sent)) u' t' := by
  induction jobs generalizing u t with
  | nil => exact ⟨[], u, t, rfl, .nil u t⟩
  | cons j jobs ih =>
    obtain ⟨env, text⟩ := j
    obtain ⟨hc, hw⟩ := hj (env, text) (by simp)
    have hf' : Fits (text ++ ((jobs.map (·.2)).flatten ++ later)) := by simpa using hf
    have hfl : Fits ((jobs.map (·.2)).flatten ++ later) := by
      unfold Fits at *
      simp only [List.length_append] at hf' ⊢
      omega
    have hft : Fits (text ++ []) := by
      unfold Fits at *
      simp only [List.length_append, List.length_nil] at hf' ⊢
      omega
    obtain ⟨q, hq, hserve⟩ := complete_served { env with types := t } s hc
    obtain ⟨r, hcl, hne, hr⟩ := serve_aloof regs ha hal s hs { env with types := t } q hq u
    have hcl' : r.closed = false := by rw [hcl]; simpa using hw
    obtain ⟨rs, u', t', h1, h2⟩ := ih (fun j hj' => hj j (by simp [hj'])) r.user r.types hfl
    have e1 := hserve ((jobs.map (·.2)).flatten ++ later) fin u hf'
    have e2 := hserve [] fin u hft
    rw [hr] at e1 e2
    simp only [List.append_nil] at e2
    refine ⟨{ r with conn := ⟨(jobs.map (·.2)).flatten ++ later, fin⟩ } :: rs, u', t', ?_, ?_⟩
    · simp only [List.map_cons, List.flatten_cons, List.append_assoc, serveReads, e1, bind, Except.bind, hcl',
        Bool.false_eq_true, if_false, h1]
    · have := EachAlone.cons (r := { r with conn := ⟨[], fin⟩ }) e2 hcl' hne h2
      exact this

example : CompleteRequest b!"POST /a HTTP/1.1\r\nContent-Length: 3\r\n\r\nxyz" := by
  refine ⟨b!"POST /a HTTP/1.1\r\nContent-Length: 3", b!"xyz", _, rfl, ?_, rfl, ?_, ?_, by decide, by decide⟩
  · rw [occurs_iff_infix]; decide +kernel
  · decide +kernel
  · decide +kernel

example : AloofEntry (⟨echo, true, [methodFilter .POST]⟩ : Entry (List (HttpMethod × Str × Str))) := by
  refine ⟨fun f hf ctx => ?_, fun f hf r => ?_⟩
  · cases hf
    exact ⟨{ ctx with user := ctx.user ++ [(ctx.req.method, ctx.req.route.path, ctx.req.body)],
                      resp := respText ctx.resp .OK (ctx.req.body ++ b!"!") }, fun c => rfl⟩
  · simp only [List.mem_singleton] at hf
    subst hf; exact ⟨_, rfl⟩

/-- Two requests at once, and the beginning of a third. -/
example : (do
    let s ← demoServer
    let (rs, c, u, _) ← serveReads s [{}, {}] ⟨b!"POST /a HTTP/1.1\r\nContent-Length: 3\r\n\r\nxyzGET /b HTTP/1.1\r\n\r\nGE", 0⟩ [] UMap.empty
    .ok (rs.map (fun r => r.sent.map (·.take 15)), c.input, u) : Out _) =
    .ok ([[b!"HTTP/1.1 200 OK"], [b!"HTTP/1.1 404 No"]], b!"GE", [(.POST, b!"/a", b!"xyz")]) := by decide +kernel

/-! ### C106 -/

/-- What the handlers must leave: nothing written by themselves, the stream untouched, a response that survives the wire
(C38), below 2 GiB. -/
structure Spec.GoodAnswer (env : Env) (conn : Conn) (ctx : Ctx σ) : Prop where
  conn : ctx.conn = conn
  sent : ctx.sent = []
  wire : WireResponse ctx.resp
  max : ctx.resp.body.length ≤ maxRw
  nul : 0 ∉ ctx.resp.body
  size : (respBuild env.order ctx.resp []).2.1.length < 2 ^ 31

/-- What a request must be: it survives the wire (C37), below 2 GiB. -/
structure Spec.GoodRequest (o : HashOrder) (r : HttpReq) : Prop where
  wire : WireRequest r
  max : r.body.length ≤ maxRw
  nul : 0 ∉ r.body
  size : (reqBuild o r []).2.1.length < 2 ^ 31

/-- One exchange. -/
theorem exchange_ok (o : HashOrder) (env : Env) (s : Server σ) (r : HttpReq) (fs fc : Int) (u : σ) (h : GoodRequest o r)
    (ha : ∀ q, SameRequest q r → ∃ ctx, dispatch s r.route.path (freshCtx env q ⟨[], fs⟩ u) = .ok ctx ∧ GoodAnswer env ⟨[], fs⟩ ctx) :
    ∃ q ctx sent served, SameRequest q r ∧ dispatch s r.route.path (freshCtx env q ⟨[], fs⟩ u) = .ok ctx ∧
      exchange o env s r {} ⟨[], fs⟩ ⟨[], fc⟩ u = .ok (sent, served) ∧ sent.rc = 0 ∧ SameResponse sent.resp ctx.resp ∧
      sent.conn = ⟨[], fc⟩ ∧ served.conn = ⟨[], fs⟩ ∧ served.user = ctx.user := by
  obtain ⟨r', text, hb, hc⟩ := serve_built env s o r [] fs u h.wire h.max
  have htext : (reqBuild o r []).2.1 = text := by rw [hb]
  have hlen := h.size
  rw [htext] at hlen
  simp only [List.append_nil] at hc
  have hfits : Fits text := by unfold Fits; omega
  obtain ⟨q, hq, q1, q2, q3, q4, q5, q6, q7, q8⟩ := hc hfits hlen
  rw [cString_eq_self.2 h.nul] at q5
  have hsame : SameRequest q r := ⟨q1, q2, q3, q4, q5, q6, q7, q8⟩
  obtain ⟨ctx, hd, hg⟩ := ha q hsame
  have hpos : 0 < text.length := by
    obtain ⟨text', hb', hm⟩ := reqBuild_message o r [] h.wire
    rw [hb] at hb'
    cases hb'
    rw [(messageText_iff.1 hm).1]
    simp [crlf]
    omega
  obtain ⟨p', rtext, hrb, hrc⟩ := recv_built o env.order r {} ctx.resp text.length [] fc h.wire.1 h.wire.2.1 (by omega) hg.wire hg.max
  have hrt : (respBuild env.order ctx.resp []).2.1 = rtext := by rw [hrb]
  have hrl := hg.size
  rw [hrt] at hrl
  simp only [List.append_nil] at hrc
  obtain ⟨sent, h1, h2, h3, h4, h5, h6, _, h8⟩ := hrc (by unfold Fits; omega) hrl
  rw [cString_eq_self.2 hg.nul] at h6
  have hserve : handleRead env s ⟨text, fs⟩ u = .ok ⟨[rtext], decide (env.writeRc < 0), ⟨[], fs⟩, ctx.user, ctx.types⟩ := by
    rw [hq]
    rw [← q3] at hd
    unfold freshCtx at hd
    simp only [serveRequest, hd, bind, Except.bind, hg.sent, hg.conn, List.nil_append, responseText_eq _ _ hg.wire.1, hrt]
  refine ⟨q, ctx, sent, ⟨[rtext], decide (env.writeRc < 0), ⟨[], fs⟩, ctx.user, ctx.types⟩, hsame, hd, ?_, h2, ⟨h4, h5, h6, fun k hk => ?_⟩, h3, rfl, rfl⟩
  · simp only [exchange, htext, List.nil_append, hserve, bind, Except.bind, List.flatten_cons, List.flatten_nil, List.append_nil, h1]
  · rw [h8 k hk]; simp [UMap.get, UMap.empty]

/-- C106: on one connection, any number of `Send`s one after the other: each returns 0 with the response that the
server's handlers gave to this very request, and nothing is left over in either direction. -/
theorem C106_conversation (o : HashOrder) (s : Server σ) (jobs : List (Env × HttpReq)) (fs fc : Int) (u : σ)
    (hr : ∀ j ∈ jobs, GoodRequest o j.2)
    (ha : ∀ j ∈ jobs, ∀ q u, SameRequest q j.2 → ∃ ctx, dispatch s j.2.route.path (freshCtx j.1 q ⟨[], fs⟩ u) = .ok ctx ∧
      GoodAnswer j.1 ⟨[], fs⟩ ctx) :
    ∃ sents u', converse o s jobs ⟨[], fs⟩ ⟨[], fc⟩ u = .ok (sents, ⟨[], fs⟩, ⟨[], fc⟩, u') ∧ Talk s ⟨[], fs⟩ jobs u sents u' := by
  induction jobs generalizing u with
  | nil => exact ⟨[], u, rfl, .nil u⟩
  | cons j jobs ih =>
    obtain ⟨env, r⟩ := j
    obtain ⟨q, ctx, sent, served, h1, h2, h3, h4, h5, h6, h7, h8⟩ := exchange_ok o env s r fs fc u (hr (env, r) (by simp))
      (fun q hq => ha (env, r) (by simp) q u hq)
    obtain ⟨sents, u', h9, h10⟩ := ih ctx.user (fun j hj => hr j (by simp [hj])) (fun j hj => ha j (by simp [hj]))
    refine ⟨sent :: sents, u', ?_, .cons h1 h2 h4 h5 h10⟩
    simp only [converse, h3, h6, h7, h8, h9, bind, Except.bind]

/-- A handler that counts the requests and answers by the body of the request. -/
def countHandler : Handler Nat := fun c =>
  .ok { c with user := c.user + 1, resp := respText c.resp .OK (if c.req.body = b!"x" then b!"one" else b!"other") }

/-- A server that has it under /a. -/
def countServer : Server Nat :=
  match registerAll [⟨[], b!"/a", ⟨some countHandler, true, []⟩⟩] with
  | .ok s => s
  | .error _ => {}

def countRequest (body : Str) : HttpReq := { method := .POST, route := { path := b!"/a" }, body := body }

example : GoodRequest .insertion (countRequest b!"x") := by
  refine ⟨⟨by decide, by decide, ⟨by decide, by decide, ?_, ?_⟩, ?_⟩, by decide, by decide, by decide +kernel⟩
  · show ∀ c ∈ b!"/a", _
    intro c hc
    simp only [List.mem_cons, List.not_mem_nil, or_false] at hc
    rcases hc with rfl | rfl <;> exact ⟨by unfold Spec.Plain; decide, by decide⟩
  · intro k v hk; cases hk
  · intro k v hk; cases hk

example (fs : Int) (q : HttpReq) (u : Nat) : ∃ ctx, dispatch countServer b!"/a" (freshCtx {} q ⟨[], fs⟩ u) = .ok ctx ∧
    GoodAnswer {} ⟨[], fs⟩ ctx := by
  refine ⟨{ freshCtx {} q ⟨[], fs⟩ u with user := u + 1, resp := respText {} .OK (if q.body = b!"x" then b!"one" else b!"other") }, rfl, ?_⟩
  have hw : ∀ b, WireResponse (respText {} .OK b) := fun b => ⟨by simp [respText, respType], fun k v hk => by
    simp only [respText, respType, UMap.get_set] at hk
    split at hk
    · rename_i e
      rw [e]
      cases hk
      exact Or.inr ⟨by decide, by decide, by decide, 116, b!"ext/plain", rfl, by decide⟩
    · cases hk⟩
  have hb : ∀ b ∈ [b!"one", b!"other"], b.length ≤ maxRw ∧ 0 ∉ b ∧
      (respBuild .insertion (respText {} .OK b) []).2.1.length < 2 ^ 31 := by decide +kernel
  have hm : (if q.body = b!"x" then b!"one" else b!"other") ∈ [b!"one", b!"other"] := by split <;> simp
  obtain ⟨h1, h2, h3⟩ := hb _ hm
  exact ⟨rfl, rfl, hw _, h1, h2, h3⟩

example : (converse .insertion countServer [({}, countRequest b!"x"), ({}, countRequest b!""), ({}, countRequest b!"x")] ⟨[], 0⟩ ⟨[], 0⟩ 0).map
    (fun r => (r.1.map (fun s => (s.rc, s.resp.body)), r.2.1.input, r.2.2.1.input, r.2.2.2)) =
    .ok ([(0, b!"one"), (0, b!"other"), (0, b!"one")], [], [], 3) := by decide +kernel

/-! ### C107 -/

/-- `g` on the first component. -/
def pairMap {α β γ : Type} (g : α → β) (r : α × γ) : β × γ := (g r.1, r.2)

theorem seen_inj {c c' : Ctx σ} (h : seen c = seen c') : c.req = c'.req ∧ c.resp = c'.resp ∧ c.conn = c'.conn ∧
    c.sent = c'.sent ∧ c.isContinue = c'.isContinue ∧ c.running = c'.running ∧ c.fs = c'.fs ∧ c.live = c'.live := by
  simp only [seen, Ctx.mk.injEq] at h
  simp [h]

theorem ok_bind {α β : Type} (a : α) (f : α → Out β) : ((Except.ok a : Out α) >>= f) = f a := rfl

theorem map_bind_congr {α β γ δ : Type} {x y : Out α} (p : α → β) {f : α → Out γ} (g : γ → δ)
    (h : x.map p = y.map p) (hf : ∀ a b, p a = p b → (f a).map g = (f b).map g) :
    (x >>= f).map g = (y >>= f).map g := by
  cases x with
  | error e =>
    cases y with
    | error e' => cases h; rfl
    | ok b => cases h
  | ok a =>
    cases y with
    | error e' => cases h
    | ok b =>
      simp only [Except.map, Except.ok.injEq] at h
      exact hf a b h

/-- What `searchGo` does after the callback at a node whose segment has been used up. -/
def searchTail {α τ : Type} (cb : τ → α → Bool → Out (τ × Bool)) (now : TNode α) (c : UInt8) (cs : Str) (r : τ × Bool) : Out τ :=
  if !r.2 then .ok r.1
  else do
    match ← now.slot c with
    | none => .ok r.1
    | some ch => searchGo cb r.1 ch 1 cs

/-- What `trieSearch` does after the callback at the root. -/
def searchRest {α τ : Type} (cb : τ → α → Bool → Out (τ × Bool)) (root : TNode α) (key : Str) (r : τ × Bool) : Out τ :=
  if !r.2 then .ok r.1
  else match key with
    | [] => .ok r.1
    | c :: _ => do
      match ← root.slot c with
      | none => .ok r.1
      | some ch => searchGo cb r.1 ch 0 key

/-- Two searches whose states look alike give results that look alike. -/
theorem searchGo_seen {α τ υ : Type} (g : τ → υ) (cb : τ → α → Bool → Out (τ × Bool))
    (hcb : ∀ s s' v b, g s = g s' → (cb s v b).map (pairMap g) = (cb s' v b).map (pairMap g)) :
    ∀ (key : Str) (s s' : τ) (now : TNode α) (pos : Nat), g s = g s' →
      (searchGo cb s now pos key).map g = (searchGo cb s' now pos key).map g := by
  intro key
  induction key with
  | nil =>
    intro s s' now pos h
    unfold searchGo
    cases now.val with
    | none => simp [Except.map, h]
    | some v =>
      simp only
      split
      · refine map_bind_congr _ g (hcb s s' v true h) fun a b hab => ?_
        simp only [pairMap, Prod.mk.injEq] at hab
        simp [Except.map, hab.1]
      · simp [Except.map, h]
  | cons c cs ih =>
    intro s s' now pos h
    unfold searchGo
    split
    · split
      · exact ih s s' now (pos + 1) h
      · simp [Except.map, h]
    · have hj : ∀ a b : τ × Bool, pairMap g a = pairMap g b → (searchTail cb now c cs a).map g = (searchTail cb now c cs b).map g := by
        intro a b hab
        unfold searchTail
        simp only [pairMap, Prod.mk.injEq] at hab
        rw [← hab.2]
        split
        · simp [Except.map, hab.1]
        · cases now.slot c with
          | error e => rfl
          | ok o =>
            cases o with
            | none => simp [Except.map, bind, Except.bind, hab.1]
            | some ch => exact ih a.1 b.1 ch 1 hab.1
      cases now.val with
      | none => exact hj (s, true) (s', true) (by simp [pairMap, h])
      | some v => exact map_bind_congr (pairMap g) g (hcb s s' v false h) hj

theorem trieSearch_seen {α τ υ : Type} (g : τ → υ) (cb : τ → α → Bool → Out (τ × Bool))
    (hcb : ∀ s s' v b, g s = g s' → (cb s v b).map (pairMap g) = (cb s' v b).map (pairMap g))
    (key : Str) (s s' : τ) (root : TNode α) (h : g s = g s') :
    (trieSearch cb s root key).map g = (trieSearch cb s' root key).map g := by
  unfold trieSearch
  have hj : ∀ a b : τ × Bool, pairMap g a = pairMap g b → (searchRest cb root key a).map g = (searchRest cb root key b).map g := by
    intro a b hab
    unfold searchRest
    simp only [pairMap, Prod.mk.injEq] at hab
    rw [← hab.2]
    split
    · simp [Except.map, hab.1]
    · cases key with
      | nil => simp [Except.map, hab.1]
      | cons c cs =>
        simp only
        cases root.slot c with
        | error e => rfl
        | ok o =>
          cases o with
          | none => simp [Except.map, bind, Except.bind, hab.1]
          | some ch => exact searchGo_seen g cb hcb _ a.1 b.1 ch 0 hab.1
  cases root.val with
  | none => exact hj (s, true) (s', true) (by simp [pairMap, h])
  | some v => exact map_bind_congr (pairMap g) g (hcb s s' v _ h) hj

theorem runNode_seen (isEnd : Bool) (es : List (Entry σ)) (h : ∀ e ∈ es, ∀ f, e.callback = some f → Stateless f) :
    ∀ c c' : Ctx σ, seen c = seen c' →
      (runNode isEnd es c).map (pairMap seen) = (runNode isEnd es c').map (pairMap seen) := by
  induction es with
  | nil => intro c c' hc; simp [runNode, Except.map, pairMap, hc]
  | cons e es ih =>
    intro c c' hc
    replace ih := ih fun x hx => h x (by simp [hx])
    have hreq : c.req = c'.req := (seen_inj hc).1
    unfold runNode
    split
    · exact ih c c' hc
    · rw [hreq]
      cases filtersMatch c'.req e.filters with
      | error e => rfl
      | ok b =>
        cases b with
        | false => exact ih c c' hc
        | true =>
          simp only [ok_bind, if_true]
          cases hcb : e.callback with
          | none => exact ih c c' hc
          | some f =>
            refine map_bind_congr seen (pairMap seen) (h e (by simp) f hcb c c' hc) fun a b hab => ?_
            have hrun : a.running = b.running := (seen_inj hab).2.2.2.2.2.1
            rw [hrun]
            split
            · simp [Except.map, pairMap, hab]
            · exact ih a b hab

/-- The visible part of what a `HandleRead` did on a connection. -/
def Spec.visible (r : Served σ) : List Str × Bool × Conn := (r.sent, r.closed, r.conn)

theorem serveRequest_seen (s : Server σ) (h : ∀ l ∈ s.store, ∀ e ∈ l, ∀ f, e.callback = some f → Stateless f) (env : Env)
    (t t' : UMap) (u u' : σ) (q : HttpReq) (c : Conn) :
    (serveRequest { env with types := t } s q c u).map visible = (serveRequest { env with types := t' } s q c u').map visible := by
  unfold serveRequest
  refine map_bind_congr seen visible ?_ fun a b hab => ?_
  · unfold dispatch
    refine trieSearch_seen seen _ (fun a b v d hab => ?_) _ _ _ _ rfl
    refine runNode_seen d _ (fun e he f hf => ?_) a b hab
    rw [List.getD_eq_getElem?_getD] at he
    cases hl : s.store[v]? with
    | none => simp [hl] at he
    | some l =>
      rw [hl] at he
      exact h l (List.mem_of_getElem? hl) e he f hf
  · have h1 : a.sent = b.sent := (seen_inj hab).2.2.2.1
    have h2 : a.resp = b.resp := (seen_inj hab).2.1
    have h3 : a.conn = b.conn := (seen_inj hab).2.2.1
    simp [Except.map, visible, h1, h2, h3]

theorem handleRead_seen (s : Server σ) (h : ∀ l ∈ s.store, ∀ e ∈ l, ∀ f, e.callback = some f → Stateless f) (env : Env)
    (t t' : UMap) (u u' : σ) (c : Conn) :
    (handleRead { env with types := t } s c u).map visible = (handleRead { env with types := t' } s c u').map visible := by
  have key := serveRequest_seen s h env t t' u u'
  unfold handleRead
  cases sockReadUntil c [] crlf2 with
  | error e => rfl
  | ok x =>
    obtain ⟨len, buf, c⟩ := x
    simp only [bind, Except.bind]
    split
    · rfl
    · cases reqParse {} buf with
      | error e => rfl
      | ok y =>
        obtain ⟨q, rc⟩ := y
        simp only
        split
        · rfl
        · split
          · split
            · rfl
            · exact key _ _
          · exact key _ _

/-- What a sequence of reports showed on connection `i`. -/
def Spec.shownOn (i : Nat) (outs : List (Nat × Served σ)) : List (List Str × Bool × Conn) :=
  (outs.filter (fun p => p.1 = i)).map (fun p => visible p.2)

/-- The world after a `HandleRead` on connection `j`. -/
def afterRead (v : World σ) (j : Nat) (rb : Served σ) : World σ where
  conns k := if k = j then rb.conn else v.conns k
  closed k := if k = j then rb.closed else v.closed k
  user := rb.user
  types := rb.types

theorem worldRun_alone (s : Server σ) (h : ∀ l ∈ s.store, ∀ e ∈ l, ∀ f, e.callback = some f → Stateless f) (i : Nat) :
    ∀ (evs : List (Nat × Env)) (w v : World σ) (w' : World σ) (outs : List (Nat × Served σ)),
      w.conns i = v.conns i → w.closed i = v.closed i → worldRun s evs w = .ok (w', outs) →
      ∃ v' outs', worldRun s (evs.filter (fun p => p.1 = i)) v = .ok (v', outs') ∧ shownOn i outs = shownOn i outs' := by
  intro evs
  induction evs with
  | nil =>
    intro w v w' outs _ _ hr
    cases hr
    exact ⟨v, [], rfl, rfl⟩
  | cons ev evs ih =>
    intro w v w' outs hc hcl hr
    obtain ⟨j, env⟩ := ev
    obtain ⟨⟨w1, r⟩, h1, h2⟩ := bind_ok hr
    obtain ⟨⟨w2, rs⟩, h3, h4⟩ := bind_ok h2
    dsimp only at h3 h4
    cases h4
    by_cases hj : j = i
    · subst hj
      simp only [List.filter_cons, decide_true, if_true]
      unfold worldStep at h1
      by_cases hclosed : w.closed j = true
      · rw [if_pos hclosed] at h1
        cases h1
        obtain ⟨v', outs', h5, h6⟩ := ih w v w' rs hc hcl h3
        refine ⟨v', outs', ?_, by simpa [shownOn] using h6⟩
        simp only [worldRun, worldStep, ← hcl, hclosed, if_true, bind, Except.bind, h5]
        rfl
      · rw [if_neg hclosed] at h1
        have hsee := handleRead_seen s h env w.types v.types w.user v.user (w.conns j)
        cases hw : handleRead { env with types := w.types } s (w.conns j) w.user with
        | error e => rw [hw] at h1; cases h1
        | ok ra =>
          rw [hw] at h1 hsee
          cases h1
          rw [hc] at hsee
          cases hv : handleRead { env with types := v.types } s (v.conns j) v.user with
          | error e => rw [hv] at hsee; cases hsee
          | ok rb =>
            rw [hv] at hsee
            simp only [Except.map, Except.ok.injEq] at hsee
            have hva : ra.closed = rb.closed := congrArg (fun p => p.2.1) hsee
            have hvc : ra.conn = rb.conn := congrArg (fun p => p.2.2) hsee
            obtain ⟨v', outs', h5, h6⟩ := ih _ (afterRead v j rb) w' rs
              (by simp [afterRead, hvc]) (by simp [afterRead, hva]) h3
            refine ⟨v', (j, rb) :: outs', ?_, ?_⟩
            · have hst : worldStep s v j env = .ok (afterRead v j rb, some rb) := by
                unfold worldStep
                rw [if_neg (by rw [← hcl]; exact hclosed), hv]
                rfl
              simp only [worldRun, hst, bind, Except.bind, h5]
              rfl
            · have e1 : shownOn j ((j, ra) :: rs) = visible ra :: shownOn j rs := by simp [shownOn]
              have e2 : shownOn j ((j, rb) :: outs') = visible rb :: shownOn j outs' := by simp [shownOn]
              rw [e2, ← hsee, ← h6]
              exact e1
    · have hstep : w1.conns i = w.conns i ∧ w1.closed i = w.closed i := by
        unfold worldStep at h1
        split at h1
        · cases h1; exact ⟨rfl, rfl⟩
        · cases hw : handleRead { env with types := w.types } s (w.conns j) w.user with
          | error e => rw [hw] at h1; cases h1
          | ok ra =>
            rw [hw] at h1
            cases h1
            simp [Ne.symm hj]
      obtain ⟨v', outs', h5, h6⟩ := ih w1 v w' rs (hstep.1.trans hc) (hstep.2.trans hcl) h3
      refine ⟨v', outs', by simpa [List.filter_cons, hj] using h5, ?_⟩
      rw [← h6]
      unfold shownOn
      rw [List.filter_append]
      have : (r.toList.map (fun r => (j, r))).filter (fun p => p.1 = i) = [] := by
        cases r <;> simp [hj]
      rw [this]; rfl

/-- C107, for handlers that share no state: what a connection gets, in whatever order the reports of the connections
come, is what it gets when the others do not exist. -/
theorem C107_isolated_partial (s : Server σ) (h : ∀ l ∈ s.store, ∀ e ∈ l, ∀ f, e.callback = some f → Stateless f)
    (evs : List (Nat × Env)) (w w' : World σ) (outs : List (Nat × Served σ)) (hr : worldRun s evs w = .ok (w', outs)) (i : Nat) :
    ∃ v' outs', worldRun s (evs.filter (fun p => p.1 = i)) w = .ok (v', outs') ∧ shownOn i outs = shownOn i outs' :=
  worldRun_alone s h i evs w w w' outs rfl rfl hr

example : ∀ l ∈ countServer.store, ∀ e ∈ l, ∀ f, e.callback = some f → Stateless f := by
  have : countServer.store = [[⟨some countHandler, true, []⟩]] := rfl
  rw [this]
  intro l hl e he f hf
  simp only [List.mem_singleton] at hl
  subst hl
  simp only [List.mem_singleton] at he
  subst he
  cases hf
  intro c c' hc
  obtain ⟨h1, h2, h3, h4, h5, h6, h7, h8⟩ := seen_inj hc
  simp [countHandler, Except.map, seen, h1, h2, h3, h4, h5, h6, h7, h8]

/-- Two files, one with a suffix that has a custom content type and one without suffix. -/
def twoFiles : FileSys := fun p =>
  if p = b!"www//a.md" then .file (some b!"A") else if p = b!"www//README" then .file (some b!"B") else .missing

def twoClients : World Unit where
  conns i := if i = 0 then ⟨b!"GET /s/a.md HTTP/1.1\r\n\r\n", 0⟩ else ⟨b!"GET /s/README HTTP/1.1\r\n\r\n", 0⟩
  user := ()
  types := UMap.empty.set b!"md" b!"text/markdown"

/-- What client 1 gets from a server with one static directory. -/
def clientOne (evs : List (Nat × Env)) : Out (List (List Str)) := do
  let s ← groupStaticDir 0 [] b!"/s" b!"www" [] ({} : Server Unit)
  let (_, outs) ← worldRun s evs twoClients
  .ok ((shownOn 1 outs).map (·.1))

/-- C107 is false: once a client has asked a static directory for a file with a custom content type, every client
gets an empty content type for files without suffix. -/
theorem C107_content_type_refuted :
    clientOne [(1, { fs := twoFiles })] =
      .ok [[b!"HTTP/1.1 200 OK\r\nConnection: keep-alive\r\nContent-Type: application/octet-stream\r\nContent-Length: 1\r\n\r\nB"]] ∧
    clientOne [(0, { fs := twoFiles }), (1, { fs := twoFiles })] =
      .ok [[b!"HTTP/1.1 200 OK\r\nConnection: keep-alive\r\nContent-Type: \r\nContent-Length: 1\r\n\r\nB"]] := by
  decide +kernel

/-! ### C108 -/

/-- Once the blank line and one byte more have come, something is answered. -/
theorem answered_nonempty (env : Env) (s : Server σ) {head tail : Str} {fin : Int} {u : σ} {r : Served σ}
    (h1 : ¬ Occurs crlf2 (head ++ crlf2.dropLast)) (h2 : 10 ∉ (head ++ crlf2 ++ tail).take 3)
    (hf : Fits (head ++ crlf2 ++ tail)) (hl : (head ++ crlf2).length < 2 ^ 31) (ht : tail ≠ [])
    (h : handleRead env s ⟨head ++ crlf2 ++ tail, fin⟩ u = .ok r) : r.sent ≠ [] := by
  have key : ∀ q c, serveRequest env s q c u = .ok r → r.sent ≠ [] := by
    intro q c hs
    obtain ⟨ctx, _, h4⟩ := bind_ok hs
    cases h4
    simp
  unfold handleRead at h
  rw [readHead h1 h2 hf, toInt32_small hl] at h
  simp only [bind, Except.bind] at h
  rw [if_neg (by simp [crlf2]; omega)] at h
  cases hp : reqParse {} (head ++ crlf2) with
  | error e => rw [hp] at h; cases h
  | ok y =>
    obtain ⟨q, rc⟩ := y
    rw [hp] at h
    simp only at h
    split at h
    · cases h; simp
    · split at h
      · rename_i hn
        obtain ⟨b, rest, f1, f2, f3, _, _, f6, _⟩ := C35_read_partial ⟨tail, fin⟩
          (headerGetContentLength q.header).toNat 0 true (by omega) ht
        rw [f6] at h
        simp only at h
        split at h
        · rename_i h0
          have := List.length_pos_iff.2 f2
          exact absurd h0 (by omega)
        · exact key _ _ h
      · exact key _ _ h

/-- C108 is false for a server in I/O multiplexing mode: take any bytes without a blank line (no LF among the first
three).  If the peer ends the stream there, nothing is answered and the connection is closed; if the bytes go on in
another way, something is answered.  So when only these bytes have come, `HandleRead` has not returned, and the one
thread of the server serves nobody else. -/
theorem C108_waits_refuted (env : Env) (regs : List (Reg σ)) (ha : AsciiRegs regs) (ht : ∀ r ∈ regs, TotalEntry r.entry)
    (s : Server σ) (hs : registerAll regs = .ok s) (fin : Int) (hfin : fin ≤ 0) (u : σ) (p : Str) (hp : Ascii p)
    (h1 : ¬ Occurs crlf2 p) (h2 : 10 ∉ p.take 3) (hl : p.length + 8 < 2 ^ 31) :
    (∃ r, handleRead env s ⟨p, fin⟩ u = .ok r ∧ r.sent = [] ∧ r.closed = true) ∧
    ∃ r, handleRead env s ⟨p ++ b!"xxx\r\n\r\nz", fin⟩ u = .ok r ∧ r.sent ≠ [] := by
  have hz : Ascii b!"xxx\r\n\r\nz" := by decide
  have hstart : 10 ∉ (p ++ b!"xxx\r\n\r\nz").take 3 := by
    rw [List.take_append]
    intro hm
    rcases List.mem_append.1 hm with hm | hm
    · exact h2 hm
    · have : 10 ∈ b!"xxx" := by
        have h3 : (b!"xxx\r\n\r\nz").take (3 - p.length) <+: b!"xxx" := by
          have : (b!"xxx\r\n\r\nz").take (3 - p.length) = (b!"xxx").take (3 - p.length) := by
            rw [show b!"xxx\r\n\r\nz" = b!"xxx" ++ b!"\r\n\r\nz" from rfl, List.take_append_of_le_length (by simp)]
          rw [this]
          exact List.take_prefix _ _
        exact h3.subset hm
      revert this
      decide
  refine ⟨⟨_, C45_incomplete env s ⟨p, fin⟩ u h1 h2 (by unfold Fits; simp only; omega) hfin, rfl, rfl⟩, ?_⟩
  obtain ⟨r, hr⟩ := C46_total_partial env regs ha ht s hs ⟨p ++ b!"xxx\r\n\r\nz", fin⟩ u (by simp; omega) hstart (by
    intro line rest e _ b hb
    have : b ∈ p ++ b!"xxx\r\n\r\nz" := by
      dsimp only at e
      rw [e]
      simp [hb]
    rcases List.mem_append.1 this with h | h
    · exact hp b h
    · exact hz b h)
  refine ⟨r, hr, ?_⟩
  have hocc : Occurs crlf2 (p ++ b!"xxx\r\n\r\n") := occurs_iff_infix.2 ⟨p ++ b!"xxx", [], by simp [crlf2]⟩
  obtain ⟨line, ls, body, hm⟩ := message_exists hocc
  obtain ⟨head, e, hh, _⟩ := message_cut hm
  have e' : p ++ b!"xxx\r\n\r\nz" = head ++ crlf2 ++ (body ++ b!"z") := by
    rw [← List.append_assoc, ← e]; simp
  have hlen := congrArg List.length e'
  simp only [List.length_append] at hlen
  rw [e'] at hr hstart
  exact answered_nonempty env s hh hstart (by unfold Fits; simp at hlen ⊢; omega) (by simp at hlen ⊢; omega) (by simp) hr

example : Ascii b!"GET /a HTTP/1.1\r\nA: b" ∧ find b!"GET /a HTTP/1.1\r\nA: b" crlf2 = none ∧
    10 ∉ (b!"GET /a HTTP/1.1\r\nA: b").take 3 := by decide +kernel

/-- C108, with timeouts on the sockets (`SetReadTimeout`; when the time is over a read fails, so the stream of such a client ends):
any number of clients have sent part of a request, without a blank line (no LF among the first three bytes), and send no more.
Whatever the order of reports, all other clients are served exactly as if the slow ones were not there, and each slow one costs the
server at most one wait: it is closed then, and no handler is called for it.  Missing: the other clients do wait for that time. -/
theorem C108_timeout_partial (s : Server σ) (slow : Nat → Bool) (evs : List (Nat × Env)) (w w' : World σ) (outs : List (Nat × Served σ))
    (hslow : ∀ i, slow i = true → w.closed i = false → ¬ Occurs crlf2 (w.conns i).input ∧ 10 ∉ (w.conns i).input.take 3 ∧
      Fits (w.conns i).input ∧ (w.conns i).fin ≤ 0)
    (hr : worldRun s evs w = .ok (w', outs)) :
    (∃ v, worldRun s (evs.filter fun e => !slow e.1) w = .ok (v, outs.filter fun o => !slow o.1) ∧ v.user = w'.user ∧ v.types = w'.types ∧
      ∀ i, slow i = false → v.conns i = w'.conns i ∧ v.closed i = w'.closed i) ∧
    ∀ i, slow i = true → (outs.filter fun o => o.1 = i).length ≤ 1 ∧
      ∀ o ∈ outs, o.1 = i → o.2.sent = [] ∧ o.2.closed = true := by
  suffices h : ∀ (evs : List (Nat × Env)) (w v w' : World σ) (outs : List (Nat × Served σ)),
      (∀ i, slow i = true → w.closed i = false → ¬ Occurs crlf2 (w.conns i).input ∧ 10 ∉ (w.conns i).input.take 3 ∧
        Fits (w.conns i).input ∧ (w.conns i).fin ≤ 0) → v.user = w.user → v.types = w.types →
      (∀ i, slow i = false → v.conns i = w.conns i ∧ v.closed i = w.closed i) → worldRun s evs w = .ok (w', outs) →
      (∃ v', worldRun s (evs.filter fun e => !slow e.1) v = .ok (v', outs.filter fun o => !slow o.1) ∧ v'.user = w'.user ∧
        v'.types = w'.types ∧ ∀ i, slow i = false → v'.conns i = w'.conns i ∧ v'.closed i = w'.closed i) ∧
      ∀ i, slow i = true → (outs.filter fun o => o.1 = i).length ≤ (if w.closed i then 0 else 1) ∧
        ∀ o ∈ outs, o.1 = i → o.2.sent = [] ∧ o.2.closed = true by
    obtain ⟨h1, h2⟩ := h evs w w w' outs hslow rfl rfl (fun _ _ => ⟨rfl, rfl⟩) hr
    refine ⟨h1, fun i hi => ⟨?_, (h2 i hi).2⟩⟩
    have := (h2 i hi).1
    split at this <;> omega
  clear hr hslow
  intro evs
  induction evs with
  | nil =>
    intro w v w' outs _ e1 e2 e3 hr
    cases hr
    exact ⟨⟨v, rfl, e1, e2, e3⟩, fun i _ => ⟨by simp, fun o ho => by cases ho⟩⟩
  | cons e evs ih =>
    obtain ⟨i, env⟩ := e
    intro w v w' outs hsl e1 e2 e3 hr
    unfold worldRun at hr
    obtain ⟨⟨w1, r⟩, h1, hr⟩ := bind_ok hr
    obtain ⟨⟨w2, rs⟩, h2, hr⟩ := bind_ok hr
    cases hr
    cases hi : slow i with
    | true =>
      rw [List.filter_cons_of_neg (by simp [hi])]
      cases hc : w.closed i with
      | true =>
        simp only [worldStep, hc, if_true] at h1
        cases h1
        simpa using ih w v w' rs hsl e1 e2 e3 h2
      | false =>
        obtain ⟨a1, a2, a3, a4⟩ := hsl i hi hc
        simp only [worldStep, hc, Bool.false_eq_true, if_false, C45_incomplete _ s (w.conns i) w.user a1 a2 a3 a4, Except.map] at h1
        cases h1
        have hne : ∀ j, slow j = false → j ≠ i := by
          intro j hj e; rw [e, hi] at hj; cases hj
        obtain ⟨b1, b2⟩ := ih { conns := fun j => if j = i then ⟨[], (w.conns i).fin⟩ else w.conns j, closed := fun j => if j = i then true else w.closed j, user := w.user, types := w.types } v w' rs (fun j hj hcj => by
            by_cases hji : j = i
            · simp [hji] at hcj
            · simp only [if_neg hji] at hcj ⊢; exact hsl j hj hcj) e1 e2
          (fun j hj => by simp only [if_neg (hne j hj)]; exact e3 j hj) h2
        refine ⟨by simpa [hi] using b1, fun j hj => ?_⟩
        obtain ⟨c1, c2⟩ := b2 j hj
        by_cases hji : j = i
        · subst hji
          simp only [if_true] at c1
          simp only [hc, Bool.false_eq_true, if_false]
          refine ⟨by simp only [Option.toList, List.map, List.cons_append, List.nil_append, List.filter_cons, decide_true, if_true, List.length_cons]; omega, ?_⟩
          intro o ho hoi
          simp only [Option.toList, List.map, List.cons_append, List.nil_append, List.mem_cons] at ho
          rcases ho with rfl | ho
          · exact ⟨rfl, rfl⟩
          · exact c2 o ho hoi
        · simp only [if_neg hji] at c1
          have hij : ¬ i = j := fun e => hji e.symm
          refine ⟨by simpa [hij] using c1, ?_⟩
          intro o ho hoi
          simp only [Option.toList, List.map, List.cons_append, List.nil_append, List.mem_cons] at ho
          rcases ho with rfl | ho
          · exact absurd hoi hij
          · exact c2 o ho hoi
    | false =>
      rw [List.filter_cons_of_pos (by simp [hi])]
      obtain ⟨d1, d2⟩ := e3 i hi
      have hv : ∃ v1, worldStep s v i env = .ok (v1, r) ∧ v1.user = w1.user ∧ v1.types = w1.types ∧
          ∀ j, slow j = false → v1.conns j = w1.conns j ∧ v1.closed j = w1.closed j := by
        unfold worldStep at h1 ⊢
        rw [d1, d2, e1, e2]
        by_cases hc : w.closed i = true
        · rw [if_pos hc] at h1 ⊢
          cases h1
          exact ⟨v, rfl, e1, e2, e3⟩
        · rw [if_neg hc] at h1 ⊢
          cases hh : handleRead { env with types := w.types } s (w.conns i) w.user with
          | error x => rw [hh] at h1; cases h1
          | ok x =>
            rw [hh] at h1
            cases h1
            refine ⟨_, rfl, rfl, rfl, fun j hj => ?_⟩
            by_cases hji : j = i
            · simp [hji]
            · simp only [if_neg hji]; exact e3 j hj
      obtain ⟨v1, f1, f2, f3, f4⟩ := hv
      have hsame : ∀ j, slow j = true → w1.conns j = w.conns j ∧ w1.closed j = w.closed j := by
        intro j hj
        have hji : j ≠ i := by intro e; rw [e, hi] at hj; cases hj
        unfold worldStep at h1
        by_cases hc : w.closed i = true
        · rw [if_pos hc] at h1
          cases h1
          exact ⟨rfl, rfl⟩
        · rw [if_neg hc] at h1
          cases hh : handleRead { env with types := w.types } s (w.conns i) w.user with
          | error x => rw [hh] at h1; cases h1
          | ok x =>
            rw [hh] at h1
            cases h1
            exact ⟨if_neg hji, if_neg hji⟩
      obtain ⟨⟨v', g1, g2⟩, g3⟩ := ih w1 v1 w' rs (fun j hj hcj => by
        rw [(hsame j hj).1]; exact hsl j hj (by rw [← (hsame j hj).2]; exact hcj)) f2 f3 f4 h2
      refine ⟨⟨v', ?_, g2⟩, fun j hj => ?_⟩
      · unfold worldRun
        rw [f1]
        simp only [bind, Except.bind, g1]
        cases r <;> simp [hi]
      · obtain ⟨c1, c2⟩ := g3 j hj
        rw [(hsame j hj).2] at c1
        have hij : ¬ i = j := by intro e; rw [e, hj] at hi; cases hi
        refine ⟨by cases r <;> simpa [hij] using c1, ?_⟩
        intro o ho hoi
        rcases List.mem_append.1 ho with ho | ho
        · cases r with
          | none => cases ho
          | some x =>
            simp only [Option.toList, List.map, List.mem_singleton] at ho
            rw [ho] at hoi
            exact absurd hoi hij
        · exact c2 o ho hoi

/-- Client 0 has sent half a header; client 1 sends a request and gets its answer. -/
example : (do
    let (_, outs) ← worldRun countServer [(0, {}), (1, {}), (0, {})]
      { conns := fun i => if i = 0 then ⟨b!"GET /a HTTP/1.1\r\nA: b", -1⟩ else ⟨b!"GET /a HTTP/1.1\r\n\r\n", 0⟩, user := 0 }
    .ok (outs.map fun o => (o.1, o.2.sent.length, o.2.closed)) : Out (List (Nat × Nat × Bool))) =
    .ok [(0, 0, true), (1, 1, false)] := by decide +kernel

/-! ### C109 -/

/-- C109, the half that holds: a complete request served by handlers that do not touch the stream leaves the connection
open when writing the response works — whatever its headers are. -/
theorem C109_kept_partial (s : Server σ) (regs : List (Reg σ)) (hs : registerAll regs = .ok s) (ha : AsciiRegs regs)
    (hal : ∀ r ∈ regs, AloofEntry r.entry) (env : Env) (hw : 0 ≤ env.writeRc) (text : Str) (ht : CompleteRequest text)
    (hf : Fits text) (fin : Int) (u : σ) : ∃ r, handleRead env s ⟨text, fin⟩ u = .ok r ∧ r.closed = false ∧ r.sent ≠ [] := by
  obtain ⟨q, hq, hserve⟩ := complete_served env s ht
  obtain ⟨r, hcl, hne, hr⟩ := serve_aloof regs ha hal s hs env q hq u
  have e := hserve [] fin u (by simpa using hf)
  rw [hr] at e
  simp only [List.append_nil] at e
  exact ⟨{ r with conn := ⟨[], fin⟩ }, e, by rw [hcl]; simpa using hw, hne⟩

/-- A request of an HTTP/1.0 client that asks the server to close the connection. -/
def closingRequest : Str := b!"GET /a HTTP/1.0\r\nConnection: close\r\n\r\n"

/-- C109 is false: `Connection: close` is ignored, also from an HTTP/1.0 client. -/
theorem C109_close_ignored_refuted (s : Server σ) (regs : List (Reg σ)) (hs : registerAll regs = .ok s) (ha : AsciiRegs regs)
    (hal : ∀ r ∈ regs, AloofEntry r.entry) (env : Env) (hw : 0 ≤ env.writeRc) (fin : Int) (u : σ) :
    (∃ q, reqParse {} closingRequest = .ok (q, kSuccess) ∧ q.header.get b!"Connection" = some b!"close" ∧
      q.version = .HTTP_1_0) ∧
    ∃ r, handleRead env s ⟨closingRequest, fin⟩ u = .ok r ∧ r.closed = false ∧ r.sent ≠ [] := by
  refine ⟨⟨_, rfl, by decide +kernel, by decide +kernel⟩, ?_⟩
  refine C109_kept_partial s regs hs ha hal env hw closingRequest ?_ (by unfold Fits; decide) fin u
  refine ⟨b!"GET /a HTTP/1.0\r\nConnection: close", [], _, rfl, ?_, rfl, ?_, ?_, by decide, by decide⟩
  · rw [occurs_iff_infix]; decide +kernel
  · decide +kernel
  · decide +kernel

end Cppnet
