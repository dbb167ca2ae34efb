import Verif.Model.Demos
import Verif.Spec.Demos
import Verif.Props.Server
import Verif.Props.Conversation
import Verif.Props.Static

/-!
# C153 and C154: the example programs
-/

namespace Cppnet
open Spec
variable {σ : Type}

/-! ### C153 -/

/-- What the hello-world program registers. -/
def helloReg : Reg σ := { path := b!"/", entry := { callback := some helloHandler } }

theorem hello_perform : (helloCalls (σ := σ)).foldlM (fun s x => x.perform s) {} = registerAll [helloReg] := rfl

theorem pair_perm {α : Type} {a b : α} {l : List α} (h : l.Perm [a, b]) : l = [a, b] ∨ l = [b, a] := by
  have hl := h.length_eq
  match l, hl with
  | [x, y], _ =>
    have hx : x ∈ [a, b] := h.mem_iff.1 (by simp)
    rcases List.mem_cons.1 hx with e | e
    · subst e
      have h2 := (List.perm_cons x).1 h
      have := List.perm_singleton.1 h2
      left; rw [this]
    · have e : x = b := by simpa using e
      subst e
      have h2 := (List.perm_cons x).1 (h.trans (List.Perm.swap x a []))
      have := List.perm_singleton.1 h2
      right; rw [this]

/-- The answer of the page. -/
theorem hello_text (o : HashOrder) : HelloAnswer (responseText o
    { status := .OK, header := UMap.empty.set b!"Content-Type" b!"text/html", body := helloPage }) := by
  rw [responseText_eq _ _ (by simp), respBuild_eq _ _ _ (by simp)]
  have hh : (respBuildHeader { status := .OK, header := UMap.empty.set b!"Content-Type" b!"text/html", body := helloPage }) =
    (UMap.empty.set b!"Content-Type" b!"text/html").set b!"Content-Length" b!"22" := by decide +kernel
  rw [hh]
  have hp := o.perm ((UMap.empty.set b!"Content-Type" b!"text/html").set b!"Content-Length" b!"22")
  have he : ((UMap.empty.set b!"Content-Type" b!"text/html").set b!"Content-Length" b!"22").entries =
    [(b!"Content-Type", b!"text/html"), (b!"Content-Length", b!"22")] := by decide +kernel
  rw [he] at hp
  unfold headerToString HelloAnswer
  rcases pair_perm hp with e | e <;> rw [e] <;> first | exact .inl (by decide +kernel) | exact .inr (by decide +kernel)

/-- The answer of the server when no handler matched. -/
theorem missing_text (o : HashOrder) : MissingAnswer (responseText o {}) := by
  rw [show responseText o {} = responseText o (respNotFound {}) from rfl, responseText_eq _ _ (by decide), respBuild_eq _ _ _ (by decide)]
  have hh : respBuildHeader (respNotFound {}) =
    (UMap.empty.set b!"Content-Type" b!"text/html").set b!"Content-Length" b!"48" := by decide +kernel
  rw [hh]
  have hp := o.perm ((UMap.empty.set b!"Content-Type" b!"text/html").set b!"Content-Length" b!"48")
  have he : ((UMap.empty.set b!"Content-Type" b!"text/html").set b!"Content-Length" b!"48").entries =
    [(b!"Content-Type", b!"text/html"), (b!"Content-Length", b!"48")] := by decide +kernel
  rw [he] at hp
  unfold headerToString MissingAnswer
  rcases pair_perm hp with e | e <;> rw [e] <;> first | exact .inl (by decide +kernel) | exact .inr (by decide +kernel)

theorem tableRun_one {r : Reg σ} {m} (h : TableRun [r] m) : m = fun k => if k = r.full then some [r.entry] else none := by
  have key : ∀ regs m, TableRun regs m → regs = [r] → m = fun k => if k = r.full then some [r.entry] else none := by
    intro regs m h e
    cases h with
    | nil => simp at e
    | @snoc regs' m0 r' m' h1 h2 =>
      have e1 : regs' = [] ∧ r' = r := by
        cases regs' with
        | nil => simpa using e
        | cons x xs => simp at e
      obtain ⟨rfl, rfl⟩ := e1
      have e2 : m0 = fun _ => none := by
        generalize hn : ([] : List (Reg σ)) = l at h1
        cases h1 with
        | nil => rfl
        | snoc => simp at hn
      subst e2
      rcases h2 with ⟨p, hp, _⟩ | ⟨_, h2⟩
      · rcases hp with ⟨_, _, h⟩ | ⟨_, h⟩
        · simp at h
        · have := h.1
          simp_all [LeastExtension]
      · exact h2
  exact key _ _ h rfl

theorem hello_table (path : Str) : tableCandidates (fun k => if k = b!"/" then some [(helloReg (σ := σ)).entry] else none) path =
    if path = b!"/" then [helloReg.entry] else [] := by
  by_cases hp : path = b!"/"
  · subst hp; rfl
  · rw [if_neg hp]
    unfold tableCandidates
    rw [List.flatMap_eq_nil_iff]
    intro i hi
    rw [List.filter_eq_nil_iff]
    intro e he
    by_cases ht : path.take i = b!"/"
    · simp only [ht, if_true, Option.getD_some, List.mem_singleton] at he
      subst he
      have : i ≠ path.length := by
        intro e
        rw [e, List.take_length] at ht
        exact hp ht
      simpa [helloReg] using this
    · simp [ht] at he

theorem hello_dispatch : ∃ s : Server σ, (helloCalls (σ := σ)).foldlM (fun s x => x.perform s) {} = .ok s ∧
    ∀ path, Ascii path → ∀ ctx, dispatch s path ctx = if path = b!"/" then runInOrder [helloReg.entry] ctx else .ok ctx := by
  obtain ⟨s, m, h1, h2, h3⟩ := C40_exact_partial [helloReg (σ := σ)] (by
    intro r hr
    rw [List.mem_singleton.1 hr]
    exact ⟨(by decide : Ascii []), (by decide : Ascii b!"/")⟩)
  refine ⟨s, by rw [hello_perform, h1], fun path hp ctx => ?_⟩
  have hm : m = fun k => if k = b!"/" then some [helloReg.entry] else none := tableRun_one h2
  rw [h3 path hp ctx, hm, hello_table]
  split <;> rfl

/-- The request at the start of a stream is handed to the handlers. -/
theorem request_read (env : Env) (s : Server σ) {q : HttpReq} {text : Str} (h : RequestIs q text) (later : Str) (fin : Int) (u : σ)
    (hf : Fits (text ++ later)) : handleRead env s ⟨text ++ later, fin⟩ u = serveRequest env s q ⟨later, fin⟩ u := by
  obtain ⟨head, body, q, rfl, h1, hp, rfl, hb, hmax, hl⟩ := h
  have e : head ++ crlf2 ++ body ++ later = head ++ crlf2 ++ (body ++ later) := by simp
  rw [e] at hf ⊢
  exact handleRead_complete env s head body later fin u h1 (parsed_start hl hp _) hf hl q hp hb hmax

/-- One request for the hello-world program. -/
theorem hello_serves (env : Env) (s : Server σ)
    (hs : ∀ path, Ascii path → ∀ ctx, dispatch s path ctx = if path = b!"/" then runInOrder [helloReg.entry] ctx else .ok ctx)
    (path text : Str) (hr : RequestFor path text) (ha : Ascii path) : ∃ answer, HelloFor path answer ∧
      ∀ later fin u, Fits (text ++ later) → handleRead env s ⟨text ++ later, fin⟩ u =
        .ok { sent := [answer], closed := decide (env.writeRc < 0), conn := ⟨later, fin⟩, user := u, types := env.types } := by
  obtain ⟨q, hr, rfl⟩ := hr
  have hread := request_read env s hr
  by_cases hq : q.route.path = b!"/"
  · refine ⟨responseText env.order { status := .OK, header := UMap.empty.set b!"Content-Type" b!"text/html", body := helloPage },
      ⟨fun _ => hello_text _, fun h => absurd hq h⟩, fun later fin u hf => ?_⟩
    rw [hread later fin u hf]
    simp only [serveRequest, hs _ ha, if_pos hq]
    cases hrun : env.running <;> simp only [runInOrder, helloReg, bind, Except.bind] <;> rfl
  · refine ⟨responseText env.order {}, ⟨fun h => absurd h hq, fun _ => missing_text _⟩, fun later fin u hf => ?_⟩
    rw [hread later fin u hf]
    simp only [serveRequest, hs _ ha, if_neg hq]
    rfl

/-- C153: the hello-world program answers every complete request exactly once, in the order of the requests on the
connection and whatever comes behind them: a request for `/`, of any method and with any headers, query and body, with the page,
any other with the 404 page; nothing else is written and no connection is closed. -/
theorem C153_hello : ∃ s : Server σ, (helloCalls (σ := σ)).foldlM (fun s x => x.perform s) {} = .ok s ∧
    ∀ jobs : List (Env × Str × Str), (∀ j ∈ jobs, RequestFor j.2.1 j.2.2 ∧ Ascii j.2.1 ∧ 0 ≤ j.1.writeRc) →
    ∀ later fin u t, Fits ((jobs.map (·.2.2)).flatten ++ later) →
    ∃ (rs : List (Served σ)) (answers : List Str), serveReads s (jobs.map (·.1)) ⟨(jobs.map (·.2.2)).flatten ++ later, fin⟩ u t = .ok (rs, ⟨later, fin⟩, u, t) ∧
      rs.map (·.sent) = answers.map ([·]) ∧ (∀ r ∈ rs, r.closed = false) ∧
      answers.length = jobs.length ∧ ∀ p ∈ jobs.zip answers, HelloFor p.1.2.1 p.2 := by
  obtain ⟨s, h1, hs⟩ := hello_dispatch (σ := σ)
  refine ⟨s, h1, fun jobs => ?_⟩
  induction jobs with
  | nil => intro _ later fin u t _; exact ⟨[], [], rfl, rfl, by simp, rfl, by simp⟩
  | cons j jobs ih =>
    obtain ⟨env, path, text⟩ := j
    intro hj later fin u t hf
    obtain ⟨hr, ha, hw⟩ := hj (env, path, text) (by simp)
    have hf' : Fits (text ++ ((jobs.map (·.2.2)).flatten ++ later)) := by simpa using hf
    have hfl : Fits ((jobs.map (·.2.2)).flatten ++ later) := by
      unfold Fits at *
      simp only [List.length_append] at hf' ⊢
      omega
    obtain ⟨a, ha1, ha2⟩ := hello_serves { env with types := t } s hs path text hr ha
    obtain ⟨rs, as, i1, i2, i3, i4, i5⟩ := ih (fun j hj' => hj j (by simp [hj'])) later fin u t hfl
    have e1 := ha2 ((jobs.map (·.2.2)).flatten ++ later) fin u hf'
    have hc : decide (env.writeRc < 0) = false := by simpa using hw
    simp only [hc] at e1
    refine ⟨⟨[a], false, ⟨(jobs.map (·.2.2)).flatten ++ later, fin⟩, u, t⟩ :: rs, a :: as, ?_, ?_, ?_, by simp [i4], ?_⟩
    rotate_left
    · simp only [List.map_cons, i2]
    · intro r hr
      rcases List.mem_cons.1 hr with rfl | hr
      · rfl
      · exact i3 r hr
    · intro p hp
      rcases List.mem_cons.1 hp with rfl | hp
      · exact ha1
      · exact i5 p hp
    · simp only [List.map_cons, List.flatten_cons, List.append_assoc, serveReads, e1, bind, Except.bind,
        Bool.false_eq_true, if_false, i1]

example : RequestFor b!"/" b!"GET /?x=1 HTTP/1.1\r\nHost: a\r\n\r\n" := by
  refine ⟨_, ⟨b!"GET /?x=1 HTTP/1.1\r\nHost: a", [], _, rfl, ?_, rfl, rfl, ?_, by decide, by decide⟩, ?_⟩
  · rw [occurs_iff_infix]; decide +kernel
  · decide +kernel
  · decide +kernel

set_option maxRecDepth 100000 in
/-- C153: the library's own response parser reads the page back: status 200, the page as the body. -/
theorem C153_client (text : Str) (h : HelloAnswer text) :
    ∃ r, respParse {} text = .ok (r, kSuccess) ∧ r.status = .OK ∧ r.body = b!"<h1>Hello, World!</h1>" ∧
      headerGetContentLength r.header = 22 := by
  have key : ∀ t : Str, (match respParse {} t with
      | .ok (r, rc) => decide (rc = kSuccess ∧ r.status = .OK ∧ r.body = b!"<h1>Hello, World!</h1>" ∧
          headerGetContentLength r.header = 22)
      | .error _ => false) = true → ∃ r, respParse {} t = .ok (r, kSuccess) ∧ r.status = .OK ∧
        r.body = b!"<h1>Hello, World!</h1>" ∧ headerGetContentLength r.header = 22 := by
    intro t ht
    cases e : respParse {} t with
    | error f => simp [e] at ht
    | ok x =>
      obtain ⟨r, rc⟩ := x
      rw [e] at ht
      simp only [decide_eq_true_eq] at ht
      exact ⟨r, by rw [ht.1], ht.2⟩
  rcases h with rfl | rfl <;> exact key _ (by decide +kernel)

/-! ### C154 -/

/-- The text of a response whose headers are these. -/
theorem answer_text (o : HashOrder) (r : HttpResp) (h : r.status ≠ .UNKNOWN) (hv : r.version = .HTTP_1_1) (fields : List Str)
    (hf : (respBuildHeader r).entries.map (fun p => p.1 ++ b!": " ++ p.2) = fields) :
    Answer (intToStr (statusNum r.status) ++ b!" " ++ statusToStr r.status) fields r.body (responseText o r) := by
  rw [responseText_eq _ _ h, respBuild_eq _ _ _ h]
  refine ⟨(o.order (respBuildHeader r)).map (fun p => p.1 ++ b!": " ++ p.2), ?_, ?_⟩
  · rw [← hf]
    exact (o.perm _).map _
  · unfold headerToString respLine
    rw [hv, List.map_map]
    have : (fun x => x ++ b!"\r\n") ∘ (fun p : Str × Str => p.1 ++ b!": " ++ p.2) = headerLine := rfl
    rw [this]
    simp [versionToStr, crlf]

/-- The table after one registration, as a list of paths with their handlers; the first entry of a path counts. -/
def tabStep (l : List (Str × List (Entry σ))) (r : Reg σ) : List (Str × List (Entry σ)) :=
  match (if r.path = [] then (l.map (·.1)).find? fun p => decide (p = [])
    else (l.map (·.1)).find? fun p => decide (r.path <+: p) && (l.map (·.1)).all fun q => !decide (r.path <+: q) || decide (p <+: q)) with
  | some p => l.map fun x => if x.1 = p then (x.1, x.2 ++ [r.entry]) else x
  | none => (r.full, [r.entry]) :: l

theorem lookup_isSome (l : List (Str × List (Entry σ))) (k : Str) : (l.lookup k).isSome ↔ k ∈ l.map (·.1) := by
  induction l with
  | nil => simp
  | cons x l ih =>
    rw [List.lookup_cons]
    by_cases h : k = x.1
    · simp [h]
    · have : (k == x.1) = false := by simpa using h
      simp only [this, List.map_cons, List.mem_cons, h, false_or]
      exact ih

theorem lookup_append (l : List (Str × List (Entry σ))) (p : Str) (e : Entry σ) (k : Str) :
    (l.map fun x => if x.1 = p then (x.1, x.2 ++ [e]) else x).lookup k =
      if k = p then (l.lookup k).map (· ++ [e]) else l.lookup k := by
  induction l with
  | nil => simp
  | cons x l ih =>
    rw [List.map_cons, List.lookup_cons, List.lookup_cons, ih]
    by_cases h : k = x.1
    · by_cases hp : x.1 = p <;> simp [h, hp]
    · have : (k == x.1) = false := by simpa using h
      by_cases hp : x.1 = p <;> simp only [hp, if_true, if_false, this] <;> simp [this, hp ▸ this]

theorem tableStep_tab {l : List (Str × List (Entry σ))} {r : Reg σ} {m'} (h : TableStep (fun k => l.lookup k) r m') :
    m' = fun k => (tabStep l r).lookup k := by
  have hfinds : ∀ p, Finds (fun k => l.lookup k) r.path p ↔
      (if r.path = [] then (l.map (·.1)).find? fun p => decide (p = [])
        else (l.map (·.1)).find? fun p => decide (r.path <+: p) && (l.map (·.1)).all fun q => !decide (r.path <+: q) || decide (p <+: q)) =
        some p := by
    intro p
    by_cases h0 : r.path = []
    · rw [if_pos h0]
      constructor
      · rintro (⟨_, rfl, h⟩ | ⟨h, _⟩)
        · rw [lookup_isSome] at h
          cases hf : (l.map (·.1)).find? fun p => decide (p = []) with
          | none => simpa using List.find?_eq_none.1 hf [] h
          | some x =>
            have := List.find?_some hf
            simp only [decide_eq_true_eq] at this
            rw [this]
        · exact absurd h0 h
      · intro h
        have h1 := List.find?_some h
        simp only [decide_eq_true_eq] at h1
        have h2 := List.mem_of_find?_eq_some h
        subst h1
        exact .inl ⟨h0, rfl, (lookup_isSome _ _).2 h2⟩
    · rw [if_neg h0]
      have good : ∀ p, (decide (r.path <+: p) && (l.map (·.1)).all fun q => !decide (r.path <+: q) || decide (p <+: q)) = true ∧
          p ∈ l.map (·.1) ↔ LeastExtension (fun k => l.lookup k) r.path p := by
        intro p
        unfold LeastExtension
        simp only [lookup_isSome, Bool.and_eq_true, decide_eq_true_eq, List.all_eq_true, Bool.or_eq_true, Bool.not_eq_true',
          decide_eq_false_iff_not]
        constructor
        · rintro ⟨⟨h1, h2⟩, h3⟩
          exact ⟨h1, h3, fun q hq hm => (h2 q hm).resolve_left (fun h => h hq)⟩
        · rintro ⟨h1, h2, h3⟩
          refine ⟨⟨h1, fun q hq => ?_⟩, h2⟩
          by_cases hp : r.path <+: q
          · exact .inr (h3 q hp hq)
          · exact .inl hp
      constructor
      · rintro (⟨h, _⟩ | ⟨_, h⟩)
        · exact absurd h h0
        · obtain ⟨h1, h2⟩ := (good p).2 h
          cases hf : (l.map (·.1)).find? fun p => decide (r.path <+: p) && (l.map (·.1)).all fun q => !decide (r.path <+: q) || decide (p <+: q) with
          | none => exact absurd h1 (by simpa using List.find?_eq_none.1 hf p h2)
          | some x =>
            have hx1 := List.find?_some hf
            have hx := (good x).1 ⟨hx1, List.mem_of_find?_eq_some hf⟩
            have a := hx.2.2 p h.1 h.2.1
            have b := h.2.2 x hx.1 hx.2.1
            rw [a.eq_of_length_le b.length_le]
      · intro h
        have h1 := List.find?_some h
        exact .inr ⟨h0, (good p).1 ⟨h1, List.mem_of_find?_eq_some h⟩⟩
  unfold tabStep
  rcases h with ⟨p, hp, rfl⟩ | ⟨hno, rfl⟩
  · rw [(hfinds p).1 hp]
    funext k
    exact (lookup_append l p r.entry k).symm
  · cases hf : (if r.path = [] then (l.map (·.1)).find? fun p => decide (p = [])
        else (l.map (·.1)).find? fun p => decide (r.path <+: p) && (l.map (·.1)).all fun q => !decide (r.path <+: q) || decide (p <+: q)) with
    | some p => exact absurd ⟨p, (hfinds p).2 hf⟩ hno
    | none =>
      funext k
      rw [List.lookup_cons]
      by_cases hk : k = r.full
      · simp [hk]
      · have : (k == r.full) = false := by simpa using hk
        simp [hk, this]

/-- The table of a list of registrations. -/
theorem tableRun_tab {regs : List (Reg σ)} {m} (h : TableRun regs m) : m = fun k => (regs.foldl tabStep []).lookup k := by
  induction h with
  | nil => rfl
  | snoc _ hs ih =>
    subst ih
    rw [List.foldl_append]
    exact tableStep_tab hs

/-- What the code keeps for a program: the calls, the registrations, the table. -/
theorem calls_dispatch (calls : List (ApiCall σ)) (regs : List (Reg σ)) (l : List (Str × List (Entry σ)))
    (hc : calls.foldlM (fun s x => x.perform s) {} = registerAll regs) (ha : AsciiRegs regs) (hl : regs.foldl tabStep [] = l) :
    ∃ s : Server σ, calls.foldlM (fun s x => x.perform s) {} = .ok s ∧ ∀ path, Ascii path → ∀ ctx,
      dispatch s path ctx = runInOrder (tableCandidates (fun k => l.lookup k) path) ctx := by
  obtain ⟨s, m, h1, h2, h3⟩ := C40_exact_partial regs ha
  refine ⟨s, by rw [hc, h1], fun path hp ctx => ?_⟩
  rw [h3 path hp ctx, tableRun_tab h2, hl]

/-! ### `simple-http-server` -/

def simpleHello : Entry σ := { callback := some fun ctx => .ok { ctx with resp := respText ctx.resp .OK b!"hello world" } }
def simpleWorld : Entry σ :=
  { callback := some fun ctx => .ok { ctx with resp := respRedirect ctx.resp b!"https://chenxuanweb.top" false } }
def simpleIndex : Entry σ := { callback := some (staticFileHandler 0 b!"../asset/index.html"), filters := [methodFilter .GET] }
def simpleDir : Entry σ :=
  { callback := some (staticDirHandler 0 b!"/" b!"../asset/blog-home/"), exact := false, filters := [methodFilter .GET] }

def simpleRegs : List (Reg σ) :=
  [{ path := b!"/hello", entry := simpleHello }, { path := b!"/world", entry := simpleWorld },
   { path := b!"/", entry := simpleIndex }, { path := b!"/", entry := simpleDir }]

theorem simple_dispatch : ∃ s : Server σ, (simpleCalls (σ := σ)).foldlM (fun s x => x.perform s) {} = .ok s ∧ ∀ path, Ascii path → ∀ ctx,
    dispatch s path ctx = runInOrder (tableCandidates (fun k => List.lookup k
      [(b!"/", [simpleIndex, simpleDir]), (b!"/world", [simpleWorld]), (b!"/hello", [simpleHello])]) path) ctx := by
  refine calls_dispatch _ simpleRegs _ rfl ?_ rfl
  intro r hr
  simp only [simpleRegs, List.mem_cons, List.not_mem_nil, or_false] at hr
  rcases hr with rfl | rfl | rfl | rfl
  all_goals exact ⟨(by decide : Ascii []), by dsimp only; decide⟩

theorem simple_candidates (path : Str) : tableCandidates (fun k => List.lookup k
      [(b!"/", [simpleIndex (σ := σ), simpleDir]), (b!"/world", [simpleWorld]), (b!"/hello", [simpleHello])]) path =
    if path = b!"/" then [simpleIndex, simpleDir] else if path = b!"/hello" then [simpleDir, simpleHello]
    else if path = b!"/world" then [simpleDir, simpleWorld] else if b!"/" <+: path then [simpleDir] else [] := by
  by_cases h1 : path = b!"/"
  · subst h1; rfl
  by_cases h2 : path = b!"/hello"
  · subst h2; rfl
  by_cases h3 : path = b!"/world"
  · subst h3; rfl
  rw [if_neg h1, if_neg h2, if_neg h3]
  have hnil : ∀ i, i ≤ path.length → path.take i ≠ b!"/" →
      (((fun k => List.lookup k [(b!"/", [simpleIndex (σ := σ), simpleDir]), (b!"/world", [simpleWorld]), (b!"/hello", [simpleHello])])
        (path.take i)).getD []).filter (fun e => decide (e.exact = true → i = path.length)) = [] := by
    intro i hi hne
    rw [List.filter_eq_nil_iff]
    intro e he
    have hlen : e.exact = true → i ≠ path.length → ¬ decide (e.exact = true → i = path.length) = true := by
      intro a b; simpa [a] using b
    have e1 : (path.take i == b!"/") = false := by simpa using hne
    simp only [List.lookup_cons, e1] at he
    by_cases hw : path.take i = b!"/world"
    · simp only [hw] at he
      have he : e = simpleWorld := by simpa using he
      subst he
      refine hlen rfl fun h => h3 ?_
      rw [← hw, h, List.take_length]
    · have e2 : (path.take i == b!"/world") = false := by simpa using hw
      simp only [e2] at he
      by_cases hh : path.take i = b!"/hello"
      · simp only [hh] at he
        have he : e = simpleHello := by simpa using he
        subst he
        refine hlen rfl fun h => h2 ?_
        rw [← hh, h, List.take_length]
      · have e3 : (path.take i == b!"/hello") = false := by simpa using hh
        simp [e3] at he
  by_cases hp : b!"/" <+: path
  · rw [if_pos hp]
    obtain ⟨rest, rfl⟩ := hp
    cases rest with
    | nil => exact absurd rfl h1
    | cons x rest =>
      unfold tableCandidates
      have hr : List.range ((b!"/" ++ x :: rest).length + 1) = 0 :: 1 :: (List.range (rest.length + 1)).map (· + 2) := by
        simp only [List.length_append, List.length_cons, List.length_nil]
        rw [show 0 + 1 + (rest.length + 1) + 1 = (rest.length + 1 + 1) + 1 by omega, List.range_succ_eq_map, List.range_succ_eq_map]
        simp [Function.comp_def]
      rw [hr, List.flatMap_cons, List.flatMap_cons]
      have htail : ((List.range (rest.length + 1)).map (· + 2)).flatMap (fun i =>
          (((fun k => List.lookup k [(b!"/", [simpleIndex (σ := σ), simpleDir]), (b!"/world", [simpleWorld]), (b!"/hello", [simpleHello])])
            ((b!"/" ++ x :: rest).take i)).getD []).filter (fun e => decide (e.exact = true → i = (b!"/" ++ x :: rest).length))) = [] := by
        rw [List.flatMap_eq_nil_iff]
        intro i hi
        obtain ⟨j, hj, rfl⟩ := List.mem_map.1 hi
        have hj := List.mem_range.1 hj
        refine hnil _ ?_ ?_
        · simp; omega
        · intro h
          have := congrArg List.length h
          simp at this
      rw [htail]
      simp [List.lookup_cons, simpleIndex, simpleDir]
  · rw [if_neg hp]
    unfold tableCandidates
    rw [List.flatMap_eq_nil_iff]
    intro i hi
    refine hnil i (by have := List.mem_range.1 hi; omega) fun h => hp ?_
    rw [← h]
    exact List.take_prefix _ _

theorem get_entry {f : Handler σ} {ex : Bool} (es : List (Entry σ)) (ctx : Ctx σ) :
    runInOrder ({ callback := some f, exact := ex, filters := [methodFilter .GET] } :: es) ctx =
      if ctx.req.method = .GET then (f ctx).bind fun c => if c.running then runInOrder es c else .ok c else runInOrder es ctx := by
  by_cases h : ctx.req.method = .GET
  · simp [runInOrder, accepts, methodFilter, h, bind, Except.bind]
  · simp [runInOrder, accepts, methodFilter, h, bind, Except.bind]

theorem simple_dir (ctx : Ctx σ) (hl : ctx.live 0 = true) (name : Str) (hp : ctx.req.route.path = b!"/" ++ name) :
    (Occurs b!".." name → staticDirHandler 0 b!"/" b!"../asset/blog-home/" ctx = .ok { ctx with resp := respNotFound ctx.resp }) ∧
    (¬ Occurs b!".." name → NoFile ctx.fs (b!"../asset/blog-home//" ++ name) →
      staticDirHandler 0 b!"/" b!"../asset/blog-home/" ctx = .ok ctx.next) ∧
    (¬ Occurs b!".." name → ∀ c, HasFile ctx.fs (b!"../asset/blog-home//" ++ name) c → ∀ ext,
      Suffix (b!"../asset/blog-home//" ++ name) = .ok ext →
      staticDirHandler 0 b!"/" b!"../asset/blog-home/" ctx = .ok { ctx with
        resp := { ctx.resp with
          status := .OK
          header := (ctx.resp.header.set b!"Connection" b!"keep-alive").set b!"Content-Type"
            (contentTypeToStr ctx.types (contentTypeOfFile ctx.types ext) []).1
          body := c }
        types := (contentTypeToStr ctx.types (contentTypeOfFile ctx.types ext) []).2 }) := by
  have hfirst : find (b!"/" ++ name) b!"/" = some 0 := by simp [find, findAux]
  have haim : substrFrom (b!"/" ++ name) (0 + (b!"/").length) = .ok name := by
    rw [substrFrom_ok (by simp)]; simp
  have hfile : b!"../asset/blog-home/" ++ b!"/" ++ name = b!"../asset/blog-home//" ++ name := rfl
  refine ⟨fun ho => ?_, fun ho hn => ?_, fun ho c hc ext hsuf => ?_⟩
  · have hd := find_dots.2 ho
    simp only [staticDirHandler, hl, hp, hfirst, haim, hd, bind, Except.bind, Bool.not_true, Bool.false_eq_true, if_false, if_true]
  all_goals
    have hd : (find name b!"..").isSome = false := by
      cases h : (find name b!"..").isSome with
      | false => rfl
      | true => exact absurd (find_dots.1 h) ho
  · rcases hn with hn | hn <;>
    simp only [staticDirHandler, hl, hp, hfirst, haim, hd, hfile, hn, fileExist, bind, Except.bind, Bool.not_true, Bool.not_false,
      Bool.false_eq_true, if_false, if_true]
  · have hc : ctx.fs (cString (b!"../asset/blog-home//" ++ name)) = .file (some c) := hc
    simp only [staticDirHandler, hl, hp, hfirst, haim, hd, hfile, hc, fileExist, fileRead, hsuf, bind, Except.bind, Bool.not_true,
      Bool.false_eq_true, if_false, ne_eq, not_true_eq_false]
    rfl

theorem simple_index (ctx : Ctx σ) (hl : ctx.live 0 = true) :
    (NoFile ctx.fs b!"../asset/index.html" → staticFileHandler 0 b!"../asset/index.html" ctx =
      .ok { ctx with resp := respNotFound ctx.resp }.next) ∧
    (∀ c, HasFile ctx.fs b!"../asset/index.html" c → staticFileHandler 0 b!"../asset/index.html" ctx = .ok { ctx with
        resp := { ctx.resp with
          status := .OK
          header := (ctx.resp.header.set b!"Connection" b!"keep-alive").set b!"Content-Type" b!"text/html"
          body := c } }) := by
  have hsuf : Suffix b!"../asset/index.html" = .ok b!"html" := by decide +kernel
  refine ⟨fun hn => ?_, fun c hc => ?_⟩
  · rcases hn with hn | hn <;>
    simp only [staticFileHandler, hl, hn, fileExist, bind, Except.bind, Bool.not_true, Bool.not_false, Bool.false_eq_true, if_false, if_true]
  · have hc : ctx.fs (cString b!"../asset/index.html") = .file (some c) := hc
    simp only [staticFileHandler, hl, hc, fileExist, fileRead, hsuf, bind, Except.bind, Bool.not_true,
      Bool.false_eq_true, if_false, ne_eq, not_true_eq_false]
    rfl

/-- What the directory does to the response and the content types. -/
theorem simple_dir_out (fs : FileSys) (hfiles : ∀ f, NoFile fs f ∨ ∃ c, HasFile fs f c) (name : Str) :
    ∃ F : HttpResp → UMap → HttpResp × UMap,
      (∀ ctx : Ctx σ, ctx.live 0 = true → ctx.fs = fs → ctx.req.route.path = b!"/" ++ name → ∃ cont,
        staticDirHandler 0 b!"/" b!"../asset/blog-home/" ctx =
          .ok { ctx with resp := (F ctx.resp ctx.types).1, types := (F ctx.resp ctx.types).2, isContinue := cont }) ∧
      (Occurs b!".." name → ∀ r t, (F r t).1 = respNotFound r) ∧
      (¬ Occurs b!".." name → NoFile fs (b!"../asset/blog-home//" ++ name) → ∀ r t, F r t = (r, t)) ∧
      (¬ Occurs b!".." name → ∀ c, HasFile fs (b!"../asset/blog-home//" ++ name) c → ∀ r t, ∃ type, (F r t).1 = { r with
          status := .OK
          header := (r.header.set b!"Connection" b!"keep-alive").set b!"Content-Type" type
          body := c }) := by
  by_cases ho : Occurs b!".." name
  · exact ⟨fun r t => (respNotFound r, t), fun ctx hl _ hp => ⟨ctx.isContinue, (simple_dir ctx hl name hp).1 ho⟩, fun _ _ _ => rfl,
      fun h => absurd ho h, fun h => absurd ho h⟩
  rcases hfiles (b!"../asset/blog-home//" ++ name) with hn | ⟨c, hc⟩
  · refine ⟨fun r t => (r, t), fun ctx hl hfs hp => ⟨true, (simple_dir ctx hl name hp).2.1 ho (hfs ▸ hn)⟩, fun h => absurd h ho,
      fun _ _ _ _ => rfl, fun _ c hc => ?_⟩
    unfold HasFile at hc
    rcases hn with hn | hn <;> (rw [hn] at hc; cases hc)
  · obtain ⟨base, ext, hsuf, _⟩ := C07_suffix (b!"../asset/blog-home//" ++ name)
    refine ⟨fun r t => ({ r with
          status := .OK
          header := (r.header.set b!"Connection" b!"keep-alive").set b!"Content-Type" (contentTypeToStr t (contentTypeOfFile t ext) []).1
          body := c }, (contentTypeToStr t (contentTypeOfFile t ext) []).2),
      fun ctx hl hfs hp => ⟨ctx.isContinue, (simple_dir ctx hl name hp).2.2 ho c (hfs ▸ hc) ext hsuf⟩, fun h => absurd h ho,
      fun _ hn => ?_, fun _ c' hc' r t => ⟨(contentTypeToStr t (contentTypeOfFile t ext) []).1, ?_⟩⟩
    · unfold HasFile at hc
      rcases hn with hn | hn <;> (rw [hn] at hc; cases hc)
    · unfold HasFile at hc hc'
      rw [hc] at hc'
      cases hc'
      rfl

theorem file_answer (o : HashOrder) (type c : Str) (hl : c.length < 2 ^ 31) :
    Answer b!"200 OK" [b!"Connection: keep-alive", b!"Content-Type: " ++ type, b!"Content-Length: " ++ intToStr c.length] c
      (responseText o { status := .OK, header := (UMap.empty.set b!"Connection" b!"keep-alive").set b!"Content-Type" type, body := c }) := by
  rw [← (by decide +kernel : intToStr (statusNum .OK) ++ b!" " ++ statusToStr .OK = b!"200 OK")]
  refine answer_text o { status := .OK, header := (UMap.empty.set b!"Connection" b!"keep-alive").set b!"Content-Type" type, body := c }
    (by simp) rfl _ ?_
  unfold respBuildHeader headerSetContentLength
  simp only [toInt32_small hl]
  rfl

theorem hello_answer (o : HashOrder) : Answer b!"200 OK" [b!"Content-Type: text/plain", b!"Content-Length: 11"] b!"hello world"
    (responseText o (respText {} .OK b!"hello world")) :=
  answer_text o (respText {} .OK b!"hello world") (by decide) rfl _ (by decide +kernel)

theorem world_answer (o : HashOrder) :
    Answer b!"302 Found" [b!"Content-Type: text/html", b!"Location: https://chenxuanweb.top", b!"Content-Length: 44"]
      b!"<html><body><h1>302 Found</h1></body></html>" (responseText o (respRedirect {} b!"https://chenxuanweb.top" false)) :=
  answer_text o (respRedirect {} b!"https://chenxuanweb.top" false) (by decide) rfl _ (by decide +kernel)

theorem fresh_missing (env : Env) (r : HttpResp) (h : r = {} ∨ r = respNotFound {}) : MissingAnswer (responseText env.order r) := by
  rcases h with rfl | rfl
  · exact missing_text _
  · exact missing_text env.order

/-- C154: `simple-http-server` answers every complete request with exactly one answer, which is the one its source asks for. -/
theorem C154_simple : ∃ s : Server σ, (simpleCalls (σ := σ)).foldlM (fun s x => x.perform s) {} = .ok s ∧
    ∀ env q text, RequestIs q text → Ascii q.route.path → env.live 0 = true → env.running = true →
    (∀ f, NoFile env.fs f ∨ ∃ c, HasFile env.fs f c) →
    ∃ answer types', SimpleFor env.fs q answer ∧ ∀ later fin u, Fits (text ++ later) →
      handleRead env s ⟨text ++ later, fin⟩ u =
        .ok { sent := [answer], closed := decide (env.writeRc < 0), conn := ⟨later, fin⟩, user := u, types := types' } := by
  obtain ⟨s, h1, hs⟩ := simple_dispatch (σ := σ)
  refine ⟨s, h1, fun env q text hq ha hl hrun hfiles => ?_⟩
  suffices h : ∃ (resp : HttpResp) (types' : UMap), SimpleFor env.fs q (responseText env.order resp) ∧
      ∀ conn u, ∃ cont, dispatch s q.route.path (freshCtx env q conn u) =
        .ok { freshCtx env q conn u with resp := resp, types := types', isContinue := cont } by
    obtain ⟨resp, types', h2, h3⟩ := h
    refine ⟨_, types', h2, fun later fin u hf => ?_⟩
    rw [request_read env s hq later fin u hf]
    obtain ⟨cont, h3⟩ := h3 ⟨later, fin⟩ u
    simp only [serveRequest]
    unfold freshCtx at h3
    rw [h3]
    rfl
  have hf : ∀ f, ¬ (NoFile env.fs f ∧ ∃ c, HasFile env.fs f c) := by
    rintro f ⟨h | h, c, h'⟩ <;> (unfold HasFile at h'; rw [h] at h'; cases h')
  simp only [hs _ ha, simple_candidates]
  have hg : ∀ (ex : Bool) (f : Handler σ) es (ctx : Ctx σ), ctx.req.method = .GET →
      runInOrder ({ callback := some f, exact := ex, filters := [methodFilter .GET] } :: es) ctx =
        (f ctx).bind fun c => if c.running then runInOrder es c else .ok c := by
    intro ex f es ctx h
    rw [get_entry, if_pos h]
  have hn : ∀ (ex : Bool) (f : Handler σ) es (ctx : Ctx σ), ctx.req.method ≠ .GET →
      runInOrder ({ callback := some f, exact := ex, filters := [methodFilter .GET] } :: es) ctx = runInOrder es ctx := by
    intro ex f es ctx h
    rw [get_entry, if_neg h]
  have hname : ∀ name name', q.route.path = b!"/" ++ name → q.route.path = b!"/" ++ name' → name = name' := by
    intro name name' h h'
    rw [h] at h'
    simpa using h'
  by_cases hm : q.method = .GET
  case neg =>
    -- no method but GET gets a file
    by_cases p1 : q.route.path = b!"/hello"
    · refine ⟨respText {} .OK b!"hello world", env.types, ?_, fun conn u => ⟨false, ?_⟩⟩
      · exact { index := fun h => absurd h hm
                noIndex := fun h => absurd h hm
                hello := fun _ _ => hello_answer _
                world := fun h => absurd (p1.symm.trans h) (by decide)
                file := fun _ h => absurd h hm
                missing := fun h => absurd p1 (fun h' => h (by simp [h'])) }
      · rw [if_neg (by rw [p1]; decide), if_pos p1, simpleDir, hn _ _ _ _ hm]
        simp [runInOrder, simpleHello, accepts, bind, Except.bind, freshCtx, hrun]
    by_cases p2 : q.route.path = b!"/world"
    · refine ⟨respRedirect {} b!"https://chenxuanweb.top" false, env.types, ?_, fun conn u => ⟨false, ?_⟩⟩
      · exact { index := fun h => absurd h hm
                noIndex := fun h => absurd h hm
                hello := fun h => absurd h p1
                world := fun _ _ => world_answer _
                file := fun _ h => absurd h hm
                missing := fun h => absurd p2 (fun h' => h (by simp [h'])) }
      · rw [if_neg (by rw [p2]; decide), if_neg p1, if_pos p2, simpleDir, hn _ _ _ _ hm]
        simp [runInOrder, simpleWorld, accepts, bind, Except.bind, freshCtx, hrun]
    · refine ⟨{}, env.types, ?_, fun conn u => ⟨false, ?_⟩⟩
      · exact { index := fun h => absurd h hm
                noIndex := fun h => absurd h hm
                hello := fun h => absurd h p1
                world := fun h => absurd h p2
                file := fun _ h => absurd h hm
                missing := fun _ _ => missing_text _ }
      · rw [if_neg p1, if_neg p2]
        split
        · rw [simpleIndex, hn _ _ _ _ hm, simpleDir, hn _ _ _ _ hm]; rfl
        · split
          · rw [simpleDir, hn _ _ _ _ hm]; rfl
          · rfl
  have noDots : ∀ n : Str, ¬ b!".." <:+: n → ¬ Occurs b!".." n := fun n h => by rwa [occurs_iff_infix]
  by_cases p0 : q.route.path = b!"/"
  · -- the index page
    obtain ⟨F, f1, _, f3, _⟩ := simple_dir_out (σ := σ) env.fs hfiles []
    have hnext : ∀ (r0 : HttpResp) (cont : Bool) conn u, ∃ cont', runInOrder [simpleDir (σ := σ)]
        { freshCtx env q conn u with resp := r0, isContinue := cont } =
        .ok { freshCtx env q conn u with resp := (F r0 env.types).1, types := (F r0 env.types).2, isContinue := cont' } := by
      intro r0 cont conn u
      obtain ⟨cont', h⟩ := f1 { freshCtx env q conn u with resp := r0, isContinue := cont } hl rfl p0
      refine ⟨cont', ?_⟩
      rw [simpleDir, hg _ _ _ _ hm, h]
      simp [Except.bind, runInOrder, freshCtx, hrun]
    rcases hfiles b!"../asset/index.html" with hi | ⟨c, hi⟩
    · refine ⟨(F (respNotFound {}) env.types).1, (F (respNotFound {}) env.types).2, ?_, fun conn u => ?_⟩
      · exact { index := fun _ _ _ c hc => absurd ⟨hi, c, hc⟩ (hf _)
                noIndex := fun _ _ hb _ => by
                  rw [f3 (noDots _ (by decide)) hb]; exact fresh_missing _ _ (.inr rfl)
                hello := fun h => absurd (p0.symm.trans h) (by decide)
                world := fun h => absurd (p0.symm.trans h) (by decide)
                file := fun n _ h hne => absurd (hname [] n p0 h).symm hne
                missing := fun _ h => by
                  rcases h with h | h | ⟨n, h, hne, _⟩
                  · exact absurd hm h
                  · exact absurd (by rw [p0]; decide) h
                  · exact absurd (hname [] n p0 h).symm hne }
      · obtain ⟨cont', h⟩ := hnext (respNotFound {}) true conn u
        refine ⟨cont', ?_⟩
        rw [if_pos p0, simpleIndex, hg _ _ _ _ hm, (simple_index _ hl).1 hi, ← h]
        simp only [Except.bind, Ctx.next, freshCtx, hrun, if_true]
    · have hi' := hi
      refine ⟨(F { status := .OK, header := (UMap.empty.set b!"Connection" b!"keep-alive").set b!"Content-Type" b!"text/html", body := c } env.types).1, (F { status := .OK, header := (UMap.empty.set b!"Connection" b!"keep-alive").set b!"Content-Type" b!"text/html", body := c } env.types).2, ?_, fun conn u => ?_⟩
      · exact { index := fun _ _ hb c' hc hlen => by
                  unfold HasFile at hi hc
                  rw [hi] at hc
                  cases hc
                  rw [f3 (noDots _ (by decide)) hb]
                  exact file_answer _ _ _ hlen
                noIndex := fun _ _ _ h => absurd ⟨h, c, hi⟩ (hf _)
                hello := fun h => absurd (p0.symm.trans h) (by decide)
                world := fun h => absurd (p0.symm.trans h) (by decide)
                file := fun n _ h hne => absurd (hname [] n p0 h).symm hne
                missing := fun _ h => by
                  rcases h with h | h | ⟨n, h, hne, _⟩
                  · exact absurd hm h
                  · exact absurd (by rw [p0]; decide) h
                  · exact absurd (hname [] n p0 h).symm hne }
      · obtain ⟨cont', h⟩ := hnext { status := .OK, header := (UMap.empty.set b!"Connection" b!"keep-alive").set b!"Content-Type" b!"text/html", body := c } false conn u
        refine ⟨cont', ?_⟩
        rw [if_pos p0, simpleIndex, hg _ _ _ _ hm, (simple_index _ hl).2 c hi, ← h]
        simp only [Except.bind, freshCtx, hrun, if_true]
  by_cases hslash : b!"/" <+: q.route.path
  case neg =>
    refine ⟨{}, env.types, ?_, fun conn u => ⟨false, ?_⟩⟩
    · exact { index := fun _ h => absurd h p0
              noIndex := fun _ h => absurd h p0
              hello := fun h => absurd (by rw [h]; decide) hslash
              world := fun h => absurd (by rw [h]; decide) hslash
              file := fun n _ h => absurd ⟨n, h.symm⟩ hslash
              missing := fun _ _ => missing_text _ }
    · rw [if_neg p0, if_neg (fun h => hslash (by rw [h]; decide)), if_neg (fun h => hslash (by rw [h]; decide)), if_neg hslash]
      rfl
  obtain ⟨name, hp⟩ := hslash
  have hp := hp.symm
  have hne : name ≠ [] := fun h => p0 (by rw [hp, h]; rfl)
  obtain ⟨F, f1, f2, f3, f4⟩ := simple_dir_out (σ := σ) env.fs hfiles name
  have hdir : ∀ es conn u, ∃ cont, runInOrder (simpleDir (σ := σ) :: es) (freshCtx env q conn u) = runInOrder es
      { freshCtx env q conn u with resp := (F {} env.types).1, types := (F {} env.types).2, isContinue := cont } := by
    intro es conn u
    obtain ⟨cont, h⟩ := f1 (freshCtx env q conn u) hl rfl hp
    refine ⟨cont, ?_⟩
    rw [simpleDir, hg _ _ _ _ hm, h]
    simp [Except.bind, freshCtx, hrun]
  by_cases p1 : q.route.path = b!"/hello"
  · have hn1 : name = b!"hello" := hname _ _ hp p1
    subst hn1
    refine ⟨respText (F {} env.types).1 .OK b!"hello world", (F {} env.types).2, ?_, fun conn u => ?_⟩
    · exact { index := fun _ h => absurd h p0
              noIndex := fun _ h => absurd h p0
              hello := fun _ h => by
                rw [f3 (noDots _ (by decide)) (h.resolve_left (fun h => h hm))]
                exact hello_answer _
              world := fun h => absurd (p1.symm.trans h) (by decide)
              file := fun n _ h _ hx => absurd (hname _ _ hp h).symm hx
              missing := fun h => absurd p1 (fun h' => h (by simp [h'])) }
    · obtain ⟨cont, h⟩ := hdir [simpleHello] conn u
      refine ⟨cont, ?_⟩
      rw [if_neg p0, if_pos p1, h]
      simp [runInOrder, simpleHello, accepts, bind, Except.bind, freshCtx, hrun]
  by_cases p2 : q.route.path = b!"/world"
  · have hn1 : name = b!"world" := hname _ _ hp p2
    subst hn1
    refine ⟨respRedirect (F {} env.types).1 b!"https://chenxuanweb.top" false, (F {} env.types).2, ?_, fun conn u => ?_⟩
    · exact { index := fun _ h => absurd h p0
              noIndex := fun _ h => absurd h p0
              hello := fun h => absurd h p1
              world := fun _ h => by
                rw [f3 (noDots _ (by decide)) (h.resolve_left (fun h => h hm))]
                exact world_answer _
              file := fun n _ h _ _ hx => absurd (hname _ _ hp h).symm hx
              missing := fun h => absurd p2 (fun h' => h (by simp [h'])) }
    · obtain ⟨cont, h⟩ := hdir [simpleWorld] conn u
      refine ⟨cont, ?_⟩
      rw [if_neg p0, if_neg p1, if_pos p2, h]
      simp [runInOrder, simpleWorld, accepts, bind, Except.bind, freshCtx, hrun]
  refine ⟨(F {} env.types).1, (F {} env.types).2, ?_, fun conn u => ?_⟩
  · exact { index := fun _ h => absurd h p0
            noIndex := fun _ h => absurd h p0
            hello := fun h => absurd h p1
            world := fun h => absurd h p2
            file := fun n _ h _ _ _ ho c hc hlen => by
              have := hname _ _ hp h
              subst this
              obtain ⟨type, ht⟩ := f4 ho c hc {} env.types
              refine ⟨type, ?_⟩
              rw [ht]
              exact file_answer _ _ _ hlen
            missing := fun _ h => by
              rcases h with h | h | ⟨n, h, hne, h'⟩
              · exact absurd hm h
              · exact absurd ⟨name, hp.symm⟩ h
              · have := hname _ _ hp h
                subst this
                by_cases ho : Occurs b!".." name
                · rw [f2 ho]; exact fresh_missing _ _ (.inr rfl)
                · rw [f3 ho (h'.resolve_left ho)]; exact missing_text _ }
  · obtain ⟨cont, h⟩ := hdir [] conn u
    refine ⟨cont, ?_⟩
    rw [if_neg p0, if_neg p1, if_neg p2, if_pos ⟨name, hp.symm⟩, h]
    simp [runInOrder]

/-- A file system with the index page and one file in the directory. -/
example : let fs : FileSys := fun f => if f = b!"../asset/index.html" then .file (some b!"<p>") else
      if f = b!"../asset/blog-home//a.css" then .file (some b!"x") else .missing
    (∀ f, NoFile fs f ∨ ∃ c, HasFile fs f c) ∧ HasFile fs b!"../asset/index.html" b!"<p>" ∧
      HasFile fs (b!"../asset/blog-home//" ++ b!"a.css") b!"x" ∧ NoFile fs b!"../asset/blog-home//hello" ∧
      NoFile fs b!"../asset/blog-home//" := by
  refine ⟨fun f => ?_, rfl, rfl, .inl rfl, .inl rfl⟩
  unfold NoFile HasFile
  dsimp only
  split
  · exact .inr ⟨_, rfl⟩
  · split
    · exact .inr ⟨_, rfl⟩
    · exact .inl (.inl rfl)

/-! ### C155: `mnist` -/

def mnistEntry (a : MnistAns) : Entry σ := { callback := some (mnistHandler a) }
def mnistIndex : Entry σ := { callback := some (staticFileHandler 0 b!"./index.html"), filters := [methodFilter .GET] }

theorem mnist_dispatch (a : MnistAns) : ∃ s : Server σ, (mnistCalls (σ := σ) a).foldlM (fun s x => x.perform s) {} = .ok s ∧
    ∀ path, Ascii path → ∀ ctx, dispatch s path ctx =
      if path = b!"/mnist" then runInOrder [mnistEntry a, mnistIndex] ctx else .ok ctx := by
  obtain ⟨s, h1, h2⟩ := calls_dispatch (mnistCalls (σ := σ) a)
    [{ path := b!"/mnist", entry := mnistEntry a }, { path := b!"/", entry := mnistIndex }]
    [(b!"/mnist", [mnistEntry a, mnistIndex])] rfl (by
      intro r hr
      simp only [List.mem_cons, List.not_mem_nil, or_false] at hr
      rcases hr with rfl | rfl
      all_goals exact ⟨(by decide : Ascii []), by dsimp only; decide⟩) rfl
  refine ⟨s, h1, fun path hp ctx => ?_⟩
  rw [h2 path hp ctx]
  by_cases h : path = b!"/mnist"
  · subst h; rfl
  · rw [if_neg h]
    have : tableCandidates (fun k => List.lookup k [(b!"/mnist", [mnistEntry (σ := σ) a, mnistIndex])]) path = [] := by
      unfold tableCandidates
      rw [List.flatMap_eq_nil_iff]
      intro i hi
      rw [List.filter_eq_nil_iff]
      intro e he
      by_cases ht : path.take i = b!"/mnist"
      · simp only [ht, List.lookup_cons] at he
        have hex : e.exact = true := by
          have he : e = mnistEntry a ∨ e = mnistIndex := by simpa using he
          rcases he with rfl | rfl <;> rfl
        have : i ≠ path.length := by
          intro e
          rw [e, List.take_length] at ht
          exact h ht
        simpa [hex] using this
      · have e1 : (path.take i == b!"/mnist") = false := by simpa using ht
        simp [List.lookup_cons, e1] at he
    rw [this]
    rfl

theorem mapM_pure {α β : Type} (f : α → Out β) (g : α → β) (l : List α) (h : ∀ x ∈ l, f x = .ok (g x)) : l.mapM f = .ok (l.map g) := by
  induction l with
  | nil => rfl
  | cons x l ih =>
    rw [List.mapM_cons, h x (by simp), ih fun y hy => h y (by simp [hy])]
    rfl

theorem range_get {α : Type} (l : List α) (d : α) (n : Nat) (h : l.length = n) : (List.range n).map (fun i => l[i]?.getD d) = l := by
  apply List.ext_getElem
  · simp [h]
  · intro i h1 h2
    simp [h2]

/-- The network gets the picture row by row. -/
theorem mnistInput_picture {data : List (List Int)} (h : Picture data) : mnistInput data = .ok data.flatten := by
  unfold mnistInput
  rw [mapM_pure _ (fun p => (data[p.1]?.getD [])[p.2]?.getD 0)]
  · congr 1
    rw [List.map_flatMap]
    simp only [List.map_map, Function.comp_def]
    have : ((List.range 28).flatMap fun i => (List.range 28).map fun j => (data[i]?.getD [])[j]?.getD 0) =
        (List.range 28).flatMap fun i => data[i]?.getD [] := by
      rw [List.flatMap_def, List.flatMap_def]
      congr 1
      apply List.map_congr_left
      intro i hi
      have hi : i < data.length := by rw [h.1]; exact List.mem_range.1 hi
      refine range_get _ 0 28 ?_
      simp only [hi, List.getElem?_eq_getElem, Option.getD_some]
      exact h.2 _ (List.getElem_mem hi)
    rw [this, List.flatMap_def, range_get data [] 28 h.1]
  · rintro ⟨i, j⟩ hp
    simp only [List.mem_flatMap, List.mem_map, List.mem_range, Prod.mk.injEq] at hp
    obtain ⟨i', hi, j', hj, rfl, rfl⟩ := hp
    have hi : i' < data.length := by rw [h.1]; exact hi
    have hj : j' < data[i'].length := by rw [h.2 _ (List.getElem_mem hi)]; exact hj
    simp [mnistAt, hi, hj]

theorem json_answer (o : HashOrder) (c : Str) (hl : c.length < 2 ^ 31) :
    Answer b!"200 OK" [b!"Content-Type: application/json", b!"Content-Length: " ++ intToStr c.length] c
      (responseText o (respSuccessWithJson {} c)) := by
  rw [← (by decide +kernel : intToStr (statusNum .OK) ++ b!" " ++ statusToStr .OK = b!"200 OK")]
  refine answer_text o (respSuccessWithJson {} c) (by simp [respSuccessWithJson, respType]) rfl _ ?_
  unfold respBuildHeader headerSetContentLength
  simp only [respSuccessWithJson, respType, toInt32_small hl]
  rfl

/-- C155, what holds: the `mnist` program answers a posted picture with the prediction for it (given row by row), and nothing is
read outside the picture; paths other than `/mnist` get the 404 page. -/
theorem C155_picture_partial (a : MnistAns) : ∃ s : Server σ, (mnistCalls (σ := σ) a).foldlM (fun s x => x.perform s) {} = .ok s ∧
    ∀ env q text, RequestIs q text → Ascii q.route.path →
    (q.method = .POST → q.route.path = b!"/mnist" → ∀ data, a.parse q.body = some data → Picture data →
      (a.dump 200 b!"ok" (a.predict data.flatten)).length < 2 ^ 31 →
      ∃ answer, Answer b!"200 OK" [b!"Content-Type: application/json",
          b!"Content-Length: " ++ intToStr (a.dump 200 b!"ok" (a.predict data.flatten)).length]
          (a.dump 200 b!"ok" (a.predict data.flatten)) answer ∧
        ∀ later fin u, Fits (text ++ later) → handleRead env s ⟨text ++ later, fin⟩ u =
          .ok { sent := [answer], closed := decide (env.writeRc < 0), conn := ⟨later, fin⟩, user := u, types := env.types }) ∧
    (q.route.path ≠ b!"/mnist" → ∃ answer, MissingAnswer answer ∧
        ∀ later fin u, Fits (text ++ later) → handleRead env s ⟨text ++ later, fin⟩ u =
          .ok { sent := [answer], closed := decide (env.writeRc < 0), conn := ⟨later, fin⟩, user := u, types := env.types }) := by
  obtain ⟨s, h1, hs⟩ := mnist_dispatch (σ := σ) a
  refine ⟨s, h1, fun env q text hq ha => ⟨fun hm hp data hd hpic hl => ⟨_, json_answer env.order _ hl, fun later fin u hf => ?_⟩,
    fun hp => ⟨_, missing_text env.order, fun later fin u hf => ?_⟩⟩⟩
  · rw [request_read env s hq later fin u hf]
    have hno : ¬ (data.length ≠ 28 ∨ ∃ row ∈ data, row.length ≠ 28) := by
      rintro (h | ⟨row, h, h'⟩)
      · exact h hpic.1
      · exact h' (hpic.2 row h)
    have hrun : ∀ ctx : Ctx σ, ctx.req = q → mnistHandler a ctx =
        .ok { ctx with resp := respSuccessWithJson ctx.resp (a.dump 200 b!"ok" (a.predict data.flatten)) } := by
      intro ctx hc
      simp only [mnistHandler, hc, hd, hno, if_false, mnistInput_picture hpic, mnistDump, bind, Except.bind]
    simp only [serveRequest, hs _ ha, if_pos hp, runInOrder, mnistEntry, accepts, bind, Except.bind, hrun]
    cases hr : env.running
    · rfl
    · simp [mnistIndex, accepts, methodFilter, hm, bind, Except.bind]
  · rw [request_read env s hq later fin u hf]
    simp only [serveRequest, hs _ ha, if_neg hp]
    rfl

/-- C155 is false for every body that is not a picture: instead of the answer 400 the program reads `result`, which was never
written. -/
theorem C155_bad_body_refuted (a : MnistAns) (s : Server σ) (h : (mnistCalls (σ := σ) a).foldlM (fun s x => x.perform s) {} = .ok s)
    (env : Env) (q : HttpReq) (text : Str) (hq : RequestIs q text) (hp : q.route.path = b!"/mnist")
    (hbad : ∀ data, a.parse q.body = some data → ¬ Picture data) (later : Str) (fin : Int) (u : σ) (hf : Fits (text ++ later)) :
    handleRead env s ⟨text ++ later, fin⟩ u = .error .ub := by
  obtain ⟨s', h1, hs⟩ := mnist_dispatch (σ := σ) a
  rw [h] at h1
  cases h1
  rw [request_read env s hq later fin u hf]
  have hrun : ∀ ctx : Ctx σ, ctx.req = q → mnistHandler a ctx = .error .ub := by
    intro ctx hc
    cases hd : a.parse q.body with
    | none => simp [mnistHandler, hc, hd, mnistDump, bind, Except.bind]
    | some data =>
      have hno : data.length ≠ 28 ∨ ∃ row ∈ data, row.length ≠ 28 := by
        apply Classical.byContradiction
        intro hn
        refine hbad data hd ⟨Classical.byContradiction fun h => hn (.inl h), fun row hr => ?_⟩
        exact Classical.byContradiction fun h => hn (.inr ⟨row, hr, h⟩)
      simp only [mnistHandler, hc, hd, if_pos hno, mnistDump, bind, Except.bind]
  have ha : Ascii q.route.path := by rw [hp]; decide
  simp only [serveRequest, hs _ ha, if_pos hp, runInOrder, mnistEntry, accepts, bind, Except.bind, hrun]

/-- C155 is false for the page itself: whatever is in `./index.html`, a request for `/` gets the 404 page, since `StaticFile("/")`
was attached to `/mnist` (C40). -/
theorem C155_index_refuted (a : MnistAns) (s : Server σ) (h : (mnistCalls (σ := σ) a).foldlM (fun s x => x.perform s) {} = .ok s)
    (env : Env) (text : Str) (hq : RequestFor b!"/" text) (later : Str) (fin : Int) (u : σ) (hf : Fits (text ++ later)) :
    ∃ r, handleRead env s ⟨text ++ later, fin⟩ u = .ok r ∧ ∃ answer, r.sent = [answer] ∧ MissingAnswer answer := by
  obtain ⟨q, hq, hp⟩ := hq
  obtain ⟨s', h1, hs⟩ := C155_picture_partial (σ := σ) a
  rw [h] at h1
  cases h1
  obtain ⟨answer, h2, h3⟩ := (hs env q text hq (by rw [hp]; decide)).2 (by rw [hp]; decide)
  exact ⟨_, h3 later fin u hf, answer, rfl, h2⟩

/-- A picture, and a body that is none. -/
example : Picture (List.replicate 28 (List.replicate 28 0)) ∧ ¬ Picture [[1]] := by
  constructor
  · exact ⟨by decide, by decide⟩
  · exact fun h => absurd h.1 (by decide)

end Cppnet
