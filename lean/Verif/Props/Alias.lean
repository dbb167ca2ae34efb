import Verif.Model.Alias
import Verif.Proofs.Map
import Verif.Props.Resp
import Verif.Props.Req

/-!
# C178: a call may be given a text of the object itself
-/

namespace Cppnet

/-! ### With a value the functions are those of the other models -/

theorem routeParseArg_value (r : HttpRoute) (s : Str) : routeParseArg (fun _ => s) r = routeParse r s := rfl
theorem headerParseArg_value (h : HttpHeader) (s : Str) : headerParseArg (fun _ => s) h = headerParse h s := rfl
theorem reqParseArg_value (r : HttpReq) (s : Str) : reqParseArg (fun _ => s) r = reqParse r s := rfl
theorem respParseArg_value (r : HttpResp) (s : Str) : respParseArg (fun _ => s) r = respParse r s := rfl
theorem callArg_value (h : RespHelper) (r : HttpResp) (s : Str) : h.callArg (fun _ => s) r = h.call r s := by
  cases h <;> rfl

/-- **C178** (what holds of `Parse`): a response can be parsed from any text it holds, a header from the value of any of its entries, and
a request from any of its parameters. -/
theorem C178_parse_partial :
    (∀ (r : HttpResp) (p : RespPlace), respParseArg (fun r' => p.get r') r = respParse r (p.get r)) ∧
    (∀ (h : HttpHeader) (k : Str), headerParseArg (fun h' => headerGet h' k) h = headerParse h (headerGet h k)) ∧
    ∀ (r : HttpReq) (k : Str), reqParseArg (fun r' => (ReqPlace.param k).get r') r = reqParse r (routeGetParam r.route k) :=
  ⟨fun _ _ => rfl, fun _ _ => rfl, fun _ _ => rfl⟩

/-- **C178 is false** for `HttpReq::Parse(req.body())`: the request line is cut from the body that was just stored.  Every request without
a body that could be parsed from a copy is rejected. -/
theorem C178_request_refuted (r q : HttpReq) (h : reqParse r r.body = .ok (q, kSuccess)) (hb : q.body = []) :
    ∃ q', reqParseArg (fun r' => ReqPlace.body.get r') r = .ok (q', kLogicErr) := by
  unfold reqParse at h
  unfold reqParseArg
  simp only [ReqPlace.get]
  split at h
  · cases h
  rename_i hne
  rw [if_neg hne]
  split at h
  · cases h
  rename_i headerEnd h2
  split at h
  · cases h
  rename_i lineEnd h3
  simp only [h2, h3]
  cases h4 : substr r.body (lineEnd + 2) headerEnd with
  | error e => simp [h4, bind, Except.bind] at h
  | ok region =>
    simp only [h4, bind, Except.bind] at h ⊢
    cases h5 : headerParse r.header region with
    | error e => simp [h5] at h
    | ok x =>
      obtain ⟨header, rc⟩ := x
      simp only [h5] at h ⊢
      split at h
      · cases h
      rename_i hrc
      rw [if_neg hrc]
      cases h6 : substrFrom r.body (headerEnd + 4) with
      | error e => simp [h6] at h
      | ok body =>
        simp only [h6] at h ⊢
        have hbody : body = [] := by
          cases h7 : substr r.body 0 lineEnd with
          | error e => simp [h7] at h
          | ok line =>
            simp only [h7] at h
            cases h8 : Split line b!" " [] false with
            | error e => simp [h8] at h
            | ok parts =>
              simp only [h8] at h
              split at h
              · split at h
                · cases h
                · split at h
                  · cases h
                  · split at h
                    · cases h
                    · split at h
                      · cases h
                      · cases h; exact hb
              · cases h
        subst hbody
        have h9 : substr ([] : Str) 0 lineEnd = .ok [] := by simp [substr]
        have h10 : Split ([] : Str) b!" " [] false = .ok [[]] := by decide +kernel
        simp only [h9, h10]
        exact ⟨_, rfl⟩

/-- The request line of a request in the body may come from what follows it: the parsed path is `/b`. -/
example : (reqParseArg (fun r' => ReqPlace.body.get r')
      { body := b!"GET /a HTTP/1.1\r\nHost: h\r\n\r\nGET /b HTTP/1.1" } |>.toOption.map fun x => (x.1.route.path, x.2)) = some (b!"/b", kSuccess) ∧
    (reqParse {} b!"GET /a HTTP/1.1\r\nHost: h\r\n\r\nGET /b HTTP/1.1" |>.toOption.map fun x => (x.1.route.path, x.2)) = some (b!"/a", kSuccess) := by
  decide +kernel
/-- The hypotheses of `C178_request_refuted`. -/
example : (reqParse { body := b!"GET /a HTTP/1.1\r\nHost: h\r\n\r\n" } b!"GET /a HTTP/1.1\r\nHost: h\r\n\r\n" |>.toOption.map
    fun x => (x.1.body, x.2)) = some ([], kSuccess) := by decide +kernel

/-- **C178** (what holds of `HttpReq::Parse` and a header): a request can be parsed from one of its own header values if the text does not
name that header again with another value. -/
theorem C178_request_header_partial (r q : HttpReq) (k : Str) (rc : Int) (h : reqParse r (headerGet r.header k) = .ok (q, rc))
    (hk : headerGet q.header k = headerGet r.header k) :
    reqParseArg (fun r' => (ReqPlace.header k).get r') r = .ok (q, rc) := by
  unfold reqParse at h
  unfold reqParseArg
  simp only [ReqPlace.get]
  split at h
  · rename_i he; rw [if_pos he]; exact h
  rename_i hne
  rw [if_neg hne]
  split at h
  · rename_i h2; simp only [h2]; exact h
  rename_i headerEnd h2
  split at h
  · rename_i h3; simp only [h2, h3]; exact h
  rename_i lineEnd h3
  simp only [h2, h3]
  cases h4 : substr (headerGet r.header k) (lineEnd + 2) headerEnd with
  | error e => simp [h4, bind, Except.bind] at h
  | ok region =>
    simp only [h4, bind, Except.bind] at h ⊢
    cases h5 : headerParse r.header region with
    | error e => simp [h5] at h
    | ok x =>
      obtain ⟨header, rc'⟩ := x
      simp only [h5] at h ⊢
      have hq : headerGet header k = headerGet r.header k := by
        rw [← hk]
        split at h
        · cases h; rfl
        cases h6 : substrFrom (headerGet r.header k) (headerEnd + 4) with
        | error e => simp [h6] at h
        | ok body =>
          simp only [h6] at h
          cases h7 : substr (headerGet r.header k) 0 lineEnd with
          | error e => simp [h7] at h
          | ok line =>
            simp only [h7] at h
            cases h8 : Split line b!" " [] false with
            | error e => simp [h8] at h
            | ok parts =>
              simp only [h8] at h
              split at h
              · split at h
                · cases h; rfl
                · split at h
                  · cases h
                  · split at h
                    · cases h; rfl
                    · split at h <;> (cases h; rfl)
              · cases h; rfl
      rw [hq]
      exact h

/-- **C178 is false** for `HttpReq::Parse(req.header()[k])`: if the text names the header `k` itself, the text is replaced while it is
parsed, and the call throws. -/
theorem C178_request_header_refuted : ∃ (r : HttpReq) (k : Str),
    (∃ q, reqParse r (headerGet r.header k) = .ok (q, kSuccess)) ∧
    reqParseArg (fun r' => (ReqPlace.header k).get r') r = .error .outOfRange := by
  refine ⟨{ header := UMap.empty.set b!"X" b!"GET / HTTP/1.1\r\nX: y\r\n\r\n" }, b!"X", ?_, by decide +kernel⟩
  generalize hq : reqParse _ _ = x
  have : x.toOption.map (fun x => x.2) = some kSuccess := by rw [← hq]; decide +kernel
  cases x with
  | error e => cases this
  | ok y => obtain ⟨q, rc⟩ := y; simp [Except.toOption] at this; exact ⟨q, by rw [this]⟩

/-- **C178** (what holds of a route): a route can be parsed from one of its own parameters if the text does not change that parameter. -/
theorem C178_route_partial (r q : HttpRoute) (k : Str) (rc : Int) (h : routeParse r (routeGetParam r k) = .ok (q, rc))
    (hk : routeGetParam q k = routeGetParam r k) : routeParseArg (fun r' => routeGetParam r' k) r = .ok (q, rc) := by
  unfold routeParse at h
  unfold routeParseArg
  split at h
  · rename_i he; rw [if_pos he]; exact h
  rename_i he
  rw [if_neg he]
  dsimp only at h ⊢
  cases hf : find (routeGetParam r k) b!"?" with
  | none => simp only [hf] at h ⊢; exact h
  | some pos =>
    simp only [hf] at h ⊢
    generalize toInt32 pos = start at h ⊢
    split at h
    · rename_i h1; rw [if_pos h1]; exact h
    rename_i h1
    rw [if_neg h1]
    split at h
    · cases h
    rename_i h2
    rw [if_neg h2]
    cases h3 : substrFrom (routeGetParam r k) (intToSize (start + 1)) with
    | error e => simp [h3, bind, Except.bind] at h
    | ok param =>
      simp only [h3, bind, Except.bind] at h ⊢
      cases h4 : Split param b!"&" [] false with
      | error e => simp [h4] at h
      | ok items =>
        simp only [h4] at h ⊢
        cases h5 : routeParams r.params items with
        | error e => simp [h5] at h
        | ok params =>
          simp only [h5] at h ⊢
          have hq : routeGetParam { r with params } k = routeGetParam r k := by
            rw [← hk]
            split at h
            · cases h
            · cases h; rfl
          rw [hq]
          exact h

/-- **C178 is false** for `HttpRoute::Parse(route[k])`: a text that names the parameter `k` itself is replaced before its path is cut off. -/
theorem C178_route_refuted : ∃ (r : HttpRoute) (k : Str) (q q' : HttpRoute), routeParse r (routeGetParam r k) = .ok (q, kSuccess) ∧
    routeParseArg (fun r' => routeGetParam r' k) r = .ok (q', kSuccess) ∧ q.path = b!"/p" ∧ q'.path = b!"12" := by
  refine ⟨{ params := UMap.empty.set b!"a" b!"/p?a=123" }, b!"a",
    { path := b!"/p", params := UMap.empty.set b!"a" b!"123" }, { path := b!"12", params := UMap.empty.set b!"a" b!"123" }, ?_, ?_, rfl, rfl⟩ <;>
    decide +kernel

/-- **C178 is false** for `HttpReq::Build(req.body())`: the body is overwritten with the request line and the headers, and these are
appended to themselves.  The result is the text that a copy would have given only if the body was this head already. -/
theorem C178_build_refuted (o : HashOrder) (r : HttpReq) (old : Str) (hm : r.method ≠ .UNKNOWN) (hv : r.version ≠ .UNKNOWN) :
    ∃ head, (reqBuild o r old).2.1 = head ++ r.body ∧ (reqBuildAt o .body r).1.body = head ++ head ∧
      ((reqBuildAt o .body r).1.body = (reqBuild o r old).2.1 ↔ r.body = head) := by
  have hn : ¬ (r.method = .UNKNOWN ∨ r.version = .UNKNOWN) := by simp [hm, hv]
  refine ⟨methodToStr r.method ++ b!" " ++ routeToString o r.route ++ b!" " ++ versionToStr r.version ++ crlf ++
      headerToString o (reqBuildHeader r), ?_, ?_, ?_⟩
  · simp only [reqBuild, if_neg hn]
  · simp only [reqBuildAt, if_neg hn, ReqPlace.set, ReqPlace.get]
  · simp only [reqBuildAt, reqBuild, if_neg hn, ReqPlace.set, ReqPlace.get, List.append_cancel_left_eq]
    exact eq_comm

/-- **C178** (what holds of `HttpReq::Build`): it can put its text into one of the parameters of the request. -/
theorem C178_build_partial (o : HashOrder) (r : HttpReq) (old : Str) (k : Str) (hm : r.method ≠ .UNKNOWN) (hv : r.version ≠ .UNKNOWN) :
    routeGetParam (reqBuildAt o (.param k) r).1.route k = (reqBuild o r old).2.1 ∧ (reqBuildAt o (.param k) r).2 = kSuccess := by
  have hn : ¬ (r.method = .UNKNOWN ∨ r.version = .UNKNOWN) := by simp [hm, hv]
  simp [reqBuildAt, reqBuild, if_neg hn, ReqPlace.set, ReqPlace.get, routeGetParam]

/-- **C178 is false** for `HttpResp::Build(resp.body())`: the body is cleared, what is announced is the length of the status line, and the
text is twice the status line with the headers.  The body is lost. -/
theorem C178_response_build_refuted (o : HashOrder) (r : HttpResp) (hs : r.status ≠ .UNKNOWN) :
    ∃ head, (respBuildAt o .body r).1.body = head ++ head ∧
      ∀ r' : HttpResp, r'.status = r.status → r'.version = r.version → r'.header = r.header → respBuildAt o .body r' = respBuildAt o .body r := by
  refine ⟨versionToStr r.version ++ b!" " ++ (intToStr (statusNum r.status) ++ b!" " ++ statusToStr r.status ++ crlf) ++
    headerToString o (headerSetContentLength r.header (toInt32 (versionToStr r.version ++ b!" " ++
      (intToStr (statusNum r.status) ++ b!" " ++ statusToStr r.status ++ crlf)).length)), ?_, ?_⟩
  · simp only [respBuildAt, if_neg hs, RespPlace.set, RespPlace.get, List.nil_append]
  · intro r' h1 h2 h3
    simp only [respBuildAt, if_neg hs, RespPlace.set, RespPlace.get, List.nil_append, h1, h2, h3]

/-- A response to a copy and to its own body. -/
example : (respBuild .insertion { status := .OK, body := b!"hello" } []).2.1 = b!"HTTP/1.1 200 OK\r\nContent-Length: 5\r\n\r\nhello" ∧
    (respBuildAt .insertion .body { status := .OK, body := b!"hello" }).1.body =
      b!"HTTP/1.1 200 OK\r\nContent-Length: 17\r\n\r\nHTTP/1.1 200 OK\r\nContent-Length: 17\r\n\r\n" := by decide +kernel

/-- **C178** (what holds of `POST` and the helpers of a response): they can be given any text of the object itself, except for the body or
the content type in `Redirect` and the content type in `BadRequest` and `InternalServerError`. -/
theorem C178_helpers_partial :
    (∀ (r : HttpReq) (o : HashOrder) (p p' : ReqPlace),
      reqPOSTArg (fun r' => p.get r') (fun r' => p'.get r') r = reqPOST o r (p.get r) (p'.get r) UMap.empty) ∧
    ∀ (r : HttpResp) (h : RespHelper) (p : RespPlace),
      (∀ f, h = .redirect f → p ≠ .body) →
      ((∃ f, h = .redirect f) ∨ h = .badRequest ∨ h = .internalServerError → p ≠ .header b!"Content-Type") →
      h.callArg (fun r' => p.get r') r = h.call r (p.get r) := by
  constructor
  · intro r o p p'
    have : o.order UMap.empty = [] := (UMap.order_eq_nil o _).2 rfl
    cases p <;> cases p' <;> simp [reqPOSTArg, reqPOST, ReqPlace.get, this, routeGetParam]
  · intro r h p h1 h2
    cases p with
    | body =>
      cases h with
      | redirect f => exact absurd rfl (h1 f rfl)
      | _ => rfl
    | header k =>
      have hk : ∀ (h : HttpHeader) v, k ≠ b!"Content-Type" → headerGet (h.set b!"Content-Type" v) k = headerGet h k := by
        intro h v hk
        unfold headerGet
        rw [UMap.get_set_ne _ _ hk]
      cases h with
      | redirect f =>
        have := h2 (.inl ⟨f, rfl⟩)
        have hne : k ≠ b!"Content-Type" := fun e => this (by rw [e])
        cases f <;> simp only [RespHelper.callArg, RespHelper.call, respRedirect, RespPlace.get, respType, if_true, Bool.false_eq_true, if_false, hk _ _ hne]
      | badRequest =>
        have := h2 (.inr (.inl rfl))
        have hne : k ≠ b!"Content-Type" := fun e => this (by rw [e])
        simp only [RespHelper.callArg, RespHelper.call, respBadRequest, RespPlace.get, respType, hk _ _ hne]
      | internalServerError =>
        have := h2 (.inr (.inr rfl))
        have hne : k ≠ b!"Content-Type" := fun e => this (by rw [e])
        simp only [RespHelper.callArg, RespHelper.call, respInternalServerError, RespPlace.get, respType, hk _ _ hne]
      | _ => rfl

/-- **C178 is false** for these: a redirect to the text of the body goes to the HTML page that `Redirect` itself stores, and the body of an
error that shows the content type shows `text/html`. -/
theorem C178_helpers_refuted (r : HttpResp) :
    (∀ f, headerGet (RespHelper.callArg (fun r' => RespPlace.body.get r') r (.redirect f)).header b!"Location" =
      if f then b!"<html><body><h1>301 Moved Permanently</h1></body></html>" else b!"<html><body><h1>302 Found</h1></body></html>") ∧
    (RespHelper.callArg (fun r' => (RespPlace.header b!"Content-Type").get r') r .badRequest).body = b!"text/html" ∧
    (RespHelper.callArg (fun r' => (RespPlace.header b!"Content-Type").get r') r .internalServerError).body = b!"text/html" := by
  refine ⟨fun f => ?_, ?_, ?_⟩
  · cases f <;> simp [RespHelper.callArg, RespPlace.get, respType, headerGet, headerAdd]
  · simp [RespHelper.callArg, RespPlace.get, respType, headerGet]
  · simp [RespHelper.callArg, RespPlace.get, respType, headerGet]

/-- The exceptions of `C178_helpers_partial` do not cover everything: a text is sent back as it came. -/
example : RespHelper.callArg (fun r' => (RespPlace.header b!"X").get r') { header := UMap.empty.set b!"X" b!"y" } .badRequest =
    respBadRequest { header := UMap.empty.set b!"X" b!"y" } b!"y" := by decide +kernel
/-- The hypotheses of `C178_request_header_partial` and `C178_route_partial`. -/
example : (reqParse { header := UMap.empty.set b!"X" b!"GET /a HTTP/1.1\r\nHost: h\r\n\r\n" } b!"GET /a HTTP/1.1\r\nHost: h\r\n\r\n"
      |>.toOption.map fun x => headerGet x.1.header b!"X") = some b!"GET /a HTTP/1.1\r\nHost: h\r\n\r\n" ∧
    (routeParse { params := UMap.empty.set b!"a" b!"/p?b=1" } b!"/p?b=1" |>.toOption.map fun x => (routeGetParam x.1 b!"a", x.2)) =
      some (b!"/p?b=1", kSuccess) := by decide +kernel

end Cppnet
