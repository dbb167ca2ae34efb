import Verif.Spec.ErrText
import Verif.Props.Req
import Verif.Props.Resp
import Verif.Props.Serve

/-!
# C151: a message that cannot be parsed or built says why
-/

namespace Cppnet
open Spec

/-! ### Without the texts these are the parsers of the other files -/

theorem headerParseLinesE_forget (ls : List Str) : ∀ (h : HttpHeader) (e : Str),
    (headerParseLinesE h e ls).map (fun x => (x.1, x.2.2)) = headerParseLines h ls := by
  induction ls with
  | nil => intro h e; rfl
  | cons it ls ih =>
    intro h e
    simp only [headerParseLinesE, headerParseLines]
    cases find it b!":" with
    | none => rfl
    | some pos =>
      simp only [bind, Except.bind]
      cases substr it 0 pos with
      | error _ => rfl
      | ok key =>
        simp only
        cases substrFrom it (pos + 1) with
        | error _ => rfl
        | ok tail =>
          simp only
          cases substrFrom it (szAdd (szAdd pos 1) (posOrNpos (findFirstNotOf 32 tail))) with
          | error _ => rfl
          | ok v => exact ih _ _

theorem headerParseE_forget (h : HttpHeader) (e s : Str) :
    (headerParseE h e s).map (fun x => (x.1, x.2.2)) = headerParse h s := by
  unfold headerParseE headerParse
  by_cases hs : s = []
  · simp [hs, Except.map]
  · simp only [hs, if_false, bind, Except.bind]
    cases Split s crlf [] false with
    | error _ => rfl
    | ok l => exact headerParseLinesE_forget l h e

theorem routeParseE_forget (r : HttpRoute) (e s : Str) :
    (routeParseE r e s).map (fun x => (x.1, x.2.2)) = routeParse r s := by
  unfold routeParseE
  by_cases hs : s = []
  · subst hs; simp [routeParse, Except.map]
  · simp only [hs, if_false, bind, Except.bind]
    cases routeParse r s with
    | error _ => rfl
    | ok x => rfl

theorem reqParseE_forget (r : HttpReq) (e : ReqErr) (s : Str) :
    (reqParseE r e s).map (fun x => (x.1, x.2.2)) = reqParse r s := by
  unfold reqParseE reqParse
  by_cases hs : s = []
  · simp [hs, Except.map]
  simp only [hs, if_false]
  cases find s crlf2 with
  | none => rfl
  | some he =>
    cases find s crlf with
    | none => rfl
    | some le =>
      simp only [bind, Except.bind]
      cases substr s (le + 2) he with
      | error _ => rfl
      | ok region =>
        simp only
        rw [← headerParseE_forget r.header e.header region]
        cases headerParseE r.header e.header region with
        | error _ => rfl
        | ok x =>
          obtain ⟨h, eh, rc⟩ := x
          simp only [Except.map]
          by_cases hrc : rc = 0
          · simp [hrc]
          simp only [hrc, if_false]
          cases substrFrom s (he + 4) with
          | error _ => rfl
          | ok body =>
            simp only
            cases substr s 0 le with
            | error _ => rfl
            | ok fl =>
              simp only
              cases Split fl b!" " [] false with
              | error _ => rfl
              | ok parts =>
                simp only
                match parts with
                | [] => rfl
                | [_] => rfl
                | [_, _] => rfl
                | _ :: _ :: _ :: _ :: _ => rfl
                | [m, t, v] =>
                  simp only
                  by_cases hm : methodOfStr m = .UNKNOWN
                  · simp [hm]
                  simp only [hm, if_false]
                  rw [← routeParseE_forget r.route e.route t]
                  cases routeParseE r.route e.route t with
                  | error _ => rfl
                  | ok y =>
                    obtain ⟨ro, er, rc'⟩ := y
                    simp only [Except.map]
                    by_cases h1 : rc' = kSuccess
                    · simp only [h1, ne_eq, not_true, if_false]
                      by_cases h2 : versionOfStr v = .UNKNOWN
                      · simp [h2]
                      · simp [h2]
                    · simp [h1]

theorem respParseE_forget (r : HttpResp) (e : RespErr) (s : Str) :
    (respParseE r e s).map (fun x => (x.1, x.2.2)) = respParse r s := by
  unfold respParseE respParse
  by_cases hs : s = []
  · simp [hs, Except.map]
  simp only [hs, if_false]
  cases find s crlf with
  | none => rfl
  | some pos =>
    simp only [bind, Except.bind]
    cases substr s 0 pos with
    | error _ => rfl
    | ok fl =>
      simp only
      cases substr s (pos + 2) (szSub (szSub (posOrNpos (find s crlf2)) pos) 2) with
      | error _ => rfl
      | ok hd =>
        simp only
        cases substrFrom s (szAdd (posOrNpos (find s crlf2)) 4) with
        | error _ => rfl
        | ok body =>
          simp only
          cases find fl b!" " with
          | none => rfl
          | some sp1 =>
            simp only
            cases find fl b!" " (sp1 + 1) with
            | none => rfl
            | some sp2 =>
              simp only
              cases substr fl 0 sp1 with
              | error _ => rfl
              | ok v =>
                simp only
                cases substr fl (sp1 + 1) (sp2 - sp1 - 1) with
                | error _ => rfl
                | ok ct =>
                  simp only
                  cases substrFrom fl (sp2 + 1) with
                  | error _ => rfl
                  | ok _ =>
                    simp only
                    cases stoi ct with
                    | error _ => rfl
                    | ok code =>
                      simp only
                      rw [← headerParseE_forget r.header e.header hd]
                      cases headerParseE r.header e.header hd with
                      | error _ => rfl
                      | ok x =>
                        obtain ⟨h, eh, rc⟩ := x
                        simp only [Except.map]
                        by_cases h1 : rc = kSuccess
                        · simp [h1]
                        · simp [h1]

/-! ### Requests -/

theorem method_unknown {m : Str} : methodOfStr m = .UNKNOWN ↔ ∀ me, (me, m) ∉ methodTable := by
  rw [C13_methods.2.2.2 m]
  constructor
  · intro h me hm; exact h me m hm rfl
  · intro h me n hmn he; subst he; exact h me hmn

theorem version_unknown {v : Str} : versionOfStr v = .UNKNOWN ↔ ∀ ve, (ve, v) ∉ versionTable := by
  rw [C13_versions.2.2.2 v]
  constructor
  · intro h me hm; exact h me v hm rfl
  · intro h me n hmn he; subst he; exact h me hmn

theorem method_known {m : Str} (h : methodOfStr m ≠ .UNKNOWN) : ∃ me, (me, m) ∈ methodTable := by
  apply Classical.byContradiction
  intro hn
  exact h (method_unknown.2 fun me hm => hn ⟨me, hm⟩)

/-- http_req.cpp:35-59 applied to the first line, with the messages. -/
def reqTailE (r : HttpReq) (e : ReqErr) (line : Str) : Out (HttpReq × ReqErr × Int) :=
  match split b!" " line with
  | [m, target, v] => do
    let r := { r with method := methodOfStr m }
    if r.method = .UNKNOWN then .ok (r, { e with own := b!"[logicerr]:invalid http method" }, kLogicErr)
    else do
      let (route, er, rc) ← routeParseE r.route e.route target
      let r := { r with route }
      let e := { e with route := er }
      if rc ≠ kSuccess then .ok (r, { e with own := e.route }, kLogicErr)
      else
        let r := { r with version := versionOfStr v }
        if r.version = .UNKNOWN then .ok (r, { e with own := b!"[logicerr]:invalid http version" }, kLogicErr)
        else .ok (r, e, kSuccess)
  | _ => .ok (r, { e with own := b!"[logicerr]:invalid http request" }, kLogicErr)

theorem reqParseE_message (r : HttpReq) (e : ReqErr) {s line : Str} {ls : List Str} {body : Str}
    (h : MessageText s line ls body) (hf : Fits s) :
    ∃ eh, reqParseE r e s =
      reqTailE { r with header := r.header.setAll ((goodLines ls).map codeField), body := body } { e with header := eh } line := by
  have hreg := req_region (r := r.header) h hf
  have h1 := crlf2_of_message h
  have h2 := crlf_of_message h
  obtain ⟨rfl, h3, h4⟩ := messageText_iff.1 h
  have hne : line ++ crlf ++ (terminated ls ++ (crlf ++ body)) ≠ [] := by simp [crlf]
  have hlen : (line ++ crlf ++ (terminated ls ++ (crlf ++ body))).length =
      line.length + 2 + ((terminated ls).length + (2 + body.length)) := by simp [crlf]; omega
  have hbody : (line ++ crlf ++ (terminated ls ++ (crlf ++ body))).drop
      (line.length + (terminated ls).length + 4) = body := by
    have : line ++ crlf ++ (terminated ls ++ (crlf ++ body)) =
      (line ++ crlf ++ terminated ls ++ crlf) ++ body := by simp
    rw [this, List.drop_append_of_le_length (by simp [crlf]; omega),
      List.drop_of_length_le (by simp [crlf]; omega)]
    simp
  have hline : ((line ++ crlf ++ (terminated ls ++ (crlf ++ body)))).take line.length = line := by
    simp
  rw [← headerParseE_forget r.header e.header] at hreg
  cases hh : headerParseE r.header e.header
      (((line ++ crlf ++ (terminated ls ++ (crlf ++ body))).drop (line.length + 2)).take
        (line.length + (terminated ls).length)) with
  | error f => rw [hh] at hreg; cases hreg
  | ok x =>
    obtain ⟨hd, eh, rc⟩ := x
    rw [hh] at hreg
    simp only [Except.map, Except.ok.injEq, Prod.mk.injEq] at hreg
    obtain ⟨rfl, rfl⟩ := hreg
    refine ⟨eh, ?_⟩
    unfold reqParseE
    simp only [hne, if_false, h1, h2]
    rw [substr_ok (by omega)]
    simp only [bind, Except.bind, hh]
    rw [if_neg (by decide)]
    rw [substrFrom_ok (by omega)]
    simp only [hbody, substr_ok (Nat.zero_le _), List.drop_zero, hline, Split_eq (d := b!" ") (by simp),
      List.nil_append]
    rfl

theorem message_line {s line line' : Str} {ls ls' : List Str} {body body' : Str} (h : MessageText s line ls body)
    (h' : MessageText s line' ls' body') : line' = line := by
  have a := crlf_of_message h
  rw [crlf_of_message h'] at a
  have hl : line'.length = line.length := by injection a
  have e1 : s.take line.length = line := by obtain ⟨rfl, _⟩ := messageText_iff.1 h; simp
  have e2 : s.take line'.length = line' := by obtain ⟨rfl, _⟩ := messageText_iff.1 h'; simp
  rw [← e1, ← e2, hl]

theorem routeParse_rc {r r' : HttpRoute} {t : Str} {rc : Int} (h : routeParse r t = .ok (r', rc)) (ht : t ≠ []) : rc = kSuccess := by
  unfold routeParse at h
  simp only [ht, if_false, bind, Except.bind] at h
  repeat' split at h
  all_goals first | (cases h; rfl) | cases h

/-- C151, requests: whenever Parse returns, whatever the text, the request object and the messages before: after an error
`err_msg()` names what is wrong with the text; after success nothing is, and the message is left as it was. -/
theorem C151_request (r r' : HttpReq) (e e' : ReqErr) (s : Str) (rc : Int) (hf : Fits s)
    (h : reqParseE r e s = .ok (r', e', rc)) :
    (rc = kSuccess → e'.own = e.own ∧ ∀ t, ¬ ReqReason s t) ∧ (rc ≠ kSuccess → ReqReason s e'.own) := by
  by_cases hocc : Occurs crlf2 s
  · obtain ⟨line, ls, body, hm⟩ := message_exists hocc
    obtain ⟨eh, he⟩ := reqParseE_message r e hm hf
    rw [he] at h
    unfold reqTailE at h
    by_cases h3 : ∃ m t v, split b!" " line = [m, t, v]
    · obtain ⟨m, t, v, hs⟩ := h3
      have htt := three_of_split hs
      have uniq : ∀ m' t' v', ThreeTokens line m' t' v' → m' = m ∧ t' = t ∧ v' = v := by
        intro m' t' v' h'
        have := split_three h'
        rw [hs] at this
        simp at this
        exact ⟨this.1.symm, this.2.1.symm, this.2.2.symm⟩
      rw [hs] at h
      simp only [bind, Except.bind] at h
      by_cases hme : methodOfStr m = .UNKNOWN
      · simp only [hme, if_true] at h
        cases h
        exact ⟨fun hc => absurd hc (by decide), fun _ => .method hm htt (method_unknown.1 hme)⟩
      obtain ⟨me, hmem⟩ := method_known hme
      simp only [hme, if_false] at h
      by_cases ht : t = []
      · subst ht
        simp only [routeParseE, if_true] at h
        rw [if_pos (by decide)] at h
        cases h
        exact ⟨fun hc => absurd hc (by decide), fun _ => .path hm htt hmem⟩
      simp only [routeParseE, ht, if_false, bind, Except.bind] at h
      cases hr : routeParse r.route t with
      | error f => rw [hr] at h; cases h
      | ok x =>
        obtain ⟨ro, rc1⟩ := x
        rw [hr] at h
        simp only at h
        have := routeParse_rc hr ht
        subst this
        simp only [ne_eq, not_true, if_false] at h
        by_cases hv : versionOfStr v = .UNKNOWN
        · simp only [hv, if_true] at h
          cases h
          exact ⟨fun hc => absurd hc (by decide), fun _ => .version hm htt hmem ht (version_unknown.1 hv)⟩
        · simp only [hv, if_false] at h
          cases h
          refine ⟨fun _ => ⟨rfl, ?_⟩, fun hc => absurd rfl hc⟩
          intro txt hx
          cases hx with
          | empty h0 => subst h0; rw [occurs_iff_infix] at hocc; simp [crlf2] at hocc
          | unfinished _ h0 => exact h0 hocc
          | tokens hm' h0 => rw [message_line hm hm'] at h0; exact h0 m t v htt
          | method hm' ht' h0 =>
            rw [message_line hm hm'] at ht'
            obtain ⟨rfl, rfl, rfl⟩ := uniq _ _ _ ht'
            exact h0 me hmem
          | path hm' ht' _ =>
            rw [message_line hm hm'] at ht'
            exact ht (uniq _ _ _ ht').2.1.symm
          | version hm' ht' _ _ h0 =>
            rw [message_line hm hm'] at ht'
            obtain ⟨rfl, rfl, rfl⟩ := uniq _ _ _ ht'
            exact hv (version_unknown.2 h0)
    · have hno : ∀ m t v, ¬ ThreeTokens line m t v := fun m t v h' => h3 ⟨m, t, v, split_three h'⟩
      split at h
      · rename_i m t v hs; exact absurd ⟨m, t, v, hs⟩ h3
      · cases h
        exact ⟨fun hc => absurd hc (by decide), fun _ => .tokens hm hno⟩
  · unfold reqParseE at h
    by_cases hs : s = []
    · rw [if_pos hs] at h
      cases h
      exact ⟨fun hc => absurd hc (by decide), fun _ => .empty hs⟩
    · rw [if_neg hs, find_zero, findAux_none.2 (by rwa [occurs_iff_infix] at hocc)] at h
      cases h
      exact ⟨fun hc => absurd hc (by decide), fun _ => .unfinished hs hocc⟩

/-- The messages of requests that go wrong in different ways, the last one after an earlier failure of the same object. -/
example : ((reqParseE {} {} b!"GET  HTTP/1.1\r\nHost: a\r\n\r\n").map (·.2.1.own),
      (reqParseE {} {} b!"GIVE / HTTP/1.1\r\nHost: a\r\n\r\n").map (·.2.1.own),
      (reqParseE {} { own := b!"path is empty" } b!"GET / HTTP/1.1\r\nHost: a\r\n\r\n").map (fun x => (x.2.1.own, x.2.2))) =
    (.ok b!"path is empty", .ok b!"[logicerr]:invalid http method", .ok (b!"path is empty", kSuccess)) := by decide +kernel

/-- C151, building a request: Build fails exactly if the method or the version is not set, and then says so; otherwise it leaves
the message alone. -/
theorem C151_request_build (o : HashOrder) (r : HttpReq) (old e : Str) :
    ((reqBuild o r old).2.2 ≠ kSuccess → reqBuildErr r e = b!"[logicerr]:invalid http request") ∧
    ((reqBuild o r old).2.2 = kSuccess → reqBuildErr r e = e) ∧
    ((reqBuild o r old).2.2 ≠ kSuccess ↔ r.method = .UNKNOWN ∨ r.version = .UNKNOWN) := by
  unfold reqBuild reqBuildErr
  by_cases h : r.method = .UNKNOWN ∨ r.version = .UNKNOWN
  · simp [h, kLogicErr, kSuccess]
  · simp [h]

example : (reqBuild .insertion {} []).2.2 = kLogicErr ∧ (reqBuild .insertion { method := .GET } []).2.2 = kSuccess := by
  decide +kernel

/-- C151, building a response: Build fails exactly if no status was set, and then says so. -/
theorem C151_response_build (o : HashOrder) (r : HttpResp) (old e : Str) :
    ((respBuild o r old).2.2 ≠ kSuccess → respBuildErr r e = b!"status code is unknown") ∧
    ((respBuild o r old).2.2 = kSuccess → respBuildErr r e = e) ∧
    ((respBuild o r old).2.2 ≠ kSuccess ↔ r.status = .UNKNOWN) := by
  unfold respBuild respBuildErr
  by_cases h : r.status = .UNKNOWN
  · simp [h, kLogicErr, kSuccess]
  · simp [h]

example : (respBuild .insertion {} []).2.2 = kLogicErr ∧ (respBuild .insertion { status := .OK } []).2.2 = kSuccess := by
  decide +kernel

/-! ### Responses -/

theorem headerParseLinesE_text (ls : List Str) : ∀ (h h' : HttpHeader) (e e' : Str) (rc : Int),
    headerParseLinesE h e ls = .ok (h', e', rc) →
      (rc = kSuccess → e' = e) ∧ (rc ≠ kSuccess → e' = b!"header format error") := by
  induction ls with
  | nil => intro h h' e e' rc hx; cases hx; simp
  | cons it ls ih =>
    intro h h' e e' rc hx
    simp only [headerParseLinesE, bind, Except.bind] at hx
    repeat' split at hx
    all_goals first | (cases hx; done) | skip
    · cases hx; exact ⟨fun hc => absurd hc (by decide), fun _ => rfl⟩
    · exact ih _ _ _ _ _ hx

/-- The header parser's message, and when it is written. -/
theorem headerParseE_text {h h' : HttpHeader} {e e' s : Str} {rc : Int} (hf : Fits s)
    (hx : headerParseE h e s = .ok (h', e', rc)) :
    (rc = kSuccess → e' = e ∧ s ≠ [] ∧ ∀ p ∈ split crlf s, 58 ∈ p) ∧
    (rc ≠ kSuccess → (s = [] ∧ e' = b!"header is empty") ∨
      (s ≠ [] ∧ e' = b!"header format error" ∧ ∃ p ∈ split crlf s, 58 ∉ p)) := by
  have hfg := headerParseE_forget h e s
  rw [hx] at hfg
  unfold headerParseE at hx
  by_cases hs : s = []
  · rw [if_pos hs] at hx
    cases hx
    exact ⟨fun hc => absurd hc (by decide), fun _ => Or.inl ⟨hs, rfl⟩⟩
  · rw [if_neg hs] at hx
    rw [headerParse_eq h s hs hf] at hfg
    simp only [Except.map, Except.ok.injEq, Prod.mk.injEq] at hfg
    simp only [bind, Except.bind] at hx
    split at hx
    · cases hx
    · have ht := headerParseLinesE_text _ _ _ _ _ _ hx
      by_cases hall : ∀ l ∈ split crlf s, 58 ∈ l
      · rw [if_pos hall] at hfg
        exact ⟨fun hc => ⟨ht.1 hc, hs, hall⟩, fun hc => absurd hfg.2 hc⟩
      · rw [if_neg hall] at hfg
        refine ⟨fun hc => by rw [hc] at hfg; exact absurd hfg.2 (by decide), fun hc => Or.inr ⟨hs, ht.2 hc, ?_⟩⟩
        apply Classical.byContradiction
        intro hn
        exact hall fun l hl => Classical.byContradiction fun h0 => hn ⟨l, hl, h0⟩

theorem statusLine_unique {line v c p v' c' p' : Str} (h : StatusLine line v c p) (h' : StatusLine line v' c' p') :
    v' = v ∧ c' = c := by
  obtain ⟨e, h1, h2⟩ := h
  obtain ⟨e', h1', h2'⟩ := h'
  have a : before 32 line = v := by
    rw [e, show v ++ b!" " ++ c ++ b!" " ++ p = v ++ 32 :: (c ++ 32 :: p) by simp, before_append h1]
  have a' : before 32 line = v' := by
    rw [e', show v' ++ b!" " ++ c' ++ b!" " ++ p' = v' ++ 32 :: (c' ++ 32 :: p') by simp, before_append h1']
  have b : after 32 line = c ++ 32 :: p := by
    rw [e, show v ++ b!" " ++ c ++ b!" " ++ p = v ++ 32 :: (c ++ 32 :: p) by simp, after_append h1]
  have b' : after 32 line = c' ++ 32 :: p' := by
    rw [e', show v' ++ b!" " ++ c' ++ b!" " ++ p' = v' ++ 32 :: (c' ++ 32 :: p') by simp, after_append h1']
  refine ⟨by rw [← a, ← a'], ?_⟩
  rw [← before_append (v := p) h2, ← before_append (v := p') h2', ← b, ← b']

theorem firstLine_unique {s line line' : Str} (h : FirstLine s line) (h' : FirstLine s line') : line' = line := by
  obtain ⟨rest, e, hc⟩ := h
  obtain ⟨rest', e', hc'⟩ := h'
  rw [occurs_iff_infix] at hc hc'
  have a : find s crlf = some line.length := by rw [e, find_zero]; exact find_crlf_append hc
  have a' : find s crlf = some line'.length := by rw [e', find_zero]; exact find_crlf_append hc'
  rw [a] at a'
  have hl : line.length = line'.length := by injection a'
  have e1 : s.take line.length = line := by rw [e]; simp
  have e2 : s.take line'.length = line' := by rw [e']; simp
  rw [← e1, ← e2, hl]

theorem message_first {s line : Str} {ls : List Str} {body : Str} (h : MessageText s line ls body) : FirstLine s line := by
  obtain ⟨e, h1, _⟩ := h
  exact ⟨(ls.map (· ++ crlf)).flatten ++ crlf ++ body, by rw [e]; simp, h1⟩

theorem message_hdrs_nil {s line line' : Str} {ls : List Str} {body body' : Str} (h : MessageText s line [] body)
    (h' : MessageText s line' ls body') : ls = [] := by
  have a := crlf2_of_message h
  rw [crlf2_of_message h', message_line h h'] at a
  have hl : line.length + (terminated ls).length = line.length + (terminated []).length := by injection a
  cases ls with
  | nil => rfl
  | cons l ls => simp [terminated_cons, crlf] at hl; simp [terminated] at hl

theorem message_hdrs {s line line' : Str} {ls ls' : List Str} {body body' : Str} (h : MessageText s line ls body)
    (h' : MessageText s line' ls' body') (hne : ls ≠ []) : ls' = ls := by
  have hne' : ls' ≠ [] := fun e => hne (message_hdrs_nil (by rw [e] at h'; exact h') h)
  have e0 := message_line h h'
  subst e0
  have a := crlf2_of_message h
  rw [crlf2_of_message h'] at a
  have hl : (terminated ls').length = (terminated ls).length := by
    injection a with a; omega
  obtain ⟨e1, _, c1⟩ := messageText_iff.1 h
  obtain ⟨e2, _, c2⟩ := messageText_iff.1 h'
  have e3 := e1.symm.trans e2
  have e4 := List.append_cancel_left e3
  have e5 := (List.append_inj e4 hl.symm).1
  rw [joinWith_terminated hne, joinWith_terminated hne'] at e5
  have e6 := List.append_cancel_right e5
  rw [← split_joined hne c1, ← split_joined hne' c2, e6]

/-- The text HttpResp::Parse gives to the header parser: the header lines, if there are any, otherwise everything after the
first line. -/
theorem resp_header_text {s line rest : Str} (e : s = line ++ crlf ++ rest) (hc : ¬ Occurs crlf line) (hf : Fits s) :
    ∃ hd, substr s (line.length + 2) (szSub (szSub (posOrNpos (find s crlf2)) line.length) 2) = .ok hd ∧ Fits hd ∧
      ((∃ hdrs body, hdrs ≠ [] ∧ MessageText s line hdrs body ∧ hd = joinWith crlf hdrs ∧ split crlf hd = hdrs) ∨
       ((∀ hdrs body, hdrs ≠ [] → ¬ MessageText s line hdrs body) ∧ hd = rest)) := by
  have hlen : s.length = line.length + 2 + rest.length := by rw [e]; simp [crlf]; omega
  have hdrop : s.drop (line.length + 2) = rest := by
    rw [e, List.drop_append_of_le_length (by simp [crlf]), List.drop_of_length_le (by simp [crlf])]; simp
  rw [substr_ok (by omega), hdrop]
  refine ⟨_, rfl, by unfold Fits at hf ⊢; simp only [List.length_take]; omega, ?_⟩
  have hcc : ¬ crlf <:+: line := by rwa [occurs_iff_infix] at hc
  by_cases hocc : Occurs crlf2 s
  · obtain ⟨line', ls, body, hm⟩ := message_exists hocc
    have : line' = line := firstLine_unique ⟨rest, e, hc⟩ (message_first hm)
    subst this
    have h1 := crlf2_of_message hm
    obtain ⟨e1, _, c1⟩ := messageText_iff.1 hm
    have hrest : rest = terminated ls ++ (crlf ++ body) := List.append_cancel_left (e.symm.trans e1)
    unfold Fits at hf
    by_cases hls : ls = []
    · right
      subst hls
      refine ⟨fun hdrs b hne hm' => hne (message_hdrs_nil hm hm'), ?_⟩
      apply List.take_of_length_le
      rw [h1]
      simp only [posOrNpos, szSub, terminated, List.map_nil, List.flatten_nil, List.length_nil]
      omega
    · left
      refine ⟨ls, body, hls, hm, ?_, ?_⟩ <;>
      · have hterm := joinWith_terminated hls
        have hlt : (terminated ls).length = (joinWith crlf ls).length + 2 := by rw [hterm]; simp [crlf]
        have e1 : szSub (szSub (posOrNpos (some (line'.length + (terminated ls).length))) line'.length) 2 =
            (joinWith crlf ls).length := by
          have : (terminated ls).length ≤ rest.length := by rw [hrest]; simp
          simp only [posOrNpos, szSub]; omega
        rw [h1, e1, hrest, hterm]
        simp [split_joined hls c1]
  · right
    refine ⟨fun hdrs b _ hm => hocc (occurs_of_message hm), ?_⟩
    rw [occurs_iff_infix] at hocc
    rw [find_zero, findAux_none.2 hocc]
    apply List.take_of_length_le
    unfold Fits at hf
    simp only [posOrNpos, szSub, npos]
    omega

/-- C151, responses: whenever Parse returns, whatever the text, the response object and the messages before: after an error
`err_msg()` names what is wrong with the text; after success nothing is, and the message is left as it was. -/
theorem C151_response (r r' : HttpResp) (e e' : RespErr) (s : Str) (rc : Int) (hf : Fits s)
    (h : respParseE r e s = .ok (r', e', rc)) :
    (rc = kSuccess → e'.own = e.own ∧ ∀ t, ¬ RespReason s t) ∧ (rc ≠ kSuccess → RespReason s e'.own) := by
  unfold respParseE at h
  by_cases hs : s = []
  · rw [if_pos hs] at h
    cases h
    exact ⟨fun hc => absurd hc (by decide), fun _ => .empty hs⟩
  rw [if_neg hs] at h
  cases hp : find s crlf with
  | none =>
    rw [hp] at h
    cases h
    refine ⟨fun hc => absurd hc (by decide), fun _ => .noLine hs ?_⟩
    rw [find_zero] at hp
    rw [occurs_iff_infix]; exact findAux_none.1 hp
  | some pos =>
    rw [hp] at h
    rw [find_zero] at hp
    obtain ⟨line, rest, es, rfl, hcl⟩ := (findAux_some_iff (by simp [crlf])).1 hp
    have hcl' : ¬ Occurs crlf line := by
      rw [occurs_iff_infix]; intro hi; exact hcl (hi.trans (List.prefix_append _ _).isInfix)
    have hfl : FirstLine s line := ⟨rest, es, hcl'⟩
    obtain ⟨hd, hsub, hfh, hshape⟩ := resp_header_text es hcl' hf
    have htake : s.take line.length = line := by rw [es]; simp
    simp only [bind, Except.bind, substr_ok (Nat.zero_le _), List.drop_zero, htake, hsub] at h
    split at h
    · cases h
    rename_i body hbody
    cases h1 : find line b!" " with
    | none =>
      rw [h1] at h
      cases h
      refine ⟨fun hc => absurd hc (by decide), fun _ => .tokens hfl ?_⟩
      rintro v c p ⟨e0, _, _⟩
      rw [find_zero, e0] at h1
      exact findAux_none.1 h1 (singleton_infix.2 (by simp))
    | some a =>
      cases h2 : find line b!" " (a + 1) with
      | none =>
        simp only [h1, h2] at h
        cases h
        refine ⟨fun hc => absurd hc (by decide), fun _ => .tokens hfl ?_⟩
        rintro v c p ⟨e0, g1, g2⟩
        have e0' : line = v ++ 32 :: (c ++ 32 :: p) := by rw [e0]; simp
        have f1 : find line b!" " = some v.length := by
          rw [e0', find_zero]; exact findAux_byte_append g1
        rw [f1] at h1
        cases h1
        have hd' : line.drop (v.length + 1) = c ++ 32 :: p := by rw [e0', List.drop_append]; simp
        rw [find_eq (by rw [e0']; simp), hd', findAux_byte_append g2] at h2
        cases h2
      | some b =>
        obtain ⟨v, c, p, hsl⟩ := statusLine_of_find h1 h2
        have hsl' := hsl
        obtain ⟨e0, g1, g2⟩ := hsl
        have e0' : line = v ++ 32 :: (c ++ 32 :: p) := by rw [e0]; simp
        have f1 : find line b!" " = some v.length := by
          rw [e0', find_zero]; exact findAux_byte_append g1
        have hd' : line.drop (v.length + 1) = c ++ 32 :: p := by rw [e0', List.drop_append]; simp
        have hll : line.length = v.length + 1 + (c.length + 1 + p.length) := by rw [e0']; simp; omega
        have f2 : find line b!" " (v.length + 1) = some (v.length + 1 + c.length) := by
          rw [find_eq (by omega), hd', findAux_byte_append g2]; rfl
        have e2 : v.length + 1 + c.length - v.length - 1 = c.length := by omega
        simp only [f1, f2] at h
        rw [substr_ok (by omega), substrFrom_ok (by omega), hd', e2] at h
        simp only [List.take_left'] at h
        cases hst : stoi c with
        | error f =>
          rw [hst] at h
          cases h
          refine ⟨fun hc => absurd hc (by decide), fun _ => .code hfl hsl' ?_⟩
          intro n hn1 hn2 hnum
          rw [stoi_of_numeral hnum, if_pos ⟨hn1, hn2⟩] at hst
          cases hst
        | ok code =>
          rw [hst] at h
          simp only at h
          have hnum := numeral_of_stoi hst
          cases hh : headerParseE r.header e.header hd with
          | error f => rw [hh] at h; cases h
          | ok x =>
            obtain ⟨h', eh, rc'⟩ := x
            rw [hh] at h
            simp only at h
            have ht := headerParseE_text hfh hh
            by_cases hrc : rc' = kSuccess
            · rw [if_neg (by simpa using hrc)] at h
              cases h
              obtain ⟨_, hne, hall⟩ := ht.1 hrc
              refine ⟨fun _ => ⟨rfl, ?_⟩, fun hc => absurd rfl hc⟩
              intro txt hx
              cases hx with
              | empty h0 => exact hs h0
              | noLine _ h0 => rw [occurs_iff_infix] at h0; exact h0 ⟨line, rest, by rw [es]⟩
              | tokens hl h0 => rw [firstLine_unique hfl hl] at h0; exact h0 v c p hsl'
              | code hl hs' h0 =>
                rw [firstLine_unique hfl hl] at hs'
                obtain ⟨_, rfl⟩ := statusLine_unique hsl' hs'
                exact h0 code hnum.2.1 hnum.2.2 hnum.1
              | noHeader hl h0 =>
                rename_i line'
                have : line' = line := firstLine_unique hfl ⟨[], by rw [hl]; simp, h0⟩
                subst this
                have hr : rest = [] := by
                  have := es.symm.trans hl
                  exact List.append_cancel_left (this.trans (by simp : _ = line' ++ crlf ++ []))
                rcases hshape with ⟨hdrs, b', hn, hm, hj, hsp⟩ | ⟨_, hr'⟩
                · obtain ⟨em, _, _⟩ := messageText_iff.1 hm
                  rw [hl] at em
                  have := congrArg List.length em
                  simp [crlf] at this
                · exact hne (by rw [hr', hr])
              | header hm h0 =>
                obtain ⟨l, hl, hcol⟩ := h0
                rcases hshape with ⟨hdrs, b', hn, hm', hj, hsp⟩ | ⟨hno, hr'⟩
                · have := message_hdrs hm' hm hn
                  subst this
                  exact hcol (hall l (by rw [hsp]; exact hl))
                · have := firstLine_unique hfl (message_first hm)
                  subst this
                  exact hno _ _ (fun e => by rw [e] at hl; cases hl) hm
              | rest el hc0 hrn hno hpc h0 =>
                rename_i line' rest' pieces
                have : line' = line := firstLine_unique hfl ⟨rest', el, hc0⟩
                subst this
                have hrr : rest' = rest := List.append_cancel_left (el.symm.trans es)
                subst hrr
                rcases hshape with ⟨hdrs, b', hn, hm', hj, hsp⟩ | ⟨_, hr'⟩
                · exact hno _ _ hn hm'
                · obtain ⟨q, hq, hcol⟩ := h0
                  subst hr'
                  rw [pieces_unique (by simp [crlf]) hpc] at hall
                  exact hcol (hall q hq)
            · rw [if_pos hrc] at h
              cases h
              refine ⟨fun hc => absurd hc hrc, fun _ => ?_⟩
              simp only
              rcases ht.2 hrc with ⟨hn, rfl⟩ | ⟨hn, rfl, hcol⟩
              · rcases hshape with ⟨hdrs, b', hn', hm', hj, hsp⟩ | ⟨_, hr'⟩
                · exfalso
                  rw [hn] at hsp
                  rw [split_crlf_none (by simp)] at hsp
                  have := (hm'.2.2 [] (by rw [← hsp]; simp)).1
                  exact this rfl
                · have hz : rest = [] := by rw [← hr', hn]
                  rw [hn]
                  exact .noHeader (line := line) (by rw [es, hz]; simp) hcl'
              · rcases hshape with ⟨hdrs, b', hn', hm', hj, hsp⟩ | ⟨hno, hr'⟩
                · rw [hsp] at hcol
                  rw [hj]
                  exact .header hm' hcol
                · rw [hr'] at hcol hn ⊢
                  exact .rest es hcl' hn hno (pieces_split (by simp [crlf])) hcol

/-- The messages of responses that go wrong in different ways. -/
example : ((respParseE {} {} b!"HTTP/1.1 x OK\r\nA: b\r\n\r\n").map (·.2.1.own),
      (respParseE {} {} b!"HTTP/1.1 200 OK\r\nA b\r\nC: d\r\n\r\nbody").map (·.2.1.own),
      (respParseE {} {} b!"HTTP/1.1 200 OK\r\n\r\n").map (·.2.1.own),
      (respParseE {} {} b!"HTTP/1.1 200 OK\r\nA: b\r\n\r\nbody").map (fun x => (x.2.1.own, x.2.2))) =
    (.ok b!"status code format error", .ok b!"header format error\nA b\r\nC: d", .ok b!"header format error\n\r\n",
      .ok ([], kSuccess)) := by decide +kernel

/-- The server's message for a text that cannot be parsed is a reason why. -/
theorem reqErrText_reason {s : Str} {q : HttpReq} {rc : Int} (hf : Fits s) (hp : reqParse {} s = .ok (q, rc)) (hrc : rc ≠ 0) :
    ReqReason s (reqErrText s) := by
  have hfg := reqParseE_forget {} {} s
  rw [hp] at hfg
  unfold reqErrText
  cases hx : reqParseE {} {} s with
  | error f => rw [hx] at hfg; cases hfg
  | ok x =>
    obtain ⟨q', e', rc'⟩ := x
    rw [hx] at hfg
    simp only [Except.map, Except.ok.injEq, Prod.mk.injEq] at hfg
    obtain ⟨_, rfl⟩ := hfg
    exact (C151_request _ _ _ _ _ _ hf hx).2 (by simpa [kSuccess] using hrc)

/-- C151, the server: a client whose request head cannot be parsed gets one 400 answer whose body names what is wrong with the
head; then the connection is closed, and no handler has run. -/
theorem C151_server (env : Env) (s : Server σ) (head rest : Str) (fin : Int) (u : σ)
    (h1 : ¬ Occurs crlf2 (head ++ crlf2.dropLast)) (h2 : 10 ∉ (head ++ crlf2 ++ rest).take 3)
    (hf : Fits (head ++ crlf2 ++ rest)) (hl : (head ++ crlf2).length < 2 ^ 31) (q : HttpReq) (rc : Int)
    (hp : reqParse {} (head ++ crlf2) = .ok (q, rc)) (hrc : rc ≠ 0) :
    ∃ text why, handleRead env s ⟨head ++ crlf2 ++ rest, fin⟩ u = .ok ⟨[text], true, ⟨rest, fin⟩, u, env.types⟩ ∧
      ReqReason (head ++ crlf2) why ∧ (Fits text → Reads text .BAD_REQUEST why) := by
  obtain ⟨text, ht, hr⟩ := C45_bad_request_partial env s head rest fin u h1 h2 hf hl q rc hp hrc
  refine ⟨text, _, ht, reqErrText_reason ?_ hp hrc, hr⟩
  unfold Fits at hf ⊢
  simp only [List.length_append] at hf ⊢
  omega

example : (reqParse {} (b!"GET / HTTP/3.0" ++ crlf2)).map (·.2) = .ok kLogicErr ∧
    reqErrText (b!"GET / HTTP/3.0" ++ crlf2) = b!"[logicerr]:invalid http version" := by decide +kernel

end Cppnet
