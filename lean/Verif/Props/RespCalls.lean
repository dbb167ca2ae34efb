import Verif.Spec.RespCalls
import Verif.Props.Resp
import Verif.Props.Builders

/-!
# C169: the last helper that was called decides the response
-/

namespace Cppnet
open Spec

theorem lastSaid_snoc {α β : Type} (said : α → Option β) (cs : List α) (c : α) :
    lastSaid said (cs ++ [c]) = (said c).or (lastSaid said cs) := by
  simp only [lastSaid, List.reverse_append, List.reverse_cons, List.reverse_nil, List.nil_append, List.cons_append,
    List.findSome?_cons]
  cases said c <;> rfl

/-- The custom type registered for the empty suffix does not change. -/
theorem respApply_registered (s : HttpResp × UMap) (c : RespCall) : (c.apply s).2.getD [] = s.2.getD [] := by
  cases c <;> try rfl
  case success t b =>
    simp only [RespCall.apply, respSuccess, headerSetContentType, contentTypeToStr]
    cases t <;> try rfl
    simp only
    cases h : s.2.get [] with
    | some v => rfl
    | none => simp [UMap.getD, h]

theorem typeText_congr {g g' : UMap} (h : g.getD [] = g'.getD []) (t : ContentType) : typeText g t = typeText g' t := by
  unfold typeText
  rw [h]

theorem respSuccess_type (g : UMap) (t : ContentType) : (contentTypeToStr g t []).1 = typeText g t := by
  cases t <;> try rfl
  show (contentTypeToStr g .custom []).1 = g.getD []
  simp only [contentTypeToStr, UMap.getD]
  cases g.get [] <;> rfl

/-- The state after the calls. -/
theorem respAfter_state (g : UMap) (cs : List RespCall) :
    let s := cs.foldl RespCall.apply (({} : HttpResp), g)
    s.1.status = (lastSaid saysStatus cs).getD .UNKNOWN ∧ s.1.body = (lastSaid saysBody cs).getD [] ∧
    s.1.header.get b!"Content-Type" = (lastSaid (saysType g) cs).getD none ∧
    (∀ k, k ≠ b!"Content-Type" → s.1.header.get k = (lastSaid (saysField k) cs).getD none) ∧
    s.2.getD [] = g.getD [] ∧ s.1.version = .HTTP_1_1 := by
  induction cs using List.reverseRecOn with
  | nil => exact ⟨rfl, rfl, rfl, fun _ _ => rfl, rfl, rfl⟩
  | append_singleton cs c ih =>
    simp only at ih
    rw [List.foldl_append, List.foldl_cons, List.foldl_nil]
    generalize hs : cs.foldl RespCall.apply (({} : HttpResp), g) = s at ih
    obtain ⟨h1, h2, h3, h4, h5, h6⟩ := ih
    simp only [lastSaid_snoc]
    have hr := respApply_registered s c
    rw [h5] at hr
    have hl : (b!"Content-Type" : Str) ≠ b!"Location" := by decide
    have hl' : (b!"Location" : Str) ≠ b!"Content-Type" := by decide
    refine ⟨?_, ?_, ?_, ?_, hr, ?_⟩
    · cases c with
      | redirect l f => cases f <;> rfl
      | field k v => exact h1
      | _ => rfl
    · cases c with
      | redirect l f => cases f <;> rfl
      | field k v => exact h2
      | ok => exact h2
      | success t b =>
        by_cases hb : b = []
        · simpa [RespCall.apply, respSuccess, saysBody, hb] using h2
        · simp [RespCall.apply, respSuccess, saysBody, hb]
      | _ => rfl
    · cases c with
      | field k v =>
        by_cases hk : k = b!"Content-Type"
        · simp [RespCall.apply, saysType, hk]
        · simpa [RespCall.apply, saysType, hk, UMap.get_set_ne _ _ (Ne.symm hk)] using h3
      | ok => exact h3
      | redirect l f => cases f <;> simp [RespCall.apply, respRedirect, respType, headerAdd, saysType, UMap.get_set, hl]
      | success t b =>
        have e : ((RespCall.success t b).apply s).1.header = s.1.header.set b!"Content-Type" (contentTypeToStr s.2 t []).1 := by
          by_cases hb : b = [] <;> simp [RespCall.apply, respSuccess, headerSetContentType, hb]
        rw [e, respSuccess_type, typeText_congr h5]
        simp [saysType]
      | clear => rfl
      | _ => simp [RespCall.apply, respNotFound, respSuccessWithBinary, respSuccessWithJson, respBadRequest, respInternalServerError,
          respJson, respText, respType, saysType]
    · intro k hk
      cases c with
      | field k' v =>
        by_cases he : k' = k
        · simp [RespCall.apply, saysField, he]
        · simpa [RespCall.apply, saysField, he, UMap.get_set_ne _ _ (Ne.symm he)] using h4 k hk
      | ok => exact h4 k hk
      | redirect l f =>
        by_cases he : k = b!"Location"
        · cases f <;> simp [RespCall.apply, respRedirect, respType, headerAdd, saysField, he]
        · have := h4 k hk
          cases f <;> simpa [RespCall.apply, respRedirect, respType, headerAdd, saysField, he, UMap.get_set_ne _ _ he,
            UMap.get_set_ne _ _ hk] using this
      | success t b =>
        have e : ((RespCall.success t b).apply s).1.header = s.1.header.set b!"Content-Type" (contentTypeToStr s.2 t []).1 := by
          by_cases hb : b = [] <;> simp [RespCall.apply, respSuccess, headerSetContentType, hb]
        rw [e, UMap.get_set_ne _ _ hk]
        exact h4 k hk
      | clear => rfl
      | _ =>
        simpa [RespCall.apply, respNotFound, respSuccessWithBinary, respSuccessWithJson, respBadRequest, respInternalServerError,
          respJson, respText, respType, saysField, UMap.get_set_ne _ _ hk] using h4 k hk
    · cases c with
      | redirect l f => cases f <;> exact h6
      | success t b =>
        by_cases hb : b = [] <;> simpa [RespCall.apply, respSuccess, hb] using h6
      | _ => exact h6

/-- C169, exactly what a response is after any calls: its status is the one the last call asked for, its body the last that was given,
and each header field has the last value that was given for it, where `Clear` takes everything back.
Missing: that the last call alone decides the body and the other fields, which is false, see the refutations. -/
theorem C169_exact_partial (g : UMap) (cs : List RespCall) :
    (respAfter g cs).status = (lastSaid saysStatus cs).getD .UNKNOWN ∧ (respAfter g cs).body = (lastSaid saysBody cs).getD [] ∧
    (respAfter g cs).header.get b!"Content-Type" = (lastSaid (saysType g) cs).getD none ∧
    ∀ k, k ≠ b!"Content-Type" → (respAfter g cs).header.get k = (lastSaid (saysField k) cs).getD none :=
  have h := respAfter_state g cs
  ⟨h.1, h.2.1, h.2.2.1, h.2.2.2.1⟩

/-- Before a call that decides, with no other field set, the header is empty or holds the content type alone. -/
theorem respAfter_plain (g : UMap) (cs : List RespCall) (h : ∀ c ∈ cs, NoOtherField c) :
    (respAfter g cs).header = UMap.empty ∨ ∃ v, (respAfter g cs).header = UMap.empty.set b!"Content-Type" v := by
  unfold respAfter
  induction cs using List.reverseRecOn with
  | nil => exact .inl rfl
  | append_singleton cs c ih =>
    rw [List.foldl_append, List.foldl_cons, List.foldl_nil]
    have hi := ih fun c hc => h c (List.mem_append_left _ hc)
    generalize cs.foldl RespCall.apply (({} : HttpResp), g) = s at hi
    have key : ∀ v, s.1.header.set b!"Content-Type" v = UMap.empty.set b!"Content-Type" v := by
      intro v
      rcases hi with e | ⟨w, e⟩ <;> rw [e]
      rfl
    have hc := h c (List.mem_append_right _ (List.mem_singleton.2 rfl))
    cases c with
    | redirect _ _ => exact hc.elim
    | field _ _ => exact hc.elim
    | ok => exact hi
    | clear => exact .inl rfl
    | success t b =>
      refine .inr ⟨(contentTypeToStr s.2 t []).1, ?_⟩
      rw [← key]
      by_cases hb : b = [] <;> simp [RespCall.apply, respSuccess, headerSetContentType, hb]
    | _ => exact .inr ⟨_, key _⟩

theorem httpResp_ext {r r' : HttpResp} (h1 : r.status = r'.status) (h2 : r.version = r'.version) (h3 : r.header = r'.header)
    (h4 : r.body = r'.body) : r = r' := by
  cases r; cases r'; simp_all

/-- C169, when the last call alone decides: whatever helpers were called before, with `Redirect` and header fields only before the last
`Clear`, a call that gives a status, a type and a body leaves the response, and so the text that is sent, as if it had been the only
call.
Missing: calls that give no body, and fields that earlier calls left, see the refutations. -/
theorem C169_last_decides_partial (g : UMap) (before cs : List RespCall) (c : RespCall) (hc : Decides c) (h : ∀ d ∈ cs, NoOtherField d)
    (o : HashOrder) (old : Str) :
    respAfter g (before ++ [.clear] ++ cs ++ [c]) = respAfter g [c] ∧ respAfter g (cs ++ [c]) = respAfter g [c] ∧
    respBuild o (respAfter g (before ++ [.clear] ++ cs ++ [c])) old = respBuild o (respAfter g [c]) old := by
  have main : ∀ (g' : UMap), g'.getD [] = g.getD [] → ((cs ++ [c]).foldl RespCall.apply (({} : HttpResp), g')).1 = respAfter g [c] := by
    intro g' hg
    have e1 := respAfter_state g' (cs ++ [c])
    have e2 := respAfter_state g [c]
    simp only at e1 e2
    have hst : ∃ x, saysStatus c = some x := by cases c <;> first | exact ⟨_, rfl⟩ | exact hc.elim
    have hbo : ∃ x, saysBody c = some x := by
      cases c with
      | redirect l f => cases f <;> exact ⟨_, rfl⟩
      | success t b => exact ⟨b, if_neg hc⟩
      | ok => exact hc.elim
      | clear => exact hc.elim
      | field k v => exact hc.elim
      | _ => exact ⟨_, rfl⟩
    obtain ⟨x, hx⟩ := hst
    obtain ⟨y, hy⟩ := hbo
    have snoc1 : lastSaid saysStatus [c] = some x := by rw [← List.nil_append [c], lastSaid_snoc, hx]; rfl
    have snoc2 : lastSaid saysBody [c] = some y := by rw [← List.nil_append [c], lastSaid_snoc, hy]; rfl
    refine httpResp_ext ?_ (e1.2.2.2.2.2.trans e2.2.2.2.2.2.symm) ?_ ?_
    · rw [e1.1]
      refine Eq.trans ?_ e2.1.symm
      rw [lastSaid_snoc, hx, snoc1]
      rfl
    · rw [List.foldl_append, List.foldl_cons, List.foldl_nil]
      have hp := respAfter_plain g' cs h
      have hreg := (respAfter_state g' cs).2.2.2.2.1
      unfold respAfter at hp ⊢
      generalize cs.foldl RespCall.apply (({} : HttpResp), g') = s at hp hreg
      have key : ∀ v, s.1.header.set b!"Content-Type" v = UMap.empty.set b!"Content-Type" v := by
        intro v
        rcases hp with e | ⟨w, e⟩ <;> rw [e]
        rfl
      cases c with
      | redirect l f => cases f <;> exact congrArg (fun m => headerAdd m b!"Location" l) (key _)
      | success t b =>
        have e : ∀ s : HttpResp × UMap, ((RespCall.success t b).apply s).1.header =
            s.1.header.set b!"Content-Type" (contentTypeToStr s.2 t []).1 := by
          intro s
          by_cases hb : b = [] <;> simp [RespCall.apply, respSuccess, headerSetContentType, hb]
        rw [e, List.foldl_cons, List.foldl_nil, e, key, respSuccess_type, respSuccess_type, typeText_congr (hreg.trans hg)]
      | ok => exact hc.elim
      | clear => exact hc.elim
      | field k v => exact hc.elim
      | _ => exact key _
    · rw [e1.2.1]
      refine Eq.trans ?_ e2.2.1.symm
      rw [lastSaid_snoc, hy, snoc2]
      rfl
  have hclear : respAfter g (before ++ [.clear] ++ cs ++ [c]) = respAfter g [c] := by
    have hv := (respAfter_state g before).2.2.2.2
    rw [← main _ hv.1]
    have e : (before ++ [RespCall.clear]).foldl RespCall.apply (({} : HttpResp), g) =
        ({}, (before.foldl RespCall.apply (({} : HttpResp), g)).2) := by
      rw [List.foldl_append, List.foldl_cons, List.foldl_nil]
      generalize before.foldl RespCall.apply (({} : HttpResp), g) = s at hv
      simp only [RespCall.apply, respClear, hv.2]
    unfold respAfter
    rw [List.append_assoc (before ++ [RespCall.clear]), List.foldl_append, e]
  exact ⟨hclear, main g rfl, by rw [hclear]⟩

/-- C169 fails: a handler that answers `Success` after another one redirected sends the address of the redirection along. -/
theorem C169_location_refuted (g : UMap) (l body : Str) :
    (respAfter g [.redirect l false, .textWith .OK body]).header.get b!"Location" = some l ∧
    (respAfter g [.textWith .OK body]).header.get b!"Location" = none := by
  constructor
  · rw [(C169_exact_partial g _).2.2.2 _ (by decide)]
    rfl
  · rw [(C169_exact_partial g _).2.2.2 _ (by decide)]
    rfl

/-- C169 fails: `Success(type)` with an empty body after `NotFound` sends the page of the error with status 200, although the same call
alone sends an empty body. -/
theorem C169_body_refuted (g : UMap) (t : ContentType) :
    (respAfter g [.notFound, .success t []]).status = .OK ∧
    (respAfter g [.notFound, .success t []]).body = b!"<html><body><h1>404 Not Found</h1></body></html>" ∧
    (respAfter g [.success t []]).body = [] := by
  refine ⟨?_, ?_, ?_⟩
  · rw [(C169_exact_partial g _).1]; rfl
  · rw [(C169_exact_partial g _).2.1]; rfl
  · rw [(C169_exact_partial g _).2.1]; rfl

/-! ### Examples -/

example : Decides (.success .imagePng b!"x") ∧ Decides .notFound ∧ Decides (.redirect b!"/y" true) ∧
    ∀ d ∈ [RespCall.notFound, .json b!"{}", .success .textCss b!"", .clear, .ok], NoOtherField d :=
  ⟨by simp [Decides], trivial, trivial, by simp [NoOtherField]⟩

example : (respBuild .insertion (respAfter UMap.empty [.redirect b!"/x" true, .clear, .notFound, .json b!"{}", .textWith .OK b!"hi"]) []).2.1 =
    b!"HTTP/1.1 200 OK\r\nContent-Type: text/plain\r\nContent-Length: 2\r\n\r\nhi" := by decide +kernel

example : (respBuild .insertion (respAfter UMap.empty [.redirect b!"/x" true, .success .textCss []]) []).2.1 =
    b!"HTTP/1.1 200 OK\r\nContent-Type: text/css\r\nLocation: /x\r\nContent-Length: 56\r\n\r\n<html><body><h1>301 Moved Permanently</h1></body></html>" := by
  decide +kernel

end Cppnet
