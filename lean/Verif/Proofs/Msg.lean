import Verif.Model.HttpMsg
import Verif.Proofs.Crlf
import Verif.Proofs.Route

namespace Cppnet
open Spec

/-! ### Message shapes -/

theorem messageText_iff {s line : Str} {ls : List Str} {body : Str} :
    MessageText s line ls body ↔
      s = line ++ crlf ++ (terminated ls ++ (crlf ++ body)) ∧ ¬ crlf <:+: line ∧ CleanLines ls := by
  simp [MessageText, terminated, CleanLines, occurs_iff_infix]

theorem crlf2_of_message {s line : Str} {ls : List Str} {body : Str} (h : MessageText s line ls body) :
    find s crlf2 = some (line.length + (terminated ls).length) := by
  obtain ⟨rfl, h1, h2⟩ := messageText_iff.1 h
  rw [find_zero, find_crlf2_block h1 h2]

theorem crlf_of_message {s line : Str} {ls : List Str} {body : Str} (h : MessageText s line ls body) :
    find s crlf = some line.length := by
  obtain ⟨rfl, h1, h2⟩ := messageText_iff.1 h
  rw [find_zero, find_crlf_append h1]

theorem message_exists {s : Str} (h : Occurs crlf2 s) : ∃ line ls body, MessageText s line ls body := by
  obtain ⟨line, ls, body, h1, h2, h3⟩ := text_shape (occurs_iff_infix.1 h)
  exact ⟨line, ls, body, messageText_iff.2 ⟨h1, h2, h3⟩⟩

theorem occurs_of_message {s line : Str} {ls : List Str} {body : Str} (h : MessageText s line ls body) :
    Occurs crlf2 s := by
  rw [occurs_iff_infix]
  refine Classical.byContradiction fun hn => ?_
  have := crlf2_of_message h
  rw [find_zero, findAux_none.2 hn] at this
  cases this

theorem terminated_snoc (ls : List Str) (l : Str) : terminated (ls ++ [l]) = terminated ls ++ l ++ crlf := by
  simp [terminated]

/-- The header block with the blank line, and that the blank line is the first CRLFCRLF. -/
theorem message_head {s line : Str} {ls : List Str} {body : Str} (h : MessageText s line ls body) :
    ∃ head, s = head ++ crlf2 ++ body ∧ ¬ Occurs crlf2 (head ++ crlf2.dropLast) := by
  have hf := crlf2_of_message h
  rw [find_zero] at hf
  obtain ⟨u, v, h1, h2, h3⟩ := (findAux_some_iff (by simp [crlf2])).1 hf
  refine ⟨u, ?_, by rwa [occurs_iff_infix]⟩
  obtain ⟨e, _, _⟩ := messageText_iff.1 h
  have hlen : (line ++ crlf ++ (terminated ls ++ crlf)).length = (u ++ crlf2).length := by
    simp [h2, crlf, crlf2]; omega
  have e2 : (line ++ crlf ++ (terminated ls ++ crlf)) ++ body = (u ++ crlf2) ++ v := by
    rw [← h1, e]; simp
  have := (List.append_inj e2 hlen).2
  rw [this, h1]

/-- The part of the text HttpReq::Parse gives to the header parser. -/
theorem req_region {r : HttpHeader} {s line : Str} {ls : List Str} {body : Str}
    (h : MessageText s line ls body) (hf : Fits s) :
    headerParse r ((s.drop (line.length + 2)).take (line.length + (terminated ls).length)) =
      .ok (r.setAll ((goodLines ls).map codeField), kLogicErr) := by
  obtain ⟨rfl, h1, h2⟩ := messageText_iff.1 h
  have e : (line ++ crlf ++ (terminated ls ++ (crlf ++ body))).drop (line.length + 2) =
      terminated ls ++ (crlf ++ body) := by
    rw [List.drop_append_of_le_length (by simp [crlf]), List.drop_of_length_le (by simp [crlf])]
    simp
  rw [e]
  have e2 : (terminated ls ++ (crlf ++ body)).take (line.length + (terminated ls).length) =
      terminated ls ++ (crlf ++ body).take line.length := by
    rw [List.take_append, List.take_of_length_le (by omega)]
    congr 2; omega
  rw [e2]
  by_cases hne : terminated ls ++ (crlf ++ body).take line.length = []
  · have : ls = [] := by
      cases ls with
      | nil => rfl
      | cons l ls => simp [terminated_cons, crlf] at hne
    subst this
    rw [hne]
    simp [headerParse, goodLines]
  · have hfit : Fits (terminated ls ++ (crlf ++ body).take line.length) := by
      have hlen : ((crlf ++ body).take line.length).length ≤ (crlf ++ body).length := by
        rw [List.length_take]; omega
      unfold Fits at *
      simp only [List.length_append] at *
      omega
    obtain ⟨p, ps, hs, hp⟩ := head_bad body line.length
    rw [headerParse_eq r _ hne hfit, split_terminated h2, hs, goodLines_stop hp, if_neg]
    intro hall
    exact hp (hall p (by simp))

/-- http_req.cpp:35-59 applied to the first line. -/
def reqTail (r : HttpReq) (line : Str) : Out (HttpReq × Int) :=
  match split b!" " line with
  | [m, target, v] => do
    let r := { r with method := methodOfStr m }
    if r.method = .UNKNOWN then .ok (r, kLogicErr)
    else do
      let (route, rc) ← routeParse r.route target
      let r := { r with route }
      if rc ≠ kSuccess then .ok (r, kLogicErr)
      else
        let r := { r with version := versionOfStr v }
        if r.version = .UNKNOWN then .ok (r, kLogicErr) else .ok (r, kSuccess)
  | _ => .ok (r, kLogicErr)

theorem reqParse_message (r : HttpReq) {s line : Str} {ls : List Str} {body : Str}
    (h : MessageText s line ls body) (hf : Fits s) :
    reqParse r s = reqTail { r with header := r.header.setAll ((goodLines ls).map codeField), body := body } line := by
  have hreg := req_region (r := r.header) h hf
  have h1 := crlf2_of_message h
  have h2 := crlf_of_message h
  obtain ⟨rfl, h3, h4⟩ := messageText_iff.1 h
  have hne : line ++ crlf ++ (terminated ls ++ (crlf ++ body)) ≠ [] := by simp [crlf]
  have hlen : (line ++ crlf ++ (terminated ls ++ (crlf ++ body))).length =
      line.length + 2 + ((terminated ls).length + (2 + body.length)) := by simp [crlf]; omega
  have hbody : (line ++ crlf ++ (terminated ls ++ (crlf ++ body))).drop
      (line.length + (terminated ls).length + 4) = body := by
    have : line ++ crlf ++ (terminated ls ++ (crlf ++ body)) =
      (line ++ crlf ++ terminated ls ++ crlf) ++ body := by simp
    rw [this, List.drop_append_of_le_length (by simp [crlf]; omega),
      List.drop_of_length_le (by simp [crlf]; omega)]
    simp
  have hline : ((line ++ crlf ++ (terminated ls ++ (crlf ++ body)))).take line.length = line := by
    simp
  unfold reqParse
  simp only [hne, if_false, h1, h2]
  rw [substr_ok (by omega)]
  simp only [bind, Except.bind, hreg]
  rw [if_neg (by decide)]
  rw [substrFrom_ok (by omega)]
  simp only [hbody, substr_ok (Nat.zero_le _), List.drop_zero, hline, Split_eq (d := b!" ") (by simp),
    List.nil_append]
  rfl

theorem reqParse_no_blank (r : HttpReq) {s : Str} (h : ¬ Occurs crlf2 s) :
    reqParse r s = .ok (r, kLogicErr) := by
  rw [occurs_iff_infix] at h
  unfold reqParse
  rw [find_zero, findAux_none.2 h]
  simp

theorem split_three {line m t v : Str} (h : ThreeTokens line m t v) : split b!" " line = [m, t, v] := by
  obtain ⟨rfl, h1, h2, h3⟩ := h
  have : m ++ b!" " ++ t ++ b!" " ++ v = joinWith b!" " [m, t, v] := by simp [joinWith]
  rw [this]
  apply split_join_byte (by simp)
  intro p hp
  simp at hp
  rcases hp with rfl | rfl | rfl <;> assumption

theorem three_of_split {line m t v : Str} (h : split b!" " line = [m, t, v]) : ThreeTokens line m t v := by
  have hj := join_split (d := b!" ") (by simp) line
  have hc := clean_of_leftmost (leftmost_split (d := b!" ") (by simp) line)
  rw [h] at hj hc
  have hc' : ∀ p ∈ [m, t, v], 32 ∉ p := by
    intro p hp
    have := hc p hp
    rwa [occurs_iff_infix, singleton_infix] at this
  refine ⟨by rw [← hj]; simp [joinWith], hc' m (by simp), hc' t (by simp), hc' v (by simp)⟩

theorem routeParse_empty (r : HttpRoute) : routeParse r [] = .ok (r, kLogicErr) := by
  simp [routeParse]

/-- The route parser on a target below 2 GiB. -/
def routeResult (r : HttpRoute) (t : Str) : HttpRoute :=
  if 63 ∈ t then
    HttpRoute.mk (before 63 t) (r.params.setAll ((split b!"&" (after 63 t)).map paramField))
  else { r with path := t }

theorem routeParse_eq (r : HttpRoute) (t : Str) (hne : t ≠ [])
    (hl : 63 ∈ t → (before 63 t).length < 2 ^ 31 - 1) :
    routeParse r t = .ok (routeResult r t, kSuccess) := by
  unfold routeResult
  by_cases h : 63 ∈ t
  · rw [routeParse_query r t h (hl h), if_pos h]
  · rw [routeParse_plain r t hne h, if_neg h]

theorem reqTail_three (r : HttpReq) {line m t v : Str} (h : ThreeTokens line m t v) (ht : t ≠ [])
    (hl : 63 ∈ t → (before 63 t).length < 2 ^ 31 - 1) (hm : methodOfStr m ≠ .UNKNOWN) (hv : versionOfStr v ≠ .UNKNOWN) :
    reqTail r line = .ok ({ r with method := methodOfStr m, route := routeResult r.route t,
                                   version := versionOfStr v }, kSuccess) := by
  unfold reqTail
  rw [split_three h]
  simp only [hm, if_false, routeParse_eq r.route t ht hl, bind, Except.bind]
  simp [hv]

/-- The tail always returns, with success exactly for a good request line. -/
theorem reqTail_total (r : HttpReq) (line : Str) (hl : line.length < 2 ^ 31) :
    ∃ r' rc, reqTail r line = .ok (r', rc) ∧ (rc = kSuccess ∨ rc = kLogicErr) ∧
      (rc = kSuccess ↔ ∃ m t v, ThreeTokens line m t v ∧ t ≠ [] ∧ methodOfStr m ≠ .UNKNOWN ∧
        versionOfStr v ≠ .UNKNOWN) := by
  by_cases h3 : ∃ m t v, split b!" " line = [m, t, v]
  · obtain ⟨m, t, v, hs⟩ := h3
    have htt := three_of_split hs
    have uniq : ∀ m' t' v', ThreeTokens line m' t' v' → m' = m ∧ t' = t ∧ v' = v := by
      intro m' t' v' h'
      have := split_three h'
      rw [hs] at this
      simp at this
      exact ⟨this.1.symm, this.2.1.symm, this.2.2.symm⟩
    have htl : 63 ∈ t → (before 63 t).length < 2 ^ 31 - 1 := by
      intro h63
      have h1 := length_cut h63
      have h2 := congrArg List.length htt.1
      simp at h2; omega
    by_cases hm : methodOfStr m = .UNKNOWN
    · refine ⟨_, kLogicErr, by unfold reqTail; rw [hs]; simp only [hm, if_true]; rfl, Or.inr rfl, ?_⟩
      constructor
      · intro h; cases h
      · rintro ⟨m', t', v', h', _, hm', _⟩
        obtain ⟨rfl, _, _⟩ := uniq _ _ _ h'
        exact absurd hm hm'
    · by_cases ht : t = []
      · subst ht
        refine ⟨_, kLogicErr, by
          unfold reqTail; rw [hs]
          simp only [hm, if_false, routeParse_empty, bind, Except.bind]
          simp [kLogicErr, kSuccess]; rfl, Or.inr rfl, ?_⟩
        constructor
        · intro h; cases h
        · rintro ⟨m', t', v', h', ht', _, _⟩
          obtain ⟨_, rfl, _⟩ := uniq _ _ _ h'
          exact absurd rfl ht'
      · by_cases hv : versionOfStr v = .UNKNOWN
        · refine ⟨_, kLogicErr, by
            unfold reqTail; rw [hs]
            simp only [hm, if_false, routeParse_eq r.route t ht htl, bind, Except.bind]
            simp [hv]; rfl, Or.inr rfl, ?_⟩
          constructor
          · intro h; cases h
          · rintro ⟨m', t', v', h', _, _, hv'⟩
            obtain ⟨_, _, rfl⟩ := uniq _ _ _ h'
            exact absurd hv hv'
        · exact ⟨_, kSuccess, reqTail_three r htt ht htl hm hv, Or.inl rfl,
            fun _ => ⟨m, t, v, htt, ht, hm, hv⟩, fun _ => rfl⟩
  · refine ⟨r, kLogicErr, ?_, Or.inr rfl, ?_⟩
    · unfold reqTail
      split
      · rename_i m t v hs
        exact absurd ⟨m, t, v, hs⟩ h3
      · rfl
    · constructor
      · intro h; cases h
      · rintro ⟨m', t', v', h', _⟩
        exact absurd ⟨_, _, _, split_three h'⟩ h3

end Cppnet
