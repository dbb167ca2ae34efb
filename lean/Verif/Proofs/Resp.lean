import Verif.Proofs.Msg

namespace Cppnet
open Spec

/-- http_resp.cpp:29-63 applied to the first line and the header text. -/
def respTail (r : HttpResp) (firstLine header : Str) : Out (HttpResp × Int) :=
  match find firstLine b!" " with
  | none => .ok (r, kLogicErr)
  | some sp1 =>
    match find firstLine b!" " (sp1 + 1) with
    | none => .ok (r, kLogicErr)
    | some sp2 => do
      let v ← substr firstLine 0 sp1
      let codeText ← substr firstLine (sp1 + 1) (sp2 - sp1 - 1)
      let _ ← substrFrom firstLine (sp2 + 1)
      match stoi codeText with
      | .error _ => .ok (r, kLogicErr)
      | .ok code => do
        let r := { r with status := statusOfInt code, version := versionOfStr v }
        let (h, rc) ← headerParse r.header header
        .ok ({ r with header := h }, rc)

/-- The end of `HttpResp::Parse`, after the tokens have been cut out. -/
def respFinish (r : HttpResp) (header v : Str) : Out Int → Out (HttpResp × Int)
  | .error _ => .ok (r, kLogicErr)
  | .ok code => do
    let r := { r with status := statusOfInt code, version := versionOfStr v }
    let (h, rc) ← headerParse r.header header
    .ok ({ r with header := h }, rc)

theorem respTail_line (r : HttpResp) {line v code phrase header : Str} (hl0 : StatusLine line v code phrase) :
    respTail r line header = respFinish r header v (stoi code) := by
  obtain ⟨rfl, h1, h2⟩ := hl0
  have e : v ++ b!" " ++ code ++ b!" " ++ phrase = v ++ 32 :: (code ++ 32 :: phrase) := by simp
  rw [e]
  have f1 : find (v ++ 32 :: (code ++ 32 :: phrase)) b!" " = some v.length := by
    rw [find_zero]; exact findAux_byte_append h1
  have hd : (v ++ 32 :: (code ++ 32 :: phrase)).drop (v.length + 1) = code ++ 32 :: phrase := by
    rw [List.drop_append]; simp
  have f2 : find (v ++ 32 :: (code ++ 32 :: phrase)) b!" " (v.length + 1) =
      some (v.length + 1 + code.length) := by
    rw [find_eq (by simp), hd, findAux_byte_append h2]; rfl
  have hl : (v ++ 32 :: (code ++ 32 :: phrase)).length = v.length + 1 + (code.length + 1 + phrase.length) := by
    simp; omega
  unfold respTail
  simp only [f1, f2, substr_ok (Nat.zero_le _), List.drop_zero, bind, Except.bind]
  rw [substr_ok (by omega), substrFrom_ok (by omega), hd]
  have e2 : v.length + 1 + code.length - v.length - 1 = code.length := by omega
  simp only [e2, List.take_left']
  rfl

theorem statusLine_of_find {line : Str} {a b : Nat} (h1 : find line b!" " = some a)
    (h2 : find line b!" " (a + 1) = some b) : ∃ v code phrase, StatusLine line v code phrase := by
  rw [find_zero] at h1
  obtain ⟨v, w, rfl, rfl, hv⟩ := (findAux_some_iff (by simp)).1 h1
  have hv' : 32 ∉ v := by simpa [singleton_infix] using hv
  have hd : (v ++ b!" " ++ w).drop (v.length + 1) = w := by
    rw [List.drop_append_of_le_length (by simp), List.drop_of_length_le (by simp)]; simp
  rw [find_eq (by simp), hd] at h2
  cases hw : findAux b!" " w with
  | none => rw [hw] at h2; simp at h2
  | some i =>
    obtain ⟨c, p, rfl, _, hc⟩ := (findAux_some_iff (by simp)).1 hw
    exact ⟨v, c, p, by simp, hv', by simpa [singleton_infix] using hc⟩

theorem headerParse_total (h : HttpHeader) (s : Str) (hf : Fits s) :
    ∃ h' rc, headerParse h s = .ok (h', rc) ∧ (rc = kSuccess ∨ rc = kLogicErr) := by
  by_cases hs : s = []
  · subst hs; exact ⟨h, kLogicErr, by simp [headerParse], Or.inr rfl⟩
  · rw [headerParse_eq h s hs hf]
    refine ⟨_, _, rfl, ?_⟩
    split
    · exact Or.inl rfl
    · exact Or.inr rfl

theorem respTail_total (r : HttpResp) (line header : Str) (hf : Fits header) :
    ∃ r' rc, respTail r line header = .ok (r', rc) ∧ (rc = kSuccess ∨ rc = kLogicErr) := by
  cases h1 : find line b!" " with
  | none => exact ⟨r, kLogicErr, by simp [respTail, h1], Or.inr rfl⟩
  | some a =>
    cases h2 : find line b!" " (a + 1) with
    | none => exact ⟨r, kLogicErr, by simp [respTail, h1, h2], Or.inr rfl⟩
    | some b =>
      obtain ⟨v, c, p, hs⟩ := statusLine_of_find h1 h2
      rw [respTail_line r hs]
      cases stoi c with
      | error e => exact ⟨r, kLogicErr, rfl, Or.inr rfl⟩
      | ok n =>
        obtain ⟨h', rc, hh, hrc⟩ := headerParse_total r.header header hf
        simp only [respFinish, hh, bind, Except.bind]
        exact ⟨_, rc, rfl, hrc⟩

/-- The general form of `HttpResp::Parse` when there is a CRLF. -/
theorem respParse_eq (r : HttpResp) {s : Str} {pos : Nat} (hs : s ≠ []) (hp : find s crlf = some pos) :
    respParse r s = (do
      let header ← substr s (pos + 2) (szSub (szSub (posOrNpos (find s crlf2)) pos) 2)
      let body ← substrFrom s (szAdd (posOrNpos (find s crlf2)) 4)
      respTail { r with body } (s.take pos) header) := by
  unfold respParse
  simp only [hs, if_false, hp, substr_ok (Nat.zero_le _), List.drop_zero]
  cases substr s (pos + 2) (szSub (szSub (posOrNpos (find s crlf2)) pos) 2) with
  | error e => rfl
  | ok header =>
    cases substrFrom s (szAdd (posOrNpos (find s crlf2)) 4) with
    | error e => rfl
    | ok body => rfl

theorem joinWith_terminated {ls : List Str} (hne : ls ≠ []) : terminated ls = joinWith crlf ls ++ crlf := by
  induction ls with
  | nil => exact absurd rfl hne
  | cons l ls ih =>
    cases ls with
    | nil => simp [terminated, joinWith]
    | cons m ms => rw [terminated_cons, ih (by simp)]; simp [joinWith]

theorem split_joined {ls : List Str} (hne : ls ≠ []) (hc : CleanLines ls) : split crlf (joinWith crlf ls) = ls := by
  induction ls with
  | nil => exact absurd rfl hne
  | cons l ls ih =>
    cases ls with
    | nil => exact split_none (findAux_none.2 (hc l (by simp)).2)
    | cons m ms =>
      simp only [joinWith]
      rw [split_crlf_cons (hc l (by simp)).2, ih (by simp) (fun x hx => hc x (by simp at hx ⊢; right; exact hx))]

/-- Parsing a message with at least one header line. -/
theorem respParse_message (r : HttpResp) {s line : Str} {ls : List Str} {body : Str}
    (h : MessageText s line ls body) (hne : ls ≠ []) (hf : Fits s) :
    respParse r s = respTail { r with body := body } line (joinWith crlf ls) := by
  have h1 := crlf2_of_message h
  have h2 := crlf_of_message h
  obtain ⟨rfl, h3, h4⟩ := messageText_iff.1 h
  have hterm := joinWith_terminated hne
  have hlt : (terminated ls).length = (joinWith crlf ls).length + 2 := by rw [hterm]; simp [crlf]
  have hlen : (line ++ crlf ++ (terminated ls ++ (crlf ++ body))).length =
      line.length + 2 + ((terminated ls).length + (2 + body.length)) := by simp [crlf]; omega
  rw [respParse_eq r (by simp [crlf]) h2]
  unfold Fits at hf
  have e1 : szSub (szSub (posOrNpos (some (line.length + (terminated ls).length))) line.length) 2 =
      (joinWith crlf ls).length := by
    simp only [posOrNpos, szSub]; omega
  have e2 : szAdd (posOrNpos (some (line.length + (terminated ls).length))) 4 =
      line.length + (terminated ls).length + 4 := by
    simp only [posOrNpos, szAdd]; omega
  rw [h1, e1, e2, substr_ok (by omega), substrFrom_ok (by omega)]
  have hbody : (line ++ crlf ++ (terminated ls ++ (crlf ++ body))).drop
      (line.length + (terminated ls).length + 4) = body := by
    have : line ++ crlf ++ (terminated ls ++ (crlf ++ body)) =
      (line ++ crlf ++ terminated ls ++ crlf) ++ body := by simp
    rw [this, List.drop_append_of_le_length (by simp [crlf]; omega),
      List.drop_of_length_le (by simp [crlf]; omega)]
    simp
  have hd : (line ++ crlf ++ (terminated ls ++ (crlf ++ body))).drop (line.length + 2) =
      terminated ls ++ (crlf ++ body) := by
    rw [List.drop_append_of_le_length (by simp [crlf]), List.drop_of_length_le (by simp [crlf])]
    simp
  have ht : (terminated ls ++ (crlf ++ body)).take (joinWith crlf ls).length = joinWith crlf ls := by
    rw [hterm]; simp
  have hl : (line ++ crlf ++ (terminated ls ++ (crlf ++ body))).take line.length = line := by simp
  simp only [bind, Except.bind, hbody, hd, ht, hl]

end Cppnet
