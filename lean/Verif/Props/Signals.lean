import Verif.Model.Signals
import Verif.Props.HttpTls

/-!
# C174: signals while a request or a response is read
-/

namespace Cppnet
open Spec
variable {σ : Type}
set_option synthInstance.maxSize 1000

/-- Every signal that comes starts interrupted calls again. -/
def Spec.Restarting (as : List Arrival) : Prop := .signal false ∉ as

/-- These bytes come with no signal between them. -/
def Spec.inOneGo (s : Str) : List Arrival := s.map .byte

theorem arrivalBytes_append (xs ys : List Arrival) : arrivalBytes (xs ++ ys) = arrivalBytes xs ++ arrivalBytes ys := by
  induction xs with
  | nil => rfl
  | cons a xs ih => cases a <;> simp [arrivalBytes, ih]

theorem arrivalBytes_inOneGo (s : Str) : arrivalBytes (inOneGo s) = s := by
  induction s with
  | nil => rfl
  | cons a xs ih => simpa [inOneGo, arrivalBytes] using ih

/-- The three outcomes of the test of `ReadUntil` (socket.cpp:156-157). -/
inductive TestOut where
  | throws (e : Fault) | hit | miss

/-- The outcome of the test. -/
def untilTest (delim : Str) (last ch : Byte) (buf : Str) : TestOut :=
  if ch = last then
    match substrFrom buf (szSub buf.length delim.length) with
    | .error e => .throws e
    | .ok t => if t = delim then .hit else .miss
  else .miss

theorem readUntilLoop_test (delim : Str) (last : Byte) (fin : Int) (ch : Byte) (buf input : Str) :
    readUntilLoop delim last fin ch buf input =
      match untilTest delim last ch buf with
      | .throws e => .error e
      | .hit => .ok (toInt32 buf.length, buf, ⟨input, fin⟩)
      | .miss =>
        match input with
        | [] => .ok (fin, buf, ⟨[], fin⟩)
        | c :: cs => readUntilLoop delim last fin c (buf ++ [c]) cs := by
  by_cases h : ch = last
  · cases hx : substrFrom buf (szSub buf.length delim.length) with
    | error e =>
      have ht : untilTest delim last ch buf = .throws e := by
        unfold untilTest
        rw [if_pos h, hx]
      rw [ht]
      cases input <;>
      · unfold readUntilLoop
        rw [if_pos h, hx]
    | ok t =>
      by_cases hd : t = delim
      · have ht : untilTest delim last ch buf = .hit := by
          unfold untilTest
          rw [if_pos h, hx]
          exact if_pos hd
        rw [ht]
        cases input <;>
        · unfold readUntilLoop
          rw [if_pos h, hx]
          exact if_pos hd
      · have ht : untilTest delim last ch buf = .miss := by
          unfold untilTest
          rw [if_pos h, hx]
          exact if_neg hd
        rw [ht]
        cases input <;>
        · rw [readUntilLoop]
          rw [if_pos h, hx]
          exact if_neg hd
  · have ht : untilTest delim last ch buf = .miss := by
      unfold untilTest
      rw [if_neg h]
    rw [ht]
    cases input <;>
    · rw [readUntilLoop]
      rw [if_neg h]

theorem sigUntilLoop_test (delim : Str) (last : Byte) (fin : Int) (ch : Byte) (buf : Str) (as : List Arrival) :
    sigUntilLoop delim last fin ch buf as =
      match untilTest delim last ch buf with
      | .throws e => .error e
      | .hit => .ok (toInt32 buf.length, buf, ⟨as, fin⟩)
      | .miss =>
        match as with
        | [] => .ok (fin, buf, ⟨[], fin⟩)
        | .byte c :: as => sigUntilLoop delim last fin c (buf ++ [c]) as
        | .signal true :: as => sigUntilLoop delim last fin ch buf as
        | .signal false :: as => .ok (-1, buf, ⟨as, fin⟩) := by
  by_cases h : ch = last
  · cases hx : substrFrom buf (szSub buf.length delim.length) with
    | error e =>
      have ht : untilTest delim last ch buf = .throws e := by
        unfold untilTest
        rw [if_pos h, hx]
      rw [ht]
      rcases as with _ | ⟨(c | (_ | _)), as⟩ <;>
      · rw [sigUntilLoop.eq_def]
        simp only
        rw [if_pos h, hx]
    | ok t =>
      by_cases hd : t = delim
      · have ht : untilTest delim last ch buf = .hit := by
          unfold untilTest
          rw [if_pos h, hx]
          exact if_pos hd
        rw [ht]
        rcases as with _ | ⟨(c | (_ | _)), as⟩ <;>
        · rw [sigUntilLoop.eq_def]
          simp only
          rw [if_pos h, hx]
          exact if_pos hd
      · have ht : untilTest delim last ch buf = .miss := by
          unfold untilTest
          rw [if_pos h, hx]
          exact if_neg hd
        rw [ht]
        rcases as with _ | ⟨(c | (_ | _)), as⟩ <;>
        · rw [sigUntilLoop.eq_def]
          simp only
          rw [if_pos h, hx]
          exact if_neg hd
  · have ht : untilTest delim last ch buf = .miss := by
      unfold untilTest
      rw [if_neg h]
    rw [ht]
    rcases as with _ | ⟨(c | (_ | _)), as⟩ <;>
    · rw [sigUntilLoop.eq_def]
      simp only
      rw [if_neg h]

/-- `ReadUntil` with signals reads as without, or a signal has ended it. -/
theorem sigUntilLoop_cases (delim : Str) (last : Byte) (fin : Int) : ∀ (as : List Arrival) (ch : Byte) (buf : Str),
    (sigUntilLoop delim last fin ch buf as).map (fun r => (r.1, r.2.1, r.2.2.conn)) =
      readUntilLoop delim last fin ch buf (arrivalBytes as) ∨
    (∃ buf' as', sigUntilLoop delim last fin ch buf as = .ok (-1, buf', ⟨as', fin⟩) ∧ .signal false ∈ as) := by
  intro as
  induction as with
  | nil =>
    intro ch buf
    refine Or.inl ?_
    rw [sigUntilLoop_test, readUntilLoop_test]
    cases untilTest delim last ch buf <;> rfl
  | cons a as ih =>
    intro ch buf
    rw [sigUntilLoop_test]
    rcases a with c | (_ | _)
    · rw [readUntilLoop_test]
      cases untilTest delim last ch buf with
      | throws e => exact Or.inl rfl
      | hit => exact Or.inl rfl
      | miss =>
        rcases ih c (buf ++ [c]) with h | ⟨b, x, h, hm⟩
        · exact Or.inl h
        · exact Or.inr ⟨b, x, h, by simp [hm]⟩
    · rw [readUntilLoop_test]
      cases untilTest delim last ch buf with
      | throws e => exact Or.inl rfl
      | hit => exact Or.inl rfl
      | miss => exact Or.inr ⟨buf, as, rfl, by simp⟩
    · cases ht : untilTest delim last ch buf with
      | throws e => rw [readUntilLoop_test, ht]; exact Or.inl rfl
      | hit => rw [readUntilLoop_test, ht]; exact Or.inl rfl
      | miss =>
        rcases ih ch buf with h | ⟨b, x, h, hm⟩
        · exact Or.inl h
        · exact Or.inr ⟨b, x, h, by simp [hm]⟩

/-- What is left of the arrivals is a final part of them. -/
theorem sigUntilLoop_suffix (delim : Str) (last : Byte) (fin : Int) : ∀ (as : List Arrival) (ch : Byte) (buf : Str) {k b c},
    sigUntilLoop delim last fin ch buf as = .ok (k, b, c) → (∃ pre, as = pre ++ c.todo) ∧ c.fin = fin := by
  intro as
  induction as with
  | nil =>
    intro ch buf k b c h
    rw [sigUntilLoop_test] at h
    split at h
    · cases h
    · cases h; exact ⟨⟨[], rfl⟩, rfl⟩
    · cases h; exact ⟨⟨[], rfl⟩, rfl⟩
  | cons a as ih =>
    intro ch buf k b c h
    rw [sigUntilLoop_test] at h
    split at h
    · cases h
    · cases h; exact ⟨⟨[], rfl⟩, rfl⟩
    · rcases a with x | (_ | _)
      · obtain ⟨⟨pre, e⟩, hf⟩ := ih _ _ h
        exact ⟨⟨_ :: pre, by rw [e]; rfl⟩, hf⟩
      · cases h; exact ⟨⟨[.signal false], rfl⟩, rfl⟩
      · obtain ⟨⟨pre, e⟩, hf⟩ := ih _ _ h
        exact ⟨⟨_ :: pre, by rw [e]; rfl⟩, hf⟩

/-- What comes after the delimiter makes no difference. -/
theorem sigUntilLoop_more (delim : Str) (last : Byte) (fin : Int) (more : List Arrival) : ∀ (as : List Arrival) (ch : Byte) (buf : Str)
    {k b t}, sigUntilLoop delim last 0 ch buf as = .ok (k, b, ⟨t, 0⟩) → 0 < k →
    sigUntilLoop delim last fin ch buf (as ++ more) = .ok (k, b, ⟨t ++ more, fin⟩) := by
  intro as
  induction as with
  | nil =>
    intro ch buf k b t h hk
    rw [sigUntilLoop_test] at h ⊢
    revert h
    cases untilTest delim last ch buf with
    | throws e => intro h; cases h
    | hit => intro h; cases h; rfl
    | miss =>
      intro h
      cases h
      omega
  | cons a as ih =>
    intro ch buf k b t h hk
    rw [sigUntilLoop_test] at h ⊢
    revert h
    cases untilTest delim last ch buf with
    | throws e => intro h; cases h
    | hit => intro h; cases h; rfl
    | miss =>
      intro h
      rcases a with x | (_ | _)
      · exact ih _ _ h hk
      · cases h
        omega
      · exact ih _ _ h hk

theorem sigReadUntil_cases (c : SigConn) (buf delim : Str) :
    (sigReadUntil c buf delim).map (fun r => (r.1, r.2.1, r.2.2.conn)) = sockReadUntil c.conn buf delim ∨
    (∃ buf' as', sigReadUntil c buf delim = .ok (-1, buf', ⟨as', c.fin⟩) ∧ .signal false ∈ c.todo) := by
  unfold sigReadUntil sockReadUntil
  cases delim.getLast? with
  | none => exact Or.inl rfl
  | some last => exact sigUntilLoop_cases delim last c.fin c.todo 0 buf

/-- The header block comes first, with restarting signals anywhere in it. -/
theorem sigReadHead {head : Str} {e1 e2 : List Arrival} {fin : Int} (hr : Restarting e1) (hb : arrivalBytes e1 = head ++ crlf2)
    (h1 : ¬ Occurs crlf2 (head ++ crlf2.dropLast)) (h2 : 10 ∉ (head ++ crlf2).take 3) (hl : (head ++ crlf2).length < 2 ^ 31) :
    ∃ t, sigReadUntil ⟨e1 ++ e2, fin⟩ [] crlf2 = .ok (((head ++ crlf2).length : Nat), head ++ crlf2, ⟨t ++ e2, fin⟩) ∧
      arrivalBytes t = [] ∧ Restarting t := by
  have hf : Fits (head ++ crlf2 ++ []) := by unfold Fits; simp only [List.append_nil]; omega
  have hs := readHead (fin := 0) h1 (by simpa using h2) hf
  rw [List.append_nil, toInt32_small hl] at hs
  have hlast : crlf2.getLast? = some 10 := rfl
  rcases sigReadUntil_cases ⟨e1, 0⟩ [] crlf2 with h | ⟨_, _, _, hm⟩
  · unfold SigConn.conn at h
    simp only at h
    rw [hb, hs] at h
    cases hx : sigReadUntil ⟨e1, 0⟩ [] crlf2 with
    | error e => rw [hx] at h; cases h
    | ok r =>
      obtain ⟨k, b, ⟨t, f⟩⟩ := r
      rw [hx] at h
      simp only [Except.map, Except.ok.injEq, Prod.mk.injEq] at h
      obtain ⟨a1, a2, a3⟩ := h
      have a4 : arrivalBytes t = [] := congrArg Conn.input a3
      have a5 : f = 0 := congrArg Conn.fin a3
      subst a5
      have hx' := hx
      unfold sigReadUntil at hx ⊢
      rw [hlast] at hx ⊢
      obtain ⟨⟨pre, e⟩, _⟩ := sigUntilLoop_suffix _ _ _ _ _ _ hx
      refine ⟨t, ?_, a4, ?_⟩
      · rw [← a1, ← a2]
        exact sigUntilLoop_more _ _ fin e2 e1 0 [] hx (by rw [a1]; simp [crlf2]; omega)
      · intro h
        exact hr (by rw [show e1 = pre ++ t from e]; exact List.mem_append.2 (Or.inr h))
  · exact absurd hm hr

/-- Waiting for the first byte, restarting signals make no difference. -/
theorem sigRecvAll_skip (fin : Int) (n : Nat) (hn : n ≠ 0) (e : List Arrival) : ∀ t : List Arrival, arrivalBytes t = [] → Restarting t →
    sigRecvAll fin n [] (t ++ e) = sigRecvAll fin n [] e := by
  intro t
  induction t with
  | nil => intro _ _; rfl
  | cons a t ih =>
    intro h hr
    rcases a with x | (_ | _)
    · simp [arrivalBytes] at h
    · exact absurd (by simp) hr
    · rw [List.cons_append, sigRecvAll]
      simp only [hn, if_false, ne_eq, not_true_eq_false, if_true]
      exact ih h (fun hm => hr (by simp [hm]))

/-- Bytes that come in one go. -/
theorem sigRecvAll_bytes (fin : Int) (e : List Arrival) : ∀ (p : Str) (n : Nat) (got : Str), p.length ≤ n →
    sigRecvAll fin n got (inOneGo p ++ e) = sigRecvAll fin (n - p.length) (got ++ p) e := by
  intro p
  induction p with
  | nil => intro n got _; simp [inOneGo]
  | cons x p ih =>
    intro n got hn
    simp only [List.length_cons] at hn
    have : inOneGo (x :: p) ++ e = .byte x :: (inOneGo p ++ e) := rfl
    rw [this, sigRecvAll, if_neg (by omega)]
    rw [ih _ _ (by omega)]
    simp only [List.length_cons, List.append_assoc, List.singleton_append]
    congr 1
    omega

/-- In general: a complete read delivers the beginning of what comes. -/
theorem sigRecvAll_spec (fin : Int) : ∀ (as : List Arrival) (n : Nat) (got : Str) {rc b c}, sigRecvAll fin n got as = (rc, b, c) →
    c.fin = fin ∧ ((rc = b.length ∧ ∃ x, b = got ++ x ∧ x.length ≤ n ∧ arrivalBytes as = x ++ arrivalBytes c.todo) ∨
      (rc = fin ∨ rc = -1)) := by
  intro as
  induction as with
  | nil =>
    intro n got rc b c h
    simp only [sigRecvAll, Prod.mk.injEq] at h
    obtain ⟨h1, rfl, rfl⟩ := h
    refine ⟨rfl, ?_⟩
    split at h1
    · exact Or.inl ⟨h1.symm, [], by simp, by simp, rfl⟩
    · exact Or.inr (Or.inl h1.symm)
  | cons a as ih =>
    intro n got rc b c h
    rw [sigRecvAll.eq_def] at h
    simp only at h
    split at h
    · cases h
      exact ⟨rfl, Or.inl ⟨rfl, [], by simp, by simp, rfl⟩⟩
    · rename_i hn
      cases a with
      | byte x =>
        obtain ⟨h1, h2⟩ := ih _ _ h
        refine ⟨h1, ?_⟩
        rcases h2 with ⟨h2, y, h3, h4, h5⟩ | h2
        · exact Or.inl ⟨h2, x :: y, by rw [h3]; simp, by simp only [List.length_cons]; omega, by simp [arrivalBytes, h5]⟩
        · exact Or.inr h2
      | signal r =>
        simp only at h
        split at h
        · cases h
          exact ⟨rfl, Or.inl ⟨rfl, [], by simp, by simp, rfl⟩⟩
        · split at h
          · exact ih _ _ h
          · cases h
            exact ⟨rfl, Or.inr (Or.inr rfl)⟩

/-- A complete read of a body that comes in one go, after restarting signals. -/
theorem sigReadFull_body {t e2 : List Arrival} {body : Str} {fin n : Int} (ht : arrivalBytes t = []) (hr : Restarting t)
    (hn : n = body.length) (hpos : 0 < n) (hmax : body.length ≤ maxRw) :
    sigReadFull ⟨t ++ (inOneGo body ++ e2), fin⟩ n.toNat = (n, cString body, ⟨e2, fin⟩) := by
  have hm : min n.toNat maxRw = body.length := by omega
  have hlast : sigRecvAll fin 0 body e2 = ((body.length : Int), body, ⟨e2, fin⟩) := by
    cases e2 <;> simp [sigRecvAll]
  unfold sigReadFull
  simp only
  rw [hm, sigRecvAll_skip fin body.length (by omega) _ t ht hr, sigRecvAll_bytes fin e2 body body.length [] (Nat.le_refl _)]
  rw [Nat.sub_self, List.nil_append, hlast]
  have : n.toNat + 1 - body.length = 0 + 1 := by omega
  rw [this, cString_append, ← hn]

/-- C174, what holds: when every signal that comes with the request's header restarts interrupted calls, and none comes between the first
and the last byte of its body, the request is served as if no signal had come.  Missing: signals whose handlers do not restart calls,
and signals while the body is read (both refuted). -/
theorem C174_served_partial (env : Env) (s : Server σ) (u : σ) (head body : Str) (e1 e2 : List Arrival) (fin : Int) (q : HttpReq)
    (hr : Restarting e1) (hb : arrivalBytes e1 = head ++ crlf2) (h1 : ¬ Occurs crlf2 (head ++ crlf2.dropLast))
    (hp : reqParse {} (head ++ crlf2) = .ok (q, kSuccess)) (hn : (headerGetContentLength q.header).toNat = body.length)
    (hl : (head ++ crlf2).length < 2 ^ 31) (hmax : body.length ≤ maxRw) (hf : Fits (head ++ crlf2 ++ (body ++ arrivalBytes e2))) :
    handleReadSig env s ⟨e1 ++ (inOneGo body ++ e2), fin⟩ u =
      handleRead env s ⟨arrivalBytes (e1 ++ (inOneGo body ++ e2)), fin⟩ u := by
  have h2 := parsed_start hl hp
  obtain ⟨t, ht, htb, htr⟩ := sigReadHead (fin := fin) (e2 := inOneGo body ++ e2) hr hb h1 (by simpa using h2 []) hl
  have hs := readHead (fin := fin) h1 (h2 (body ++ arrivalBytes e2)) hf
  rw [toInt32_small hl] at hs
  have he : arrivalBytes (e1 ++ (inOneGo body ++ e2)) = head ++ crlf2 ++ (body ++ arrivalBytes e2) := by
    rw [arrivalBytes_append, arrivalBytes_append, arrivalBytes_inOneGo, hb]
  have hlen : ¬ (((head ++ crlf2).length : Nat) : Int) ≤ 0 := by simp [crlf2]; omega
  have hk : ¬ (kSuccess ≠ kSuccess) := by simp
  rw [he]
  unfold handleReadSig handleRead
  rw [ht, hs]
  simp only [ok_bind]
  rw [if_neg hlen, if_neg hlen, hp]
  simp only [ok_bind]
  rw [if_neg hk, if_neg hk]
  by_cases hc : headerGetContentLength q.header > 0
  · rw [if_pos hc, if_pos hc, sigReadFull_body htb htr (by omega) hc hmax, readBody (by omega) hc hmax]
    simp only
    rw [if_neg (by omega), if_neg (by omega)]
    rfl
  · rw [if_neg hc, if_neg hc]
    have hb0 : body = [] := List.length_eq_zero_iff.1 (by omega)
    subst hb0
    have : (SigConn.conn ⟨t ++ (inOneGo [] ++ e2), fin⟩) = ⟨[] ++ arrivalBytes e2, fin⟩ := by
      unfold SigConn.conn
      rw [arrivalBytes_append, htb]
      rfl
    rw [this]

/-- C174 is false: a signal that comes while the body is read, even one whose handler restarts interrupted calls, makes the server call
the handler with the part of the body that had come; the rest of the body is left to be read as the next request. -/
theorem C174_body_refuted (env : Env) (s : Server σ) (u : σ) (head part : Str) (e1 e2 : List Arrival) (restarts : Bool) (fin : Int)
    (q : HttpReq) (hr : Restarting e1) (hb : arrivalBytes e1 = head ++ crlf2) (h1 : ¬ Occurs crlf2 (head ++ crlf2.dropLast))
    (hp : reqParse {} (head ++ crlf2) = .ok (q, kSuccess)) (hpart : part ≠ [])
    (hn : (part.length : Int) < headerGetContentLength q.header) (hl : (head ++ crlf2).length < 2 ^ 31) (hmax : part.length < maxRw) :
    handleReadSig env s ⟨e1 ++ (inOneGo part ++ .signal restarts :: e2), fin⟩ u =
      serveRequest env s { q with body := cString part } ⟨arrivalBytes e2, fin⟩ u := by
  have h2 := parsed_start hl hp
  obtain ⟨t, ht, htb, htr⟩ := sigReadHead (fin := fin) (e2 := inOneGo part ++ .signal restarts :: e2) hr hb h1 (by simpa using h2 []) hl
  have hlen : ¬ (((head ++ crlf2).length : Nat) : Int) ≤ 0 := by simp [crlf2]; omega
  have hk : ¬ (kSuccess ≠ kSuccess) := by simp
  have hc : headerGetContentLength q.header > 0 := by omega
  have hpos := List.length_pos_iff.2 hpart
  have hread : sigReadFull ⟨t ++ (inOneGo part ++ .signal restarts :: e2), fin⟩ (headerGetContentLength q.header).toNat =
      ((part.length : Int), cString part, ⟨e2, fin⟩) := by
    have hlast : sigRecvAll fin (min (headerGetContentLength q.header).toNat maxRw - part.length) part (.signal restarts :: e2) =
        ((part.length : Int), part, ⟨e2, fin⟩) := by
      rw [sigRecvAll, if_neg (by omega), if_pos hpart]
    unfold sigReadFull
    simp only
    rw [sigRecvAll_skip fin _ (by omega) _ t htb htr, sigRecvAll_bytes fin _ part _ [] (by omega), List.nil_append, hlast]
    have : (headerGetContentLength q.header).toNat + 1 - part.length = (headerGetContentLength q.header).toNat - part.length + 1 := by omega
    simp only
    rw [this, cString_append]
  unfold handleReadSig
  rw [ht]
  simp only [ok_bind]
  rw [if_neg hlen, hp]
  simp only [ok_bind]
  rw [if_neg hk, if_pos hc, hread]
  simp only
  rw [if_neg (by omega)]
  rfl

theorem untilTest_hit {delim : Str} {last ch : Byte} {buf : Str} (h : untilTest delim last ch buf = .hit) : Occurs delim buf := by
  unfold untilTest at h
  split at h
  · cases hx : substrFrom buf (szSub buf.length delim.length) with
    | error e => rw [hx] at h; cases h
    | ok t =>
      rw [hx] at h
      simp only at h
      split at h
      · rename_i ht
        unfold substrFrom at hx
        split at hx
        · cases hx
          exact occurs_iff_infix.2 (ht ▸ (List.drop_suffix _ _).isInfix)
        · cases hx
      · cases h
  · cases h

/-- A signal that does not restart calls ends `ReadUntil` if the delimiter has not come. -/
theorem sigUntilLoop_cut (delim : Str) (last : Byte) (fin : Int) (e2 : List Arrival) : ∀ (e1 : List Arrival) (ch : Byte) (buf : Str),
    ¬ Occurs delim (buf ++ arrivalBytes e1) → ∀ {k b c}, sigUntilLoop delim last fin ch buf (e1 ++ .signal false :: e2) = .ok (k, b, c) →
    k = -1 := by
  intro e1
  induction e1 with
  | nil =>
    intro ch buf hno k b c h
    rw [sigUntilLoop_test] at h
    cases ht : untilTest delim last ch buf with
    | throws e => rw [ht] at h; cases h
    | hit => exact absurd (by simpa [arrivalBytes] using untilTest_hit ht) hno
    | miss => rw [ht] at h; cases h; rfl
  | cons a e1 ih =>
    intro ch buf hno k b c h
    rw [sigUntilLoop_test] at h
    cases ht : untilTest delim last ch buf with
    | throws e => rw [ht] at h; cases h
    | hit =>
      refine absurd ?_ hno
      have := occurs_iff_infix.1 (untilTest_hit ht)
      exact occurs_iff_infix.2 (this.trans (List.prefix_append _ _).isInfix)
    | miss =>
      rw [ht] at h
      rcases a with x | (_ | _)
      · exact ih x (buf ++ [x]) (by simpa [arrivalBytes] using hno) h
      · cases h; rfl
      · exact ih ch buf (by simpa [arrivalBytes] using hno) h

/-- C174 is false: a signal whose handler does not restart interrupted calls, at any moment before the header is complete, makes the
server close the connection without an answer (or die of the exception of C34), whatever would have come. -/
theorem C174_interrupted_refuted (env : Env) (s : Server σ) (u : σ) (e1 e2 : List Arrival) (fin : Int)
    (h1 : ¬ Occurs crlf2 (arrivalBytes e1)) (r : Served σ)
    (h : handleReadSig env s ⟨e1 ++ .signal false :: e2, fin⟩ u = .ok r) : r.sent = [] ∧ r.closed = true ∧ r.user = u := by
  unfold handleReadSig at h
  cases hx : sigReadUntil ⟨e1 ++ .signal false :: e2, fin⟩ [] crlf2 with
  | error e => rw [hx] at h; cases h
  | ok x =>
    obtain ⟨k, b, c⟩ := x
    rw [hx] at h
    have hlast : crlf2.getLast? = some 10 := rfl
    unfold sigReadUntil at hx
    rw [hlast] at hx
    have hk := sigUntilLoop_cut crlf2 10 fin e2 e1 0 [] (by simpa using h1) hx
    simp only [ok_bind] at h
    rw [if_pos (by omega)] at h
    cases h
    exact ⟨rfl, rfl, rfl⟩

/-- C174 is false: a signal whose handler does not restart interrupted calls, between the header and the first byte of the body, makes
the server close the connection without an answer; no handler is called. -/
theorem C174_between_refuted (env : Env) (s : Server σ) (u : σ) (head : Str) (e1 e2 : List Arrival) (fin : Int)
    (q : HttpReq) (hr : Restarting e1) (hb : arrivalBytes e1 = head ++ crlf2) (h1 : ¬ Occurs crlf2 (head ++ crlf2.dropLast))
    (hp : reqParse {} (head ++ crlf2) = .ok (q, kSuccess)) (hn : 0 < headerGetContentLength q.header)
    (hl : (head ++ crlf2).length < 2 ^ 31) :
    handleReadSig env s ⟨e1 ++ .signal false :: e2, fin⟩ u =
      .ok { sent := [], closed := true, conn := ⟨arrivalBytes e2, fin⟩, user := u, types := env.types } := by
  have h2 := parsed_start hl hp
  obtain ⟨t, ht, htb, htr⟩ := sigReadHead (fin := fin) (e2 := .signal false :: e2) hr hb h1 (by simpa using h2 []) hl
  have hlen : ¬ (((head ++ crlf2).length : Nat) : Int) ≤ 0 := by simp [crlf2]; omega
  have hk : ¬ (kSuccess ≠ kSuccess) := by simp
  have hm : min (headerGetContentLength q.header).toNat maxRw ≠ 0 := by simp only [maxRw]; omega
  have hread : (sigReadFull ⟨t ++ .signal false :: e2, fin⟩ (headerGetContentLength q.header).toNat).1 = -1 ∧
      (sigReadFull ⟨t ++ .signal false :: e2, fin⟩ (headerGetContentLength q.header).toNat).2.2 = ⟨e2, fin⟩ := by
    have hlast : sigRecvAll fin (min (headerGetContentLength q.header).toNat maxRw) [] (.signal false :: e2) = (-1, [], ⟨e2, fin⟩) := by
      rw [sigRecvAll, if_neg hm]
      simp
    unfold sigReadFull
    simp only
    rw [sigRecvAll_skip fin _ (by omega) _ t htb htr, hlast]
    exact ⟨rfl, rfl⟩
  unfold handleReadSig
  rw [ht]
  simp only [ok_bind]
  rw [if_neg hlen, hp]
  simp only [ok_bind]
  rw [if_neg hk, if_pos hn, if_pos (by rw [hread.1]; decide), hread.2]
  rfl

/-- C174, what holds of requests without a body: whatever signals come, the server does what it would have done without them, or it
closes the connection and has called no handler and written nothing.  Missing: requests with a body, and the second case (both
refuted). -/
theorem C174_bodiless_partial (env : Env) (s : Server σ) (c : SigConn) (u : σ)
    (hn : ∀ len buf c' q, sockReadUntil c.conn [] crlf2 = .ok (len, buf, c') → reqParse {} buf = .ok (q, kSuccess) →
      headerGetContentLength q.header ≤ 0) :
    handleReadSig env s c u = handleRead env s c.conn u ∨
    ∃ r, handleReadSig env s c u = .ok r ∧ r.sent = [] ∧ r.closed = true ∧ r.user = u := by
  unfold handleReadSig handleRead
  rcases sigReadUntil_cases c [] crlf2 with h | ⟨b, as, h, _⟩
  · refine Or.inl ?_
    cases hx : sigReadUntil c [] crlf2 with
    | error e =>
      rw [hx] at h
      have h' : sockReadUntil c.conn [] crlf2 = .error e := h.symm
      rw [h']
      rfl
    | ok x =>
      obtain ⟨k, b, c'⟩ := x
      rw [hx] at h
      have h' : sockReadUntil c.conn [] crlf2 = .ok (k, b, c'.conn) := h.symm
      rw [h']
      simp only [ok_bind]
      split
      · rfl
      · cases hp : reqParse {} b with
        | error e => rfl
        | ok y =>
          obtain ⟨q, rc⟩ := y
          simp only [ok_bind]
          by_cases hrc : rc = kSuccess
          · subst hrc
            have hc := hn k b c'.conn q h' hp
            have hk : ¬ (kSuccess ≠ kSuccess) := by simp
            rw [if_neg hk, if_neg hk, if_neg (by omega), if_neg (by omega)]
          · rw [if_pos hrc, if_pos hrc]
  · refine Or.inr ?_
    rw [h]
    simp only [ok_bind]
    rw [if_pos (by omega)]
    exact ⟨_, rfl, rfl, rfl, rfl⟩

/-- C174 for the client: whatever signals come, when `Send` returns success the response is what it would have been without them; a
signal can only make it fail. -/
theorem C174_client (o : HashOrder) (req : HttpReq) (resp : HttpResp) (writeRc : Int) (c : SigConn) (hfin : c.fin ≤ 0) (r : Sent)
    (h : clientSendSig o req resp writeRc c = .ok r) (h0 : r.rc = 0) : clientSend o req resp writeRc c.conn = .ok r := by
  unfold clientSendSig at h
  unfold clientSend
  generalize reqBuild o req [] = b at h ⊢
  obtain ⟨req', text, rc⟩ := b
  simp only at h ⊢
  split
  · rename_i hrc
    rw [if_pos hrc] at h
    exact h
  · rename_i hrc
    rw [if_neg hrc] at h
    split
    · rename_i hw
      rw [if_pos hw] at h
      exact h
    · rename_i hw
      rw [if_neg hw] at h
      rcases sigReadUntil_cases c [] crlf2 with g | ⟨b, as, g, _⟩
      · cases hx : sigReadUntil c [] crlf2 with
        | error e => rw [hx] at h; cases h
        | ok x =>
          obtain ⟨k, b, c'⟩ := x
          rw [hx] at h g
          have g' : sockReadUntil c.conn [] crlf2 = .ok (k, b, c'.conn) := g.symm
          rw [g']
          simp only [ok_bind] at h ⊢
          split
          · rename_i hk
            rw [if_pos hk] at h
            exact h
          · rename_i hk
            rw [if_neg hk] at h
            cases hp : respParse resp b with
            | error e => rw [hp] at h; cases h
            | ok y =>
              obtain ⟨p, rc2⟩ := y
              rw [hp] at h
              simp only [ok_bind] at h ⊢
              split
              · rename_i hrc2
                rw [if_pos hrc2] at h
                exact h
              · rename_i hrc2
                rw [if_neg hrc2] at h
                split
                · rename_i hn
                  rw [if_pos hn] at h
                  have hcf : c'.fin = c.fin := by
                    unfold sigReadUntil at hx
                    have hlast : crlf2.getLast? = some 10 := rfl
                    rw [hlast] at hx
                    exact (sigUntilLoop_suffix _ _ _ _ _ _ hx).2
                  cases hy : sigRecvAll c'.fin (min (headerGetContentLength p.header).toNat maxRw) [] c'.todo with
                  | mk got x =>
                    obtain ⟨body, c2⟩ := x
                    have hfull : sigReadFull c' (headerGetContentLength p.header).toNat = (got, cString (body ++
                      List.replicate ((headerGetContentLength p.header).toNat + 1 - body.length) 0), c2) := by
                      unfold sigReadFull
                      rw [hy]
                    rw [hfull] at h
                    simp only at h
                    by_cases hg : got = headerGetContentLength p.header
                    · rw [if_neg (by simpa using hg)] at h
                      obtain ⟨hf2, ⟨hb, x, hbx, hx1, hx2⟩ | hbad⟩ := sigRecvAll_spec _ _ _ _ hy
                      · rw [List.nil_append] at hbx
                        subst hbx
                        have hlen : (headerGetContentLength p.header) = (body.length : Int) := by omega
                        have hcc : c'.conn = ⟨body ++ arrivalBytes c2.todo, c'.fin⟩ := by
                          unfold SigConn.conn
                          rw [hx2]
                        rw [hcc, readBody hlen hn (by omega)]
                        simp only
                        rw [if_neg (by simp)]
                        have hz : (headerGetContentLength p.header).toNat + 1 - body.length = 0 + 1 := by omega
                        rw [hz, cString_append] at h
                        rw [← h]
                        unfold SigConn.conn
                        rw [hf2]
                      · omega
                    · rw [if_pos hg] at h
                      cases h
                      exact absurd h0 (by simp [kLogicErr])
                · rename_i hn
                  rw [if_neg hn] at h
                  exact h
      · rw [g] at h
        simp only [ok_bind] at h
        rw [if_pos (by omega)] at h
        cases h
        exact absurd h0 (by simp [kLogicErr])

/-! ### Cases -/

/-- A request with three bytes of body, in one go. -/
def sigHead : Str := b!"POST /a HTTP/1.1\r\nContent-Length: 3"

/-- Restarting signals in the header and before the body: served as without. -/
example : (do
    let s ← demoServer
    let r ← handleReadSig {} s ⟨inOneGo b!"POST /a HT" ++ .signal true :: inOneGo b!"TP/1.1\r\nContent-Length: 3\r\n\r\n" ++
      .signal true :: (inOneGo b!"xyz" ++ .signal false :: inOneGo b!"GET"), 0⟩ []
    .ok (r.sent, r.closed, r.user, r.conn.input)) =
    (.ok ([demoAnswer], false, [(.POST, b!"/a", b!"xyz")], b!"GET") : Out _) := by decide +kernel

/-- A signal after the first byte of the body, although it restarts calls: the handler gets one byte, and the other two are the
beginning of the next request. -/
example : (do
    let s ← demoServer
    let r ← handleReadSig {} s ⟨inOneGo (sigHead ++ crlf2 ++ b!"x") ++ .signal true :: inOneGo b!"yz", 0⟩ []
    .ok (r.closed, r.user, r.conn.input)) = (.ok (false, [(.POST, b!"/a", b!"x")], b!"yz") : Out _) := by decide +kernel

/-- The hypotheses of `C174_body_refuted` and `C174_served_partial` about the header. -/
example : (reqParse {} (sigHead ++ crlf2)).map (fun x => (headerGetContentLength x.1.header, x.2)) = .ok (3, kSuccess) ∧
    find (sigHead ++ crlf2.dropLast) crlf2 = none ∧ arrivalBytes (inOneGo b!"POST /a HTTP/1.1\r\n" ++ .signal true ::
      inOneGo b!"Content-Length: 3\r\n\r\n") = sigHead ++ crlf2 := by decide +kernel

/-- A signal that does not restart calls, in the header: no answer. -/
example : (do
    let s ← demoServer
    let r ← handleReadSig {} s ⟨inOneGo b!"GET /a" ++ .signal false :: inOneGo b!" HTTP/1.1\r\n\r\n", 0⟩ []
    .ok (r.sent, r.closed, r.user)) = (.ok ([], true, []) : Out _) := by decide +kernel

/-- A client: a restarting signal in the header is harmless, one in the body makes `Send` fail. -/
example : (clientSendSig .insertion { method := .GET } {} 10 ⟨inOneGo b!"HTTP/1.1 200 OK\r\n" ++ .signal true ::
      inOneGo b!"Content-Length: 2\r\n\r\nhi", 0⟩).map (fun r => (r.rc, r.resp.body)) = .ok (0, b!"hi") ∧
    (clientSendSig .insertion { method := .GET } {} 10 ⟨inOneGo b!"HTTP/1.1 200 OK\r\nContent-Length: 2\r\n\r\nh" ++ .signal true ::
      inOneGo b!"i", 0⟩).map (·.rc) = .ok kLogicErr := by decide +kernel

end Cppnet
