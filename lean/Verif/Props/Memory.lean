import Verif.Model.Memory
import Verif.Props.Conversation

/-!
# C162: what a message may cost
-/

namespace Cppnet
open Spec
variable {σ : Type}

theorem stoi_le {s : Str} {v : Int} (h : stoi s = .ok v) : v < 2 ^ 31 := by
  unfold stoi at h
  simp only at h
  generalize (if (splitSign (skipSpace s)).1 = true then _ else _ : Int) = w at h
  by_cases h0 : leadDigits (splitSign (skipSpace s)).2 = []
  · rw [if_pos h0] at h; cases h
  · rw [if_neg h0] at h
    by_cases hb : intMin ≤ w ∧ w ≤ intMax
    · rw [if_pos hb] at h
      cases h
      have := hb.2
      unfold intMax at this
      omega
    · rw [if_neg hb] at h; cases h

theorem contentLength_le (h : HttpHeader) : headerGetContentLength h < 2 ^ 31 := by
  unfold headerGetContentLength
  split
  · omega
  · split
    · exact stoi_le ‹_›
    · omega

/-- **C162**, what holds: a complete request makes the server ask for no larger block than the request is long, whatever
follows it; and any bytes at all for no larger one than 2 GiB.  If the block can be made, or 2 GiB can, the request is served as
with unlimited memory.  Missing: incomplete requests, see the refutation. -/
theorem C162_server_partial :
    (∀ (text later : Str) (fin : Int), CompleteRequest text → Fits (text ++ later) →
      ∃ b, serverBlock ⟨text ++ later, fin⟩ = .ok b ∧ ∀ n, b = some n → n ≤ text.length) ∧
    (∀ c n, serverBlock c = .ok (some n) → n ≤ 2 ^ 31) ∧
    (∀ room (env : Env) (s : Server σ) c u, (∀ n, serverBlock c = .ok (some n) → n ≤ room) →
      handleReadIn room env s c u = handleRead env s c u) ∧
    ∀ room (env : Env) (s : Server σ) c u, 2 ^ 31 ≤ room → handleReadIn room env s c u = handleRead env s c u := by
  have h2 : ∀ c n, serverBlock c = .ok (some n) → n ≤ 2 ^ 31 := by
    intro c n h
    simp only [serverBlock, bind, Except.bind] at h
    cases h4 : sockReadUntil c [] crlf2 with
    | error e => rw [h4] at h; cases h
    | ok x =>
      simp only [h4] at h
      by_cases h5 : x.1 ≤ 0
      · rw [if_pos h5] at h; cases h
      · rw [if_neg h5] at h
        cases h6 : reqParse {} x.2.1 with
        | error e => rw [h6] at h; cases h
        | ok y =>
          simp only [h6] at h
          by_cases h7 : y.2 ≠ kSuccess
          · rw [if_pos h7] at h; cases h
          · rw [if_neg h7] at h
            by_cases h8 : headerGetContentLength y.1.header > 0
            · rw [if_pos h8] at h
              cases h
              have := contentLength_le y.1.header
              omega
            · rw [if_neg h8] at h; cases h
  have h3 : ∀ room (env : Env) (s : Server σ) c u, (∀ n, serverBlock c = .ok (some n) → n ≤ room) →
      handleReadIn room env s c u = handleRead env s c u := by
    intro room env s c u h
    simp only [serverBlock, bind, Except.bind] at h
    simp only [handleReadIn, handleRead, bind, Except.bind]
    cases h4 : sockReadUntil c [] crlf2 with
    | error e => rfl
    | ok x =>
      simp only [h4] at h ⊢
      by_cases h5 : x.1 ≤ 0
      · simp only [h5, if_true]
      · simp only [h5, if_false] at h ⊢
        cases h6 : reqParse {} x.2.1 with
        | error e => rfl
        | ok y =>
          simp only [h6] at h ⊢
          by_cases h7 : y.2 ≠ kSuccess
          · rw [if_pos h7, if_pos h7]
          · rw [if_neg h7] at h
            rw [if_neg h7, if_neg h7]
            by_cases h8 : headerGetContentLength y.1.header > 0
            · rw [if_pos h8] at h
              rw [if_pos h8, if_pos h8, if_neg (by have := h _ rfl; omega)]
            · rw [if_neg h8, if_neg h8]
  refine ⟨fun text later fin hc hf => ?_, h2, h3, fun room env s c u hr => h3 room env s c u fun n hn => Nat.le_trans (h2 c n hn) hr⟩
  obtain ⟨head, body, q, rfl, h1, hp, ha, hb, hmax, hl⟩ := hc
  have e : head ++ crlf2 ++ body ++ later = head ++ crlf2 ++ (body ++ later) := by simp
  rw [e] at hf ⊢
  have hread := readHead (fin := fin) h1 (parsed_start hl hp _) hf
  rw [toInt32_small hl] at hread
  have hpos : ¬ ((head ++ crlf2).length : Int) ≤ 0 := by simp [crlf2]; omega
  simp only [serverBlock, hread, bind, Except.bind, hpos, if_false, hp, ne_eq, not_true_eq_false]
  by_cases h8 : headerGetContentLength q.header > 0
  · rw [if_pos h8]
    refine ⟨_, rfl, fun n hn => ?_⟩
    cases hn
    have : 4 ≤ (head ++ crlf2).length := by simp [crlf2]
    rw [List.length_append]
    omega
  · rw [if_neg h8]
    exact ⟨_, rfl, fun n hn => by cases hn⟩

/-- A request of forty-seven bytes. -/
def greedyRequest : Str := b!"POST / HTTP/1.1\r\nContent-Length: 2147483647\r\n\r\n"

/-- **C162**, refuted: a client that sends one header of 47 bytes makes the server ask for 2 GiB before anything of the body
has arrived, whatever the server's handlers are, also if there is no handler for the path.  If it does not get them the
program ends. -/
theorem C162_server_refuted : greedyRequest.length = 47 ∧
    ∀ (later : Str) (fin : Int), Fits (greedyRequest ++ later) →
      serverBlock ⟨greedyRequest ++ later, fin⟩ = .ok (some (2 ^ 31)) ∧
      ∀ room (env : Env) (s : Server σ) u, room < 2 ^ 31 →
        handleReadIn room env s ⟨greedyRequest ++ later, fin⟩ u = .error .terminate := by
  refine ⟨by decide +kernel, fun later fin hf => ?_⟩
  have e : greedyRequest = b!"POST / HTTP/1.1\r\nContent-Length: 2147483647" ++ crlf2 := by decide +kernel
  have hp : ∃ q, reqParse {} (b!"POST / HTTP/1.1\r\nContent-Length: 2147483647" ++ crlf2) = .ok (q, kSuccess) ∧
      headerGetContentLength q.header = 2147483647 := by
    refine ⟨_, rfl, ?_⟩
    decide +kernel
  obtain ⟨q, hq, hn⟩ := hp
  rw [e] at hf ⊢
  have hread := readHead (fin := fin) (head := b!"POST / HTTP/1.1\r\nContent-Length: 2147483647") (rest := later)
    (by rw [occurs_iff_infix]; decide +kernel) (by
      rw [List.append_assoc, List.take_append_of_le_length (by decide +kernel)]; decide +kernel) hf
  rw [toInt32_small (by decide +kernel)] at hread
  have hpos : ¬ ((b!"POST / HTTP/1.1\r\nContent-Length: 2147483647" ++ crlf2).length : Int) ≤ 0 := by decide +kernel
  refine ⟨?_, fun room env s u hr => ?_⟩
  · simp only [serverBlock, hread, bind, Except.bind, hpos, if_false, hq, ne_eq, not_true_eq_false, hn]
    rfl
  · simp only [handleReadIn, hread, bind, Except.bind, hpos, if_false, hq, ne_eq, not_true_eq_false, hn]
    rw [if_pos (by decide), if_pos (by simpa using hr)]

/-- The client's half of **C162**, what holds: when `Send` gets its answer, the block it asked for is no larger than what it
took from the stream; no answer makes it ask for more than 2 GiB; and if the block can be made, or 2 GiB can, `Send` does what it
does with unlimited memory. -/
theorem C162_client_partial :
    (∀ o req p w c sent, 0 < w → c.fin ≤ 0 → Fits c.input → clientSend o req p w c = .ok sent → sent.rc = 0 →
      ∃ b, clientBlock p c = .ok b ∧ ∀ n, b = some n → n + sent.conn.input.length ≤ c.input.length) ∧
    (∀ p c n, clientBlock p c = .ok (some n) → n ≤ 2 ^ 31) ∧
    (∀ room o req p w c, (∀ n, clientBlock p c = .ok (some n) → n ≤ room) →
      clientSendIn room o req p w c = clientSend o req p w c) ∧
    ∀ room o req p w c, 2 ^ 31 ≤ room → clientSendIn room o req p w c = clientSend o req p w c := by
  have h2 : ∀ p c n, clientBlock p c = .ok (some n) → n ≤ 2 ^ 31 := by
    intro p c n h
    simp only [clientBlock, bind, Except.bind] at h
    cases h4 : sockReadUntil c [] crlf2 with
    | error e => rw [h4] at h; cases h
    | ok x =>
      simp only [h4] at h
      by_cases h5 : x.1 ≤ 0
      · rw [if_pos h5] at h; cases h
      · rw [if_neg h5] at h
        cases h6 : respParse p x.2.1 with
        | error e => rw [h6] at h; cases h
        | ok y =>
          simp only [h6] at h
          by_cases h7 : y.2 ≠ kSuccess
          · rw [if_pos h7] at h; cases h
          · rw [if_neg h7] at h
            by_cases h8 : headerGetContentLength y.1.header > 0
            · rw [if_pos h8] at h
              cases h
              have := contentLength_le y.1.header
              omega
            · rw [if_neg h8] at h; cases h
  have h3 : ∀ room o req p w c, (∀ n, clientBlock p c = .ok (some n) → n ≤ room) →
      clientSendIn room o req p w c = clientSend o req p w c := by
    intro room o req p w c h
    simp only [clientBlock, bind, Except.bind] at h
    simp only [clientSendIn, clientSend, bind, Except.bind]
    split
    · rfl
    split
    · rfl
    cases h4 : sockReadUntil c [] crlf2 with
    | error e => rfl
    | ok x =>
      simp only [h4] at h ⊢
      by_cases h5 : x.1 ≤ 0
      · simp only [h5, if_true]
      · simp only [h5, if_false] at h ⊢
        cases h6 : respParse p x.2.1 with
        | error e => rfl
        | ok y =>
          simp only [h6] at h ⊢
          by_cases h7 : y.2 ≠ kSuccess
          · rw [if_pos h7, if_pos h7]
          · rw [if_neg h7] at h
            rw [if_neg h7, if_neg h7]
            by_cases h8 : headerGetContentLength y.1.header > 0
            · rw [if_pos h8] at h
              rw [if_pos h8, if_pos h8, if_neg (by have := h _ rfl; omega)]
            · rw [if_neg h8, if_neg h8]
  refine ⟨fun o req p w c sent hw hfin hf h hrc => ?_, h2, h3,
    fun room o req p w c hr => h3 room o req p w c fun n hn => Nat.le_trans (h2 p c n hn) hr⟩
  obtain ⟨⟨r', text, hb, -⟩, head, body, rest, q, e1, e2, hp, -, hlen, hconn⟩ := C39_success_partial o req p w c sent hw hfin hf h hrc
  simp only [clientSend, hb, bind, Except.bind, ne_eq, not_true_eq_false, if_false] at h
  rw [if_neg (by omega)] at h
  have hearly : ¬ EarlyEnd crlf2 0 c.input := by
    intro hearly
    have := ((C34_throws_iff_partial c [] crlf2 (by simp [Fits, crlf2]) (by simpa using hf)).1).2 (by simpa using hearly)
    rw [this] at h
    cases h
  have e3 : c.input = head ++ crlf2 ++ (body ++ rest) := by rw [e1]; simp
  have hread : sockReadUntil c [] crlf2 = .ok (toInt32 (head ++ crlf2).length, head ++ crlf2, ⟨body ++ rest, c.fin⟩) := by
    have hc : c = ⟨head ++ crlf2 ++ (body ++ rest), c.fin⟩ := by rw [← e3]
    rw [hc]
    refine readHead e2 ?_ (by rw [← e3]; exact hf)
    rw [← e3, ← earlyEnd_crlf2]; exact hearly
  rw [hread] at h
  simp only at h
  by_cases h5 : toInt32 (head ++ crlf2).length ≤ 0
  · rw [if_pos h5] at h; cases h; simp [kLogicErr] at hrc
  simp only [clientBlock, hread, bind, Except.bind, hp, ne_eq, not_true_eq_false, if_false, h5]
  by_cases h8 : headerGetContentLength q.header > 0
  · rw [if_pos h8]
    refine ⟨_, rfl, fun n hn => ?_⟩
    cases hn
    rw [hconn, e1]
    simp only [List.length_append, crlf2, List.length_cons, List.length_nil] at hlen ⊢
    omega
  · rw [if_neg h8]
    exact ⟨_, rfl, fun n hn => by cases hn⟩

/-- A response of forty-seven bytes. -/
def greedyResponse : Str := b!"HTTP/1.1 200 OK\r\nContent-Length: 2147483647\r\n\r\n"

/-- The client's half of **C162**, refuted: a server that sends 47 bytes makes the client ask for 2 GiB. -/
theorem C162_client_refuted : greedyResponse.length = 47 ∧
    ∀ (later : Str) (fin : Int), Fits (greedyResponse ++ later) →
      clientBlock {} ⟨greedyResponse ++ later, fin⟩ = .ok (some (2 ^ 31)) ∧
      ∀ room o (req : HttpReq) w req' text, reqBuild o req [] = (req', text, kSuccess) → 0 < w → room < 2 ^ 31 →
        clientSendIn room o req {} w ⟨greedyResponse ++ later, fin⟩ = .error .terminate := by
  refine ⟨by decide +kernel, fun later fin hf => ?_⟩
  have e : greedyResponse = b!"HTTP/1.1 200 OK\r\nContent-Length: 2147483647" ++ crlf2 := by decide +kernel
  have hp : ∃ q, respParse {} (b!"HTTP/1.1 200 OK\r\nContent-Length: 2147483647" ++ crlf2) = .ok (q, kSuccess) ∧
      headerGetContentLength q.header = 2147483647 := by
    have : (respParse {} (b!"HTTP/1.1 200 OK\r\nContent-Length: 2147483647" ++ crlf2)).map
        (fun x => (x.2, headerGetContentLength x.1.header)) = .ok (kSuccess, 2147483647) := by decide +kernel
    cases h : respParse {} (b!"HTTP/1.1 200 OK\r\nContent-Length: 2147483647" ++ crlf2) with
    | error e => rw [h] at this; cases this
    | ok x =>
      rw [h] at this
      simp only [Except.map, Except.ok.injEq, Prod.mk.injEq] at this
      exact ⟨x.1, by rw [← this.1], this.2⟩
  obtain ⟨q, hq, hn⟩ := hp
  rw [e] at hf ⊢
  have hread := readHead (fin := fin) (head := b!"HTTP/1.1 200 OK\r\nContent-Length: 2147483647") (rest := later)
    (by rw [occurs_iff_infix]; decide +kernel) (by
      rw [List.append_assoc, List.take_append_of_le_length (by decide +kernel)]; decide +kernel) hf
  rw [toInt32_small (by decide +kernel)] at hread
  have hpos : ¬ ((b!"HTTP/1.1 200 OK\r\nContent-Length: 2147483647" ++ crlf2).length : Int) ≤ 0 := by decide +kernel
  refine ⟨?_, fun room o req w req' text hb hw hr => ?_⟩
  · simp only [clientBlock, hread, bind, Except.bind, hpos, if_false, hq, ne_eq, not_true_eq_false, hn]
    rfl
  · simp only [clientSendIn, hb, hread, bind, Except.bind, hpos, if_false, hq, ne_eq, not_true_eq_false, hn]
    rw [if_neg (by omega), if_pos (by decide), if_pos (by simpa using hr)]

example : serverBlock ⟨b!"POST / HTTP/1.1\r\nContent-Length: 3\r\n\r\nabcGET", 0⟩ = .ok (some 4) ∧
    serverBlock ⟨b!"GET / HTTP/1.1\r\nHost: h\r\n\r\n", 0⟩ = .ok none ∧
    clientBlock {} ⟨b!"HTTP/1.1 200 OK\r\nContent-Length: 3\r\n\r\nabc", 0⟩ = .ok (some 4) := by
  decide +kernel

end Cppnet
