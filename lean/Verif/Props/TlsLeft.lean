import Verif.Props.HttpTls
import Verif.Props.Memory

/-!
# C110: what a handler leaves on a TLS connection
-/

namespace Cppnet
open Spec
variable {σ : Type}

theorem skip_stream : ∀ (n : Nat) (t : Tls), n ≤ t.stream.length → (t.skip n).stream = t.stream.drop n := by
  intro n
  induction n with
  | zero => intro t _; rfl
  | succ n ih =>
    intro t hl
    have hs : t.stream ≠ [] := by intro e; rw [e] at hl; simp at hl
    obtain ⟨bytes, t1, h1, h2, h3, h4, _⟩ := read_some t (num := 1) (by omega) hs
    have hb : bytes.length = 1 := by have := List.length_pos_iff.2 h2; omega
    obtain ⟨b, rfl⟩ := List.length_eq_one_iff.1 hb
    simp only [Tls.skip, h1]
    rw [h4] at hl ⊢
    rw [ih t1 (by simpa using hl)]
    simp

theorem served_left {env : Env} {s : Server σ} {q : HttpReq} {t t2 t' : Tls} {u : σ} {r : Served σ} (hsuf : t2.stream <:+ t.stream)
    (h : (do
      let r ← serveRequest env s q ⟨t2.stream, t2.fin⟩ u
      (.ok (r, t2.skip (t2.stream.length - r.conn.input.length)) : Out (Served σ × Tls))) = .ok (r, t'))
    (hs : r.conn.input <:+ t.stream) : t'.stream = r.conn.input ∨
      ∃ q c, serveRequest env s q c u = .ok r ∧ c.input <:+ t.stream ∧ c.input.length < r.conn.input.length := by
  cases hr : serveRequest env s q ⟨t2.stream, t2.fin⟩ u with
  | error e => rw [hr] at h; cases h
  | ok r0 =>
    rw [hr] at h
    cases h
    by_cases hl : r.conn.input.length ≤ t2.stream.length
    · left
      rw [skip_stream _ _ (by omega)]
      obtain ⟨p, hp⟩ := List.suffix_of_suffix_length_le hs hsuf hl
      have : t2.stream.length - r.conn.input.length = p.length := by rw [← hp]; simp
      rw [this, ← hp]
      simp
    · exact .inr ⟨q, _, hr, hsuf, by simp only; omega⟩

/-- **C110** (what the handlers read): a handler that reads from a TLS connection takes the bytes off it, as on a plain one: what is
left to be read is exactly what the handlers left, however the bytes were cut into records.  (The other case is a handler that puts
bytes back, which no function of the socket can do.) -/
theorem C110_left_partial (env : Env) (s : Server σ) (t t' : Tls) (u : σ) (r : Served σ) (h : handleReadTls env s t u = .ok (r, t'))
    (hs : r.conn.input <:+ t.stream) : t'.stream = r.conn.input ∨
      ∃ q c, serveRequest env s q c u = .ok r ∧ c.input <:+ t.stream ∧ c.input.length < r.conn.input.length := by
  unfold handleReadTls at h
  cases h1 : tlsReadUntil t [] crlf2 with
  | error e => rw [h1] at h; cases h
  | ok x =>
    obtain ⟨len, buf, t1⟩ := x
    have suf1 : t1.stream <:+ t.stream := by
      obtain ⟨_, used, e, _⟩ := tlsReadUntil_reads h1
      exact ⟨used, e.symm⟩
    simp only [h1, ok_bind] at h
    split at h
    · cases h; exact .inl rfl
    · cases hp : reqParse {} buf with
      | error e => rw [hp] at h; cases h
      | ok y =>
        obtain ⟨q, rc⟩ := y
        simp only [hp, ok_bind] at h
        split at h
        · cases h; exact .inl rfl
        · split at h
          · cases h2 : tlsReadFull t1 (headerGetContentLength q.header).toNat with
            | error e => rw [h2] at h; cases h
            | ok z =>
              obtain ⟨rc2, body, t2⟩ := z
              have suf2 : t2.stream <:+ t1.stream := by
                have hc := contentLength_le q.header
                unfold tlsReadFull at h2
                cases h3 : tlsReadAll (headerGetContentLength q.header).toNat ((headerGetContentLength q.header).toNat + 1) t1 [] with
                | error e => rw [h3] at h2; cases h2
                | ok w =>
                  obtain ⟨_, used, e, _⟩ := tlsReadAll_reads _ (by omega) _ _ _ _ h3
                  rw [h3] at h2
                  cases h2
                  exact ⟨used, e.symm⟩
              simp only [h2, ok_bind] at h
              split at h
              · cases h; exact .inl rfl
              · exact served_left (suf2.trans suf1) h hs
          · exact served_left suf1 h hs

/- A handler that reads three bytes, which came in two records. -/
example : (do
    let s ← registerHandler [] b!"/a" { callback := some fun ctx => .ok { ctx with conn := { ctx.conn with input := ctx.conn.input.drop 3 } } }
      ({} : Server Unit)
    let t : Tls := ⟨[], [b!"GET /a HTTP/1.1\r\n\r\nab", b!"cdef"], 0⟩
    let (r, t') ← handleReadTls {} s t ()
    .ok (r.conn.input, t'.stream, t.stream.drop 22)) = (.ok (b!"def", b!"def", b!"def") : Out (Str × Str × Str)) := by
  decide +kernel

end Cppnet
