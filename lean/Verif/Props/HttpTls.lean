import Verif.Proofs.Tls
import Verif.Props.Conversation

/-!
# C110–C112 (and C47): HTTP over TLS
-/

namespace Cppnet
open Spec
variable {σ : Type}
set_option synthInstance.maxSize 1000

/-- After the header block of `c`'s stream the announced body follows in full (at most what one `recv` can deliver). -/
def Spec.BodyThere (c : Conn) : Prop :=
  ∀ len buf c' q, sockReadUntil c [] crlf2 = .ok (len, buf, c') → reqParse {} buf = .ok (q, kSuccess) →
    headerGetContentLength q.header ≤ c'.input.length ∧ headerGetContentLength q.header ≤ maxRw

/-- A complete read of what is there, over TLS and plain. -/
theorem tlsReadFull_there (t : Tls) (n : Nat) (hn : 0 < n) (hmax : n ≤ maxRw) (hl : n ≤ t.stream.length) (hfin : t.fin ≤ 0) :
    ∃ t', tlsReadFull t n = .ok ((n : Int), cString (t.stream.take n), t') ∧ t'.conn = ⟨t.stream.drop n, t.fin⟩ ∧
      sockRead t.conn n true 0 = ((n : Int), cString (t.stream.take n), (⟨t.stream.drop n, t.fin⟩ : Conn)) := by
  have hmax' : n < 2 ^ 31 := by unfold maxRw at hmax; omega
  rcases tlsReadAll_spec n hmax' (n + 1) t [] hfin (by simp) (by simp) with ⟨bytes, t', h1, h2, h3, h4⟩ | ⟨h1, _⟩
  · simp only [List.length_nil, Nat.zero_add] at h2
    have e1 : t.stream.take n = bytes := by rw [h1, List.take_append_of_le_length (by omega), List.take_of_length_le (by omega)]
    have e2 : t.stream.drop n = t'.stream := by
      rw [h1, List.drop_append_of_le_length (by omega), List.drop_eq_nil_of_le (by omega)]; rfl
    refine ⟨t', ?_, by rw [e2, ← h3]; rfl, ?_⟩
    · simp only [tlsReadFull, h4, bind, Except.bind, List.nil_append, e1]
    · obtain ⟨b, rest, f1, f2, f3, f4, _, f6, _⟩ := C35_read_partial t.conn n 0 true hn (by
        intro e
        have e' : t.stream = [] := e
        rw [e'] at hl
        simp at hl
        omega)
      have hb := f4 rfl hmax hl
      have f1' : t.stream = b ++ rest := f1
      have e3 : t.stream.take n = b := by rw [f1', List.take_append_of_le_length (by omega), List.take_of_length_le (by omega)]
      have e4 : t.stream.drop n = rest := by
        rw [f1', List.drop_append_of_le_length (by omega), List.drop_eq_nil_of_le (by omega)]; rfl
      rw [f6, e3, e4, hb]
      rfl
  · simp at h1
    omega

/-- How the header block is read over TLS. -/
theorem tlsReadUntil_cases (t : Tls) (hfin : t.fin ≤ 0) :
    (∃ e, tlsReadUntil t [] crlf2 = .error e ∧ sockReadUntil t.conn [] crlf2 = .error e) ∨
    (∃ len buf t', tlsReadUntil t [] crlf2 = .ok (len, buf, t') ∧ sockReadUntil t.conn [] crlf2 = .ok (len, buf, t'.conn) ∧
      t'.fin = t.fin) := by
  have h := tlsReadUntil_conn t [] crlf2 hfin
  cases hx : tlsReadUntil t [] crlf2 with
  | error e => rw [hx] at h; exact Or.inl ⟨e, rfl, h.symm⟩
  | ok r =>
    obtain ⟨len, buf, t'⟩ := r
    rw [hx] at h
    obtain ⟨_, _, _, hf, _⟩ := tlsReadUntil_reads hx
    exact Or.inr ⟨len, buf, t', rfl, h.symm, hf⟩

/-- C110: a TLS connection is served like a plain one: whatever the records are, `HandleRead` calls the handlers with
the same request, writes the same, and leaves the same state, as for the same bytes on a plain connection (the body, if
one is announced, being there in full). -/
theorem C110_like_plain (env : Env) (s : Server σ) (t : Tls) (u : σ) (hfin : t.fin ≤ 0) (hb : BodyThere ⟨t.stream, t.fin⟩) :
    (handleReadTls env s t u).map Prod.fst = handleRead env s ⟨t.stream, t.fin⟩ u := by
  have hserve : ∀ (q : HttpReq) (t' : Tls), Except.map Prod.fst (do
      let r ← serveRequest env s q ⟨t'.stream, t'.fin⟩ u
      (.ok (r, t'.skip (t'.stream.length - r.conn.input.length)) : Out (Served σ × Tls))) = serveRequest env s q t'.conn u := by
    intro q t'
    unfold Tls.conn
    cases serveRequest env s q ⟨t'.stream, t'.fin⟩ u with
    | error e => rfl
    | ok r => rfl
  have hk : ¬ (kSuccess ≠ kSuccess) := by simp
  unfold handleReadTls handleRead
  rcases tlsReadUntil_cases t hfin with ⟨e, h1, h2⟩ | ⟨len, buf, t', h1, h2, h3⟩
  · have h2' : sockReadUntil ⟨t.stream, t.fin⟩ [] crlf2 = .error e := h2
    simp only [h1, h2', bind, Except.bind, Except.map]
  · have h2' : sockReadUntil ⟨t.stream, t.fin⟩ [] crlf2 = .ok (len, buf, t'.conn) := h2
    simp only [h1, h2', ok_bind]
    split
    · rfl
    · cases hp : reqParse {} buf with
      | error e => rfl
      | ok y =>
        obtain ⟨q, rc⟩ := y
        simp only [ok_bind]
        by_cases hrc : rc = kSuccess
        · subst hrc
          rw [if_neg hk, if_neg hk]
          obtain ⟨hn1, hn2⟩ := hb len buf t'.conn q h2' hp
          by_cases hn : headerGetContentLength q.header > 0
          · rw [if_pos hn, if_pos hn]
            have hl : (headerGetContentLength q.header).toNat ≤ t'.stream.length := by
              have : t'.conn.input = t'.stream := rfl
              rw [this] at hn1
              omega
            obtain ⟨t2, g1, g2, g3⟩ := tlsReadFull_there t' (headerGetContentLength q.header).toNat (by omega) (by omega) hl (by omega)
            simp only [g1, g3, ok_bind]
            have hz : ¬ ((headerGetContentLength q.header).toNat : Int) ≤ 0 := by omega
            rw [if_neg hz, if_neg hz, ← g2]
            exact hserve _ _
          · rw [if_neg hn, if_neg hn]
            exact hserve _ _
        · rw [if_pos hrc, if_pos hrc]
          rfl

/-- C47 over TLS, where it holds: a request whose body is not complete when the stream ends is not served; nothing is
answered and the connection is closed. -/
theorem C47_tls_partial (env : Env) (s : Server σ) (t : Tls) (u : σ) (hfin : t.fin ≤ 0) (head part : Str)
    (ht : t.stream = head ++ crlf2 ++ part) (h1 : ¬ Occurs crlf2 (head ++ crlf2.dropLast)) (hl : (head ++ crlf2).length < 2 ^ 31)
    (hf : Fits t.stream) (q : HttpReq) (hp : reqParse {} (head ++ crlf2) = .ok (q, kSuccess))
    (hshort : (part.length : Int) < headerGetContentLength q.header) (hmax : headerGetContentLength q.header < 2 ^ 31) :
    ∃ r t', handleReadTls env s t u = .ok (r, t') ∧ r.sent = [] ∧ r.closed = true ∧ r.user = u := by
  rw [ht] at hf
  have hr := readHead (fin := t.fin) h1 (parsed_start hl hp part) hf
  rw [← ht, toInt32_small hl] at hr
  rcases tlsReadUntil_cases t hfin with ⟨e, _, g2⟩ | ⟨len, buf, t', g1, g2, g3⟩
  · have g2' : sockReadUntil ⟨t.stream, t.fin⟩ [] crlf2 = .error e := g2
    rw [hr] at g2'
    cases g2'
  · have g2' : sockReadUntil ⟨t.stream, t.fin⟩ [] crlf2 = .ok (len, buf, t'.conn) := g2
    rw [hr] at g2'
    simp only [Except.ok.injEq, Prod.mk.injEq] at g2'
    obtain ⟨e1, e2, e3⟩ := g2'
    have e4 : t'.stream = part := (congrArg Conn.input e3).symm
    unfold handleReadTls
    simp only [g1, ok_bind]
    rw [← e1, ← e2, if_neg (by simp [crlf2]; omega), hp]
    simp only [ok_bind]
    rw [if_neg (by simp), if_pos (by omega)]
    rcases tlsReadAll_spec (headerGetContentLength q.header).toNat (by omega) ((headerGetContentLength q.header).toNat + 1) t' []
      (by omega) (by simp) (by simp) with ⟨bytes, t2, f1, f2, _⟩ | ⟨_, bytes, t2, f2⟩
    · have := congrArg List.length f1
      simp only [List.length_append, e4, List.length_nil] at this f2
      omega
    · simp only [tlsReadFull, f2, ok_bind]
      rw [if_pos (by decide)]
      exact ⟨_, _, rfl, rfl, rfl, rfl⟩

/-- C112: a TLS client gets what a plain client gets from the same bytes: `Send` returns the same code and fills the
response in the same way, whatever the records are. -/
theorem C112_like_plain (o : HashOrder) (req : HttpReq) (resp : HttpResp) (writeRc : Int) (t : Tls) (hfin : t.fin ≤ 0)
    (hmax : ∀ len buf c' p, sockReadUntil ⟨t.stream, t.fin⟩ [] crlf2 = .ok (len, buf, c') → respParse resp buf = .ok (p, kSuccess) →
      headerGetContentLength p.header ≤ maxRw) :
    (clientSendTls o req resp writeRc t).map (fun r => (r.1.rc, r.1.req, r.1.resp, r.1.written)) =
    (clientSend o req resp writeRc ⟨t.stream, t.fin⟩).map (fun r => (r.rc, r.req, r.resp, r.written)) := by
  have hk : ¬ (kSuccess ≠ kSuccess) := by simp
  unfold clientSendTls clientSend
  generalize reqBuild o req [] = b
  obtain ⟨req', text, rc⟩ := b
  simp only
  split
  · rfl
  · split
    · rfl
    · rcases tlsReadUntil_cases t hfin with ⟨e, h1, h2⟩ | ⟨len, buf, t', h1, h2, h3⟩
      · have h2' : sockReadUntil ⟨t.stream, t.fin⟩ [] crlf2 = .error e := h2
        rw [h1, h2']
        rfl
      · have h2' : sockReadUntil ⟨t.stream, t.fin⟩ [] crlf2 = .ok (len, buf, t'.conn) := h2
        simp only [h1, h2', ok_bind]
        split
        · rfl
        · cases hp : respParse resp buf with
          | error e => rfl
          | ok y =>
            obtain ⟨p, rc⟩ := y
            simp only [ok_bind]
            by_cases hrc : rc = kSuccess
            · subst hrc
              rw [if_neg hk, if_neg hk]
              have hm := hmax len buf t'.conn p h2' hp
              by_cases hn : headerGetContentLength p.header > 0
              · rw [if_pos hn, if_pos hn]
                have hpos : 0 < (headerGetContentLength p.header).toNat := by omega
                rcases Nat.lt_or_ge t'.stream.length (headerGetContentLength p.header).toNat with hlt | hge
                · have hmax' : (headerGetContentLength p.header).toNat < 2 ^ 31 := by unfold maxRw at hm; omega
                  rcases tlsReadAll_spec _ hmax' ((headerGetContentLength p.header).toNat + 1) t' []
                    (by omega) (by simp) (by simp) with ⟨bytes, t2, f1, f2, _⟩ | ⟨_, bytes, t2, f2⟩
                  · have := congrArg List.length f1
                    simp only [List.length_append, List.length_nil] at this f2
                    omega
                  · simp only [tlsReadFull, f2, ok_bind]
                    have hz : kSysErr ≠ headerGetContentLength p.header := by unfold kSysErr; omega
                    rw [if_pos hz]
                    by_cases hs : t'.stream = []
                    · have hc : t'.conn = ⟨[], t'.fin⟩ := by simp [Tls.conn, hs]
                      have : (sockRead t'.conn (headerGetContentLength p.header).toNat true 0).1 = t'.fin := by
                        rw [hc]
                        simp only [sockRead, ioRead]
                        rw [if_neg (by omega)]
                        simp
                      have hz' : (sockRead t'.conn (headerGetContentLength p.header).toNat true 0).1 ≠ headerGetContentLength p.header := by rw [this]; omega
                      rw [if_pos hz']
                      rfl
                    · obtain ⟨b, rest, k1, k2, k3, _, _, k6, _⟩ := C35_read_partial t'.conn _ 0 true hpos hs
                      have k1' : t'.stream = b ++ rest := k1
                      have hbl := congrArg List.length k1'
                      simp only [List.length_append] at hbl
                      have hz' : (b.length : Int) ≠ headerGetContentLength p.header := by omega
                      rw [k6]
                      simp only
                      rw [if_pos hz']
                      rfl
                · obtain ⟨t2, g1, g2, g3⟩ := tlsReadFull_there t' (headerGetContentLength p.header).toNat hpos (by omega) hge (by omega)
                  simp only [g1, g3, ok_bind]
                  have hz : ¬ (((headerGetContentLength p.header).toNat : Int) ≠ headerGetContentLength p.header) := by simp; omega
                  rw [if_neg hz, if_neg hz]
                  rfl
              · rw [if_neg hn, if_neg hn]
                rfl
            · rw [if_pos hrc, if_pos hrc]
              rfl

/-! ### C111 -/

/-- How a complete request is served over TLS. -/
theorem handleReadTls_complete (env : Env) (s : Server σ) (t : Tls) (u : σ) (hfin : t.fin ≤ 0) (head body rest : Str)
    (ht : t.stream = head ++ crlf2 ++ (body ++ rest)) (h1 : ¬ Occurs crlf2 (head ++ crlf2.dropLast))
    (hf : Fits t.stream) (hl : (head ++ crlf2).length < 2 ^ 31) (q : HttpReq)
    (hp : reqParse {} (head ++ crlf2) = .ok (q, kSuccess))
    (hb : (body.length : Int) = max 0 (headerGetContentLength q.header)) (hmax : body.length ≤ maxRw) :
    ∃ t2, TlsReads t t2 ∧ t2.conn = ⟨rest, t.fin⟩ ∧ handleReadTls env s t u = (do
      let r ← serveRequest env s { q with body := cString body } t2.conn u
      (.ok (r, t2.skip (t2.stream.length - r.conn.input.length)) : Out (Served σ × Tls))) := by
  rw [ht] at hf
  have hqb : q.body = [] := by
    refine parse_head_body ?_ h1 hp
    unfold Fits at *
    simp only [List.length_append] at hf ⊢
    omega
  have hr := readHead (fin := t.fin) h1 (parsed_start hl hp _) hf
  rw [← ht, toInt32_small hl] at hr
  rcases tlsReadUntil_cases t hfin with ⟨e, _, g2⟩ | ⟨len, buf, t', g1, g2, g3⟩
  · have g2' : sockReadUntil ⟨t.stream, t.fin⟩ [] crlf2 = .error e := g2
    rw [hr] at g2'
    cases g2'
  · have g2' : sockReadUntil ⟨t.stream, t.fin⟩ [] crlf2 = .ok (len, buf, t'.conn) := g2
    rw [hr] at g2'
    simp only [Except.ok.injEq, Prod.mk.injEq] at g2'
    obtain ⟨e1, e2, e3⟩ := g2'
    have e4 : t'.stream = body ++ rest := (congrArg Conn.input e3).symm
    have hread := tlsReadUntil_reads g1
    dsimp only at hread
    have hk : ¬ (kSuccess ≠ kSuccess) := by simp
    have hpos : ¬ (((head ++ crlf2).length : Nat) : Int) ≤ 0 := by simp [crlf2]; omega
    by_cases hn : headerGetContentLength q.header > 0
    · obtain ⟨t2, k1, k2, _⟩ := tlsReadFull_there t' (headerGetContentLength q.header).toNat (by omega) (by omega)
        (by rw [e4]; simp; omega) (by omega)
      have hlen : (headerGetContentLength q.header).toNat = body.length := by omega
      rw [hlen, e4] at k1 k2
      simp only [List.take_left, List.drop_left] at k1 k2
      rw [g3] at k2
      refine ⟨t2, hread.trans ?_, k2, ?_⟩
      · obtain ⟨x, hx1, hx2⟩ := bind_ok k1
        obtain ⟨rc, bytes, t3⟩ := x
        simp only [Except.ok.injEq, Prod.mk.injEq] at hx2
        rw [← hx2.2.2]
        exact tlsReadAll_reads _ (by unfold maxRw at hmax; omega) _ _ _ _ hx1
      · unfold handleReadTls
        simp only [g1, ok_bind]
        rw [← e1, ← e2, if_neg hpos, hp]
        simp only [ok_bind]
        rw [if_neg hk, if_pos hn, hlen, k1]
        simp only [ok_bind]
        rw [if_neg (by omega)]
        rfl
    · have hbody : body = [] := by
        rw [← List.length_eq_zero_iff]; omega
      subst hbody
      refine ⟨t', hread, by rw [Tls.conn, e4, g3]; rfl, ?_⟩
      unfold handleReadTls
      simp only [g1, ok_bind]
      rw [← e1, ← e2, if_neg hpos, hp]
      simp only [ok_bind]
      rw [if_neg hk, if_neg hn]
      have : ({ q with body := cString [] } : HttpReq) = q := by
        cases q
        simp only at hqb
        simp [hqb, cString]
      rw [this]
      rfl

/-- One complete request over TLS, handlers that do not touch the stream. -/
theorem tls_step (regs : List (Reg σ)) (ha : AsciiRegs regs) (hal : ∀ r ∈ regs, AloofEntry r.entry) (s : Server σ)
    (hs : registerAll regs = .ok s) (env : Env) (t : Tls) (hfin : t.fin ≤ 0) (u : σ) (text rest : Str) (hc : CompleteRequest text)
    (ht : t.stream = text ++ rest) (hf : Fits t.stream) :
    ∃ (r : Served σ) (t2 : Tls), TlsReads t t2 ∧ t2.conn = ⟨rest, t.fin⟩ ∧ handleReadTls env s t u = .ok (r, t2) ∧
      r.closed = decide (env.writeRc < 0) ∧ r.sent ≠ [] ∧
      ∀ fin, handleRead env s ⟨text, fin⟩ u = .ok { r with conn := ⟨[], fin⟩ } := by
  obtain ⟨head, body, q, rfl, h1, hp, hasc, hb, hmax, hl⟩ := hc
  obtain ⟨t2, h2, h3, h4⟩ := handleReadTls_complete env s t u hfin head body rest (by rw [ht]; simp) h1 hf hl q hp hb hmax
  obtain ⟨r, hcl, hne, hr⟩ := serve_aloof regs ha hal s hs env { q with body := cString body } hasc u
  refine ⟨{ r with conn := t2.conn }, t2, h2, h3, ?_, hcl, hne, fun fin => ?_⟩
  · rw [h4, hr]
    simp only [ok_bind, Tls.conn, Nat.sub_self]
    rfl
  · have hf' : Fits (head ++ crlf2 ++ (body ++ [])) := by
      rw [ht] at hf
      unfold Fits at *
      simp only [List.length_append, List.length_nil] at hf ⊢
      omega
    have := handleRead_complete env s head body [] fin u h1 (parsed_start hl hp _) hf' hl q hp hb hmax
    rw [List.append_nil] at this
    rw [this, hr]

/-- C111 when no record holds bytes of two requests: the requests on a TLS connection are answered in order, one
`HandleRead` each, each as if it had come alone.  Missing: a record with bytes of two requests, see `C111_exact_partial`. -/
theorem C111_aligned_partial (regs : List (Reg σ)) (ha : AsciiRegs regs) (hal : ∀ r ∈ regs, AloofEntry r.entry) (s : Server σ)
    (hs : registerAll regs = .ok s) (jobs : List (Env × List Str))
    (hj : ∀ j ∈ jobs, CompleteRequest j.2.flatten ∧ 0 ≤ j.1.writeRc ∧ ∀ r ∈ j.2, r ≠ [])
    (later : List Str) (hlater : ∀ r ∈ later, r ≠ []) (fin : Int) (hfin : fin ≤ 0) (u : σ) (ty : UMap)
    (hf : Fits ((jobs.map (·.2)).flatten ++ later).flatten) :
    ∃ rs u' ty', tlsReports s (jobs.map (·.1)) ⟨[], (jobs.map (·.2)).flatten ++ later, fin⟩ u ty = .ok (rs, ⟨[], later, fin⟩, u', ty') ∧
      EachAlone s (jobs.map fun j => (j.1, j.2.flatten)) u ty (rs.map (·.sent)) u' ty' := by
  induction jobs generalizing u ty with
  | nil => exact ⟨[], u, ty, rfl, .nil u ty⟩
  | cons j jobs ih =>
    obtain ⟨env, recs⟩ := j
    obtain ⟨hc, hw, hne⟩ := hj (env, recs) (by simp)
    dsimp only at hc hw hne
    have hrecs : recs ≠ [] := by
      intro e
      subst e
      obtain ⟨head, body, q, e, _⟩ := hc
      have := congrArg List.length e
      simp [crlf2] at this
    let t : Tls := ⟨[], recs ++ ((jobs.map (·.2)).flatten ++ later), fin⟩
    have hst : t.stream = recs.flatten ++ ((jobs.map (·.2)).flatten ++ later).flatten := by simp [t, Tls.stream]
    have hft : Fits t.stream := by rw [hst]; simpa using hf
    obtain ⟨r, t2, h1, h2, h3, h4, h5, h6⟩ := tls_step regs ha hal s hs { env with types := ty } t hfin u recs.flatten _ hc hst hft
    have hcl : r.closed = false := by rw [h4]; simpa using hw
    have hbefore : Before t recs.flatten ((jobs.map (·.2)).flatten ++ later) := by
      refine ⟨recs, rfl, rfl, fun x hx => ?_⟩
      simp only [List.mem_append, List.mem_flatten, List.mem_map] at hx
      rcases hx with hx | ⟨l, ⟨a, ha1, rfl⟩, hx⟩ | hx
      · exact hne x hx
      · exact (hj a (by simp [ha1])).2.2 x hx
      · exact hlater x hx
    have ht2 : t2 = ⟨[], (jobs.map (·.2)).flatten ++ later, fin⟩ := by
      obtain ⟨_, used, g1, g2, g3⟩ := h1
      have e : t2.stream = ((jobs.map (·.2)).flatten ++ later).flatten := congrArg Conn.input h2
      rw [hst, e] at g1
      have hu : recs.flatten = used := List.append_cancel_right g1
      have := g3 _ _ hbefore (by rw [hu]; exact Nat.le_refl _)
      rw [← hu, List.drop_length] at this
      obtain ⟨d1, d2⟩ := this.done
      have d3 : t2.fin = fin := congrArg Conn.fin h2
      cases t2
      simp only at d1 d2 d3
      simp [d1, d2, d3]
    obtain ⟨rs, u', ty', g1, g2⟩ := ih (fun j hj' => hj j (by simp [hj'])) r.user r.types (by
      unfold Fits at *
      rw [hst] at hft
      simp only [List.length_append] at hft
      omega)
    refine ⟨r :: rs, u', ty', ?_, ?_⟩
    · simp only [List.map_cons, List.flatten_cons, List.append_assoc, tlsReports]
      rw [if_neg (by simp [hrecs])]
      have h3' : handleReadTls { env with types := ty } s ⟨[], recs ++ ((jobs.map (·.2)).flatten ++ later), fin⟩ u = .ok (r, t2) := h3
      rw [h3', ok_bind]
      simp only [hcl, Bool.false_eq_true, if_false, ht2, g1, ok_bind]
    · have := EachAlone.cons (r := { r with conn := ⟨[], 0⟩ }) (h6 0) hcl h5 g2
      exact this

theorem tls_exact (regs : List (Reg σ)) (ha : AsciiRegs regs) (hal : ∀ r ∈ regs, AloofEntry r.entry) (s : Server σ)
    (hs : registerAll regs = .ok s) (last : Str) (hlast : last ≠ []) (jobs : List (Env × Str))
    (hj : ∀ j ∈ jobs, CompleteRequest j.2 ∧ 0 ≤ j.1.writeRc) (t : Tls) (hfin : t.fin ≤ 0) (rem : Str) (hb : Before t rem [last])
    (hst : t.stream = (jobs.map (·.2)).flatten) (u : σ) (ty : UMap) (hf : Fits t.stream) :
    ∃ k rs t' u' ty', tlsReports s (jobs.map (·.1)) t u ty = .ok (rs, t', u', ty') ∧
      EachAlone s (jobs.take k) u ty (rs.map (·.sent)) u' ty' ∧ t'.stream = ((jobs.drop k).map (·.2)).flatten ∧
      (k < jobs.length → t'.records = []) ∧
      ∀ i, i < jobs.length → (i < k ↔ ((jobs.take i).map (·.2)).flatten.length ≤ rem.length) := by
  induction jobs generalizing t rem u ty with
  | nil =>
    exfalso
    obtain ⟨rs, e2, e1, e3⟩ := hb
    have := congrArg List.length hst
    have hl := List.length_pos_iff.2 hlast
    simp [Tls.stream, e2] at this
    exact hlast this.2.2
  | cons j jobs ih =>
    obtain ⟨env, text⟩ := j
    obtain ⟨hc, hw⟩ := hj (env, text) (by simp)
    dsimp only at hc hw
    have hst' : t.stream = text ++ (jobs.map (·.2)).flatten := by rw [hst]; simp
    obtain ⟨r, t2, h1, h2, h3, h4, h5, h6⟩ := tls_step regs ha hal s hs { env with types := ty } t hfin u text _ hc hst' hf
    have hcl : r.closed = false := by rw [h4]; simpa using hw
    have hs2 : t2.stream = (jobs.map (·.2)).flatten := congrArg Conn.input h2
    have hf2 : t2.fin = t.fin := congrArg Conn.fin h2
    have hrec : t.records ≠ [] := by
      obtain ⟨rs, e2, _, _⟩ := hb
      rw [e2]; simp
    obtain ⟨hsuf, used, g1, g2, g3⟩ := h1
    have hu : text = used := by
      rw [hst', hs2] at g1
      exact List.append_cancel_right g1
    subst hu
    have htl : 0 < text.length := by
      obtain ⟨head, body, q, e, _⟩ := hc
      have := congrArg List.length e
      simp [crlf2] at this
      omega
    have alone : ∀ {outs u' ty'} (k : Nat), EachAlone s (jobs.take k) r.user r.types outs u' ty' →
        EachAlone s (((env, text) :: jobs).take (k + 1)) u ty (r.sent :: outs) u' ty' := fun k h =>
      EachAlone.cons (r := { r with conn := ⟨[], 0⟩ }) (h6 0) hcl h5 h
    by_cases hle : text.length ≤ rem.length
    · obtain ⟨k, rs, t', u', ty', i1, i2, i3, i4, i5⟩ := ih (fun j hj' => hj j (by simp [hj'])) t2 (by omega) _ (g3 _ _ hb hle) hs2 r.user r.types
        (by
          unfold Fits at *
          rw [hst'] at hf
          rw [hs2]
          simp only [List.length_append] at hf
          omega)
      refine ⟨k + 1, r :: rs, t', u', ty', ?_, alone k i2, i3, fun h => i4 (by simpa using h), fun i hi => ?_⟩
      · simp only [List.map_cons, tlsReports]
        rw [if_neg hrec, h3, ok_bind]
        simp only [hcl, Bool.false_eq_true, if_false, i1, ok_bind]
      · cases i with
        | zero => simp
        | succ i =>
          have := i5 i (by simpa using hi)
          simp only [List.length_drop] at this
          simp only [List.take_succ_cons, List.map_cons, List.flatten_cons, List.length_append]
          omega
    · have hnone : t2.records = [] := by
        obtain ⟨rs, e2, e1, e3⟩ := hb
        rw [e2] at hsuf
        obtain ⟨pre, hpre⟩ := hsuf
        rcases List.eq_nil_or_concat t2.records with hx | ⟨xs, x, hx⟩
        · exact hx
        · exfalso
          rw [List.concat_eq_append] at hx
          rw [hx, ← List.append_assoc] at hpre
          obtain ⟨_, hxl⟩ := List.append_inj' hpre rfl
          have hxl : x = last := by simpa using hxl
          have l1 := congrArg List.length g1
          have l2 := congrArg List.length e1
          simp only [Tls.stream, e2, hx, List.length_append, List.flatten_append, List.flatten_cons, List.flatten_nil, hxl, List.length_nil] at l1 l2
          omega
      refine ⟨1, [r], t2, r.user, r.types, ?_, alone 0 (.nil _ _), hs2, fun _ => hnone, fun i hi => ?_⟩
      · simp only [List.map_cons, tlsReports]
        rw [if_neg hrec, h3, ok_bind]
        simp only [hcl, Bool.false_eq_true, if_false]
        cases jobs with
        | nil => rfl
        | cons j js => simp only [List.map_cons, tlsReports, hnone, if_true, ok_bind]
      · cases i with
        | zero => simp
        | succ i =>
          simp only [List.take_succ_cons, List.map_cons, List.flatten_cons, List.length_append]
          omega

/-- C111, exactly which requests are answered, however the requests are spread over records (none empty): those that begin not
later than the last record, each in its turn and as if it had come alone.  The others are decrypted and wait for another record.
Missing: the requests that begin inside the last record, see the refutation. -/
theorem C111_exact_partial (regs : List (Reg σ)) (ha : AsciiRegs regs) (hal : ∀ r ∈ regs, AloofEntry r.entry) (s : Server σ)
    (hs : registerAll regs = .ok s) (jobs : List (Env × Str)) (hj : ∀ j ∈ jobs, CompleteRequest j.2 ∧ 0 ≤ j.1.writeRc)
    (records : List Str) (last : Str) (hne : ∀ r ∈ records ++ [last], r ≠ [])
    (hr : (records ++ [last]).flatten = (jobs.map (·.2)).flatten) (fin : Int) (hfin : fin ≤ 0) (u : σ) (ty : UMap)
    (hf : Fits (records ++ [last]).flatten) :
    ∃ k rs t' u' ty', tlsReports s (jobs.map (·.1)) ⟨[], records ++ [last], fin⟩ u ty = .ok (rs, t', u', ty') ∧
      EachAlone s (jobs.take k) u ty (rs.map (·.sent)) u' ty' ∧ t'.stream = ((jobs.drop k).map (·.2)).flatten ∧
      (k < jobs.length → t'.records = []) ∧
      ∀ i, i < jobs.length → (i < k ↔ ((jobs.take i).map (·.2)).flatten.length ≤ records.flatten.length) :=
  tls_exact regs ha hal s hs last (hne last (by simp)) jobs hj ⟨[], records ++ [last], fin⟩ hfin records.flatten
    ⟨records, rfl, rfl, fun x hx => hne x hx⟩ hr u ty hf

/-- C111 is false: of two requests in one TLS record only the first is answered, however long the server waits: the
second one is decrypted and ready (`t'.stream`), but nothing reports it. -/
theorem C111_one_record_refuted (regs : List (Reg σ)) (ha : AsciiRegs regs) (hal : ∀ r ∈ regs, AloofEntry r.entry) (s : Server σ)
    (hs : registerAll regs = .ok s) (env : Env) (hw : 0 ≤ env.writeRc) (envs : List Env) (first second : Str)
    (h1 : CompleteRequest first) (_ : CompleteRequest second) (fin : Int) (hfin : fin ≤ 0) (u : σ) (ty : UMap)
    (hf : Fits (first ++ second)) :
    ∃ r t' u' ty', tlsReports s (env :: envs) ⟨[], [first ++ second], fin⟩ u ty = .ok ([r], t', u', ty') ∧
      r.closed = false ∧ t'.records = [] ∧ t'.stream = second := by
  let t : Tls := ⟨[], [first ++ second], fin⟩
  have hst : t.stream = first ++ second := by simp [t, Tls.stream]
  obtain ⟨r, t2, g1, g2, g3, g4, g5, _⟩ := tls_step regs ha hal s hs { env with types := ty } t hfin u first second h1 hst (by rw [hst]; exact hf)
  have hcl : r.closed = false := by rw [g4]; simpa using hw
  have hs2 : t2.stream = second := congrArg Conn.input g2
  have hrec : t2.records = [] := by
    obtain ⟨hsuf, _⟩ := g1
    rcases List.suffix_cons_iff.1 (show t2.records <:+ [first ++ second] from hsuf) with e | e
    · exfalso
      have := congrArg List.length hs2
      rw [Tls.stream, e] at this
      obtain ⟨head, body, q, e', _⟩ := h1
      have := congrArg List.length e'
      simp [crlf2] at *
      omega
    · simpa using e
  refine ⟨r, t2, r.user, r.types, ?_, hcl, hrec, hs2⟩
  have g3' : handleReadTls { env with types := ty } s ⟨[], [first ++ second], fin⟩ u = .ok (r, t2) := g3
  simp only [tlsReports]
  rw [if_neg (by simp), g3', ok_bind]
  simp only [hcl, Bool.false_eq_true, if_false]
  cases envs with
  | nil => rfl
  | cons e es =>
    simp only [tlsReports, hrec, if_true, ok_bind]

/-- Three requests in three records: the last record begins inside the second request, so the third is not answered; if it begins
where the third begins, all are. -/
example : (do
    let s ← demoServer
    let g : Str := b!"GET /a HTTP/1.1\r\n\r\n"
    let (rs, t, _, _) ← tlsReports s [{}, {}, {}] ⟨[], [b!"GET /", b!"a HTTP/1.1\r\n\r\nGET", b!" /a HTTP/1.1\r\n\r\n" ++ g], 0⟩ [] UMap.empty
    let (rs', t', _, _) ← tlsReports s [{}, {}, {}] ⟨[], [b!"GET /", b!"a HTTP/1.1\r\n\r\n" ++ g, g], 0⟩ [] UMap.empty
    .ok (rs.length, t.stream == g, rs'.length, t'.stream)) = (.ok (2, true, 3, []) : Out (Nat × Bool × Nat × Str)) := by decide +kernel

/-- Two requests in one record: the second is not answered. -/
example : (do
    let s ← demoServer
    let (rs, t, _, _) ← tlsReports s [{}, {}] ⟨[], [b!"GET /a HTTP/1.1\r\n\r\nGET /a HTTP/1.1\r\n\r\n"], 0⟩ [] UMap.empty
    .ok (rs.length, t.stream)) = (.ok (1, b!"GET /a HTTP/1.1\r\n\r\n") : Out (Nat × Str)) := by decide +kernel

/-- A request with a body, cut into three records in the middle of the blank line and of the body. -/
def cutSession : Tls := ⟨[], [b!"POST /a HTTP/1.1\r\nContent-Length: 3\r\n\r", b!"\nx", b!"yzGET"], 0⟩

theorem cutSession_reads : sockReadUntil ⟨cutSession.stream, cutSession.fin⟩ [] crlf2 =
    .ok (39, b!"POST /a HTTP/1.1\r\nContent-Length: 3\r\n\r\n", ⟨b!"xyzGET", 0⟩) := by rfl

example : BodyThere ⟨cutSession.stream, cutSession.fin⟩ := by
  intro len buf c' q h hq
  rw [cutSession_reads] at h
  cases h
  have : (reqParse {} b!"POST /a HTTP/1.1\r\nContent-Length: 3\r\n\r\n").map (fun x => headerGetContentLength x.1.header) = .ok 3 := by
    decide +kernel
  rw [hq] at this
  have e : headerGetContentLength q.header = 3 := by simpa [Except.map] using this
  rw [e]
  decide

example : (do
    let s ← demoServer
    let (r, t) ← handleReadTls {} s cutSession []
    .ok (r.user, r.closed, t.pending, t.records)) =
    (.ok ([(.POST, b!"/a", b!"xyz")], false, b!"GET", []) : Out (List (HttpMethod × Str × Str) × Bool × Str × List Str)) := by
  decide +kernel

/-- The same request whose body does not come: not served over TLS. -/
example : (do
    let s ← demoServer
    let (r, _) ← handleReadTls {} s ⟨[], [b!"POST /a HTTP/1.1\r\nContent-Length: 3\r\n\r", b!"\nx"], 0⟩ []
    .ok (r.sent, r.user, r.closed)) = (.ok ([], [], true) : Out (List Str × List (HttpMethod × Str × Str) × Bool)) := by
  decide +kernel

/-- A client over TLS, the response in two records. -/
example : (clientSendTls .insertion { method := .GET } {} 10 ⟨[], [b!"HTTP/1.1 200 OK\r\nContent-Length: 2\r\n", b!"\r\nhi"], 0⟩).map
    (fun r => (r.1.rc, r.1.resp.body, r.2.stream)) = .ok (0, b!"hi", []) := by decide +kernel

end Cppnet
