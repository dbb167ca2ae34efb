import Verif.Spec.LateAnswer
import Verif.Props.Conversation

/-!
# C157: whose answer `HttpClient::Send` returns
-/

namespace Cppnet
open Spec

variable {σ : Type}

/-- The stream of the client while the answer `w` is on its way. -/
def Waiting (fc : Int) (w : Option HttpResp) (cc : Conn) : Prop :=
  match w with
  | none => cc = ⟨[], fc⟩
  | some r => ∃ order, WireResponse r ∧ r.body.length ≤ maxRw ∧ 0 ∉ r.body ∧
      cc = ⟨(respBuild order r []).2.1, fc⟩ ∧ (respBuild order r []).2.1.length < 2 ^ 31

/-- One request as the server sees it. -/
theorem served_good (o : HashOrder) (env : Env) (s : Server σ) (r : HttpReq) (fs : Int) (u : σ) (h : GoodRequest o r)
    (ha : ∀ q, SameRequest q r → ∃ ctx, dispatch s r.route.path (freshCtx env q ⟨[], fs⟩ u) = .ok ctx ∧ GoodAnswer env ⟨[], fs⟩ ctx) :
    ∃ ctx served, Answers s fs env r u ctx.resp ctx.user ∧ GoodAnswer env ⟨[], fs⟩ ctx ∧
      handleRead env s ⟨(reqBuild o r []).2.1, fs⟩ u = .ok served ∧ served.conn = ⟨[], fs⟩ ∧ served.user = ctx.user ∧
      served.sent.flatten = (respBuild env.order ctx.resp []).2.1 ∧ 0 < (reqBuild o r []).2.1.length ∧
      (reqBuild o r []).2.2 = kSuccess := by
  obtain ⟨r', text, hb, hc⟩ := serve_built env s o r [] fs u h.wire h.max
  have htext : (reqBuild o r []).2.1 = text := by rw [hb]
  have hlen := h.size
  rw [htext] at hlen
  simp only [List.append_nil] at hc
  have hfits : Fits text := by unfold Fits; omega
  obtain ⟨q, hq, q1, q2, q3, q4, q5, q6, q7, q8⟩ := hc hfits hlen
  rw [cString_eq_self.2 h.nul] at q5
  have hsame : SameRequest q r := ⟨q1, q2, q3, q4, q5, q6, q7, q8⟩
  obtain ⟨ctx, hd, hg⟩ := ha q hsame
  have hpos : 0 < text.length := by
    obtain ⟨text', hb', hm⟩ := reqBuild_message o r [] h.wire
    rw [hb] at hb'
    cases hb'
    rw [(messageText_iff.1 hm).1]
    simp [crlf]
    omega
  have hserve : handleRead env s ⟨text, fs⟩ u = .ok ⟨[(respBuild env.order ctx.resp []).2.1], decide (env.writeRc < 0), ⟨[], fs⟩, ctx.user, ctx.types⟩ := by
    have hd' := hd
    rw [hq]
    rw [← q3] at hd'
    unfold freshCtx at hd'
    simp only [serveRequest, hd', bind, Except.bind, hg.sent, hg.conn, List.nil_append, responseText_eq _ _ hg.wire.1]
  rw [htext]
  exact ⟨ctx, _, ⟨q, ctx, hsame, hd, rfl, rfl⟩, hg, hserve, rfl, rfl, by simp, hpos, by rw [hb]⟩

/-- A `Send` whose stream starts with a response returns it, and leaves the rest. -/
theorem send_first (o order : HashOrder) (r : HttpReq) (a : HttpResp) (n : Nat) (later : Str) (fc : Int) (h : GoodRequest o r) (hn : 0 < n)
    (hw : WireResponse a) (hm : a.body.length ≤ maxRw) (h0 : 0 ∉ a.body) (hl : (respBuild order a []).2.1.length < 2 ^ 31)
    (hlater : later.length < 2 ^ 31) :
    ∃ sent, clientSend o r {} n ⟨(respBuild order a []).2.1 ++ later, fc⟩ = .ok sent ∧ Returned sent a ∧ sent.conn = ⟨later, fc⟩ := by
  obtain ⟨p', rtext, hrb, hrc⟩ := recv_built o order r {} a n later fc h.wire.1 h.wire.2.1 (by omega) hw hm
  have hrt : (respBuild order a []).2.1 = rtext := by rw [hrb]
  rw [hrt] at hl ⊢
  obtain ⟨sent, h1, h2, h3, h4, h5, h6, _, h8⟩ := hrc (by unfold Fits; simp only [List.length_append]; omega) hl
  rw [cString_eq_self.2 h0] at h6
  exact ⟨sent, h1, ⟨h2, h4, h5, h6, fun k hk => by rw [h8 k hk]; simp [UMap.get, UMap.empty]⟩, h3⟩

/-- A `Send` of a request that cannot be built changes nothing. -/
theorem send_unbuildable (o : HashOrder) (r : HttpReq) (cc : Conn) (h : Unbuildable r) :
    (reqBuild o r []).2.2 ≠ kSuccess ∧ ∃ sent, clientSend o r {} 0 cc = .ok sent ∧ sent.rc < 0 ∧ sent.conn = cc := by
  have hb : reqBuild o r [] = (r, [], kLogicErr) := by unfold reqBuild; exact if_pos h
  refine ⟨by rw [hb]; exact (by decide : kLogicErr ≠ kSuccess), ⟨kLogicErr, r, {}, none, cc⟩, ?_, (by decide : kLogicErr < 0), rfl⟩
  simp only [clientSend, hb]
  rw [if_pos (by decide)]

/-- A `Send` whose answer is late fails. -/
theorem send_timeout (o : HashOrder) (r : HttpReq) (n : Nat) (fc : Int) (h : GoodRequest o r) (hn : 0 < n) (hf : fc ≤ 0) :
    ∃ sent, clientSend o r {} n ⟨[], fc⟩ = .ok sent ∧ sent.rc < 0 ∧ sent.conn = ⟨[], fc⟩ := by
  obtain ⟨text, hb, _⟩ := reqBuild_message o r [] h.wire
  have hu : sockReadUntil ⟨[], fc⟩ [] crlf2 = .ok (fc, [], ⟨[], fc⟩) := rfl
  refine ⟨⟨kLogicErr, { r with header := reqBuildHeader r }, {}, some text, ⟨[], fc⟩⟩, ?_, (by decide : kLogicErr < 0), rfl⟩
  simp only [clientSend, hb]
  rw [if_neg (by decide), if_neg (by omega)]
  simp only [hu, bind, Except.bind]
  rw [if_pos hf]

/-- C157, the exact behaviour: in every history of `Send`s in time, `Send`s that time out, and reconnections, each `Send`
returns the oldest answer that has not been read on this connection.  So as long as no `Send` has timed out since the
connection was made, every `Send` returns the answer to its own request; requests that cannot be built do no harm. -/
theorem C157_queue_partial (o : HashOrder) (s : Server σ) (fs fc : Int) (hfc : fc ≤ 0) (acts : List CliAct) (u : σ)
    (h : ∀ a ∈ acts, Sendable s fs (GoodRequest o) (fun env => GoodAnswer env ⟨[], fs⟩) a) :
    ∃ rs, cliActs o s fs fc acts ⟨[], fs⟩ ⟨[], fc⟩ u = .ok rs ∧ Story s fs acts none u rs := by
  suffices key : ∀ (w : Option HttpResp) (cc : Conn) (u : σ), Waiting fc w cc →
      ∃ rs, cliActs o s fs fc acts ⟨[], fs⟩ cc u = .ok rs ∧ Story s fs acts w u rs from key none _ u rfl
  induction acts with
  | nil => exact fun w cc u _ => ⟨[], rfl, .nil⟩
  | cons a as ih =>
    have ih := ih (fun a ha => h a (by simp [ha]))
    have hbuildable : ∀ req, GoodRequest o req → ¬ Unbuildable req := by
      intro req hg hu
      rcases hu with hu | hu
      · exact hg.wire.1 hu
      · exact hg.wire.2.1 hu
    intro w cc u hw
    cases a with
    | again =>
      obtain ⟨rs, h1, h2⟩ := ih none ⟨[], fc⟩ u rfl
      exact ⟨none :: rs, by simp only [cliActs, cliAct, h1, bind, Except.bind], .fresh h2⟩
    | send env req =>
      rcases h (.send env req) (by simp) with hun | ⟨hg, ha⟩
      · obtain ⟨hb, sent, h1, h2, h3⟩ := send_unbuildable o req cc hun
        obtain ⟨rs, h4, h5⟩ := ih w cc u hw
        refine ⟨some sent :: rs, ?_, .unsent hun h2 h5⟩
        simp only [cliActs, cliAct, if_pos hb, h1, h3, h4, bind, Except.bind]
      · obtain ⟨ctx, served, a1, a2, a3, a4, a5, a6, a7, a8⟩ := served_good o env s req fs u hg (fun q hq => ha q u hq)
        cases w with
        | none =>
          cases hw
          obtain ⟨sent, h1, h2, h3⟩ := send_first o env.order req ctx.resp _ [] fc hg a7 a2.wire a2.max a2.nul a2.size (by decide)
          obtain ⟨rs, h4, h5⟩ := ih none ⟨[], fc⟩ ctx.user rfl
          refine ⟨some sent :: rs, ?_, .own (hbuildable req hg) a1 h2 h5⟩
          rw [List.append_nil] at h1
          simp only [cliActs, cliAct, a8, ne_eq, not_true_eq_false, if_false, exchange, List.nil_append, a3, a6, h1, h3, a4, a5, h4, bind,
            Except.bind]
        | some old =>
          obtain ⟨order, w1, w2, w3, rfl, w4⟩ := hw
          obtain ⟨sent, h1, h2, h3⟩ := send_first o order req old _ (respBuild env.order ctx.resp []).2.1 fc hg a7 w1 w2 w3 w4 a2.size
          obtain ⟨rs, h4, h5⟩ := ih (some ctx.resp) ⟨(respBuild env.order ctx.resp []).2.1, fc⟩ ctx.user
            ⟨env.order, a2.wire, a2.max, a2.nul, rfl, a2.size⟩
          refine ⟨some sent :: rs, ?_, .other (hbuildable req hg) a1 h2 h5⟩
          simp only [cliActs, cliAct, a8, ne_eq, not_true_eq_false, if_false, exchange, List.nil_append, a3, a6, h1, h3, a4, a5, h4, bind,
            Except.bind]
    | late env req =>
      rcases h (.late env req) (by simp) with hun | ⟨hg, ha⟩
      · obtain ⟨hb, sent, h1, h2, h3⟩ := send_unbuildable o req cc hun
        obtain ⟨rs, h4, h5⟩ := ih w cc u hw
        refine ⟨some sent :: rs, ?_, .unsentLate hun h2 h5⟩
        simp only [cliActs, cliAct, if_pos hb, h1, h3, h4, bind, Except.bind]
      · obtain ⟨ctx, served, a1, a2, a3, a4, a5, a6, a7, a8⟩ := served_good o env s req fs u hg (fun q hq => ha q u hq)
        obtain ⟨rs, h4, h5⟩ := ih (some ctx.resp) ⟨(respBuild env.order ctx.resp []).2.1, fc⟩ ctx.user
          ⟨env.order, a2.wire, a2.max, a2.nul, rfl, a2.size⟩
        cases w with
        | none =>
          cases hw
          obtain ⟨sent, h1, h2, h3⟩ := send_timeout o req _ fc hg a7 hfc
          refine ⟨some sent :: rs, ?_, .gaveUp (hbuildable req hg) a1 h2 h5⟩
          simp only [cliActs, cliAct, a8, ne_eq, not_true_eq_false, if_false, List.nil_append, a3, a6, h1, h3, a4, a5, h4, bind,
            Except.bind]
        | some old =>
          obtain ⟨order, w1, w2, w3, rfl, w4⟩ := hw
          obtain ⟨sent, h1, h2, h3⟩ := send_first o order req old _ [] fc hg a7 w1 w2 w3 w4 (by decide)
          rw [List.append_nil] at h1
          refine ⟨some sent :: rs, ?_, .otherLate (hbuildable req hg) a1 h2 h5⟩
          simp only [cliActs, cliAct, a8, ne_eq, not_true_eq_false, if_false, List.nil_append, a3, a6, h1, h3, a4, a5, h4, bind,
            Except.bind]

/-- C157, refuted: after a `Send` that timed out, the next `Send` on the connection returns success with the answer to
the earlier request; and so it goes on, one behind, with every later one. -/
theorem C157_behind_refuted (o : HashOrder) (s : Server σ) (fs fc : Int) (hfc : fc ≤ 0) (env : Env) (r : HttpReq)
    (jobs : List (Env × HttpReq)) (u : σ) (hr : ∀ j ∈ (env, r) :: jobs, GoodRequest o j.2)
    (ha : ∀ j ∈ (env, r) :: jobs, ∀ q u, SameRequest q j.2 →
      ∃ ctx, dispatch s j.2.route.path (freshCtx j.1 q ⟨[], fs⟩ u) = .ok ctx ∧ GoodAnswer j.1 ⟨[], fs⟩ ctx) :
    ∃ (sent : Sent) (rs : List Sent) (u' : σ) (answers : List HttpResp), cliActs o s fs fc (.late env r :: jobs.map (fun j => .send j.1 j.2)) ⟨[], fs⟩ ⟨[], fc⟩ u = .ok (some sent :: rs.map some) ∧
      sent.rc < 0 ∧ rs.length = jobs.length ∧ AnswersAll s fs ((env, r) :: jobs) u answers u' ∧
      ∀ i, (h : i < rs.length) → ∃ a, answers[i]? = some a ∧ Returned rs[i] a := by
  obtain ⟨out, h1, h2⟩ := C157_queue_partial o s fs fc hfc (.late env r :: jobs.map (fun j => .send j.1 j.2)) u (by
    intro a hm
    simp only [List.mem_cons, List.mem_map] at hm
    rcases hm with rfl | ⟨j, hj, rfl⟩
    · exact (.inr ⟨hr (env, r) (by simp), fun q u => ha (env, r) (by simp) q u⟩)
    · exact .inr ⟨hr j (by simp [hj]), fun q u => ha j (by simp [hj]) q u⟩)
  have hb : ∀ j ∈ (env, r) :: jobs, ¬ Unbuildable j.2 := by
    intro j hj hu
    rcases hu with hu | hu
    · exact (hr j hj).wire.1 hu
    · exact (hr j hj).wire.2.1 hu
  have key : ∀ (jobs : List (Env × HttpReq)) (w : HttpResp) (u : σ) (out : List (Option Sent)), (∀ j ∈ jobs, ¬ Unbuildable j.2) →
      Story s fs (jobs.map (fun j => .send j.1 j.2)) (some w) u out →
      ∃ (rs : List Sent) (u' : σ) (answers : List HttpResp), out = rs.map some ∧ rs.length = jobs.length ∧ AnswersAll s fs jobs u answers u' ∧
        ∀ i, (h : i < rs.length) → ∃ a, (w :: answers)[i]? = some a ∧ Returned rs[i] a := by
    intro jobs
    induction jobs with
    | nil =>
      intro w u out _ h
      cases h
      exact ⟨[], u, [], rfl, rfl, .nil, by simp⟩
    | cons j jobs ih =>
      intro w u out hb h
      cases h with
      | other _ h3 h4 h5 =>
        obtain ⟨rs', u'', answers, e1, e2, e3, e4⟩ := ih _ _ _ (fun j hj => hb j (by simp [hj])) h5
        refine ⟨_ :: rs', u'', _ :: answers, by rw [e1]; rfl, by simp [e2], .cons h3 e3, ?_⟩
        intro i hi
        cases i with
        | zero => exact ⟨w, rfl, h4⟩
        | succ i => simpa using e4 i (by simpa using hi)
      | unsent h3 _ _ => exact absurd h3 (hb j (by simp))
  cases h2 with
  | gaveUp _ h3 h4 h5 =>
    obtain ⟨rs', u'', answers, e1, e2, e3, e4⟩ := key jobs _ _ _ (fun j hj => hb j (by simp [hj])) h5
    exact ⟨_, rs', u'', _ :: answers, by rw [h1, e1], h4, e2, .cons h3 e3, e4⟩
  | unsentLate h3 _ _ => exact absurd h3 (hb (env, r) (by simp))

/-- C157: with no timeout, every `Send` of a request that can be built returns the answer to it, also after requests that
could not be built. -/
theorem C157_in_time_partial (o : HashOrder) (s : Server σ) (fs fc : Int) (hfc : fc ≤ 0) (before : List CliAct) (env : Env) (r : HttpReq)
    (u : σ) (hb : ∀ a ∈ before, ∀ env r, a ≠ .late env r)
    (h : ∀ a ∈ before ++ [.send env r], Sendable s fs (GoodRequest o) (fun env => GoodAnswer env ⟨[], fs⟩) a) (hr : ¬ Unbuildable r) :
    ∃ rs sent u0 a u1, cliActs o s fs fc (before ++ [.send env r]) ⟨[], fs⟩ ⟨[], fc⟩ u = .ok (rs ++ [some sent]) ∧
      Answers s fs env r u0 a u1 ∧ Returned sent a := by
  obtain ⟨out, h1, h2⟩ := C157_queue_partial o s fs fc hfc _ u h
  have key : ∀ (before : List CliAct) (u : σ) (out : List (Option Sent)), (∀ a ∈ before, ∀ env r, a ≠ .late env r) →
      Story s fs (before ++ [.send env r]) none u out →
      ∃ rs sent u0 a u1, out = rs ++ [some sent] ∧ Answers s fs env r u0 a u1 ∧ Returned sent a := by
    intro before
    induction before with
    | nil =>
      intro u out _ h
      cases h with
      | own _ h3 h4 h5 => cases h5; exact ⟨[], _, _, _, _, rfl, h3, h4⟩
      | unsent h3 _ _ => exact absurd h3 hr
    | cons b before ih =>
      intro u out hb h
      have hb' : ∀ a ∈ before, ∀ env r, a ≠ CliAct.late env r := fun a ha => hb a (by simp [ha])
      cases h with
      | own _ _ _ h5 => obtain ⟨rs, sent, u0, a, u1, e1, e2, e3⟩ := ih _ _ hb' h5; exact ⟨_ :: rs, sent, u0, a, u1, by rw [e1]; rfl, e2, e3⟩
      | gaveUp _ _ _ _ => exact absurd rfl (hb _ (List.mem_cons_self ..) _ _)
      | unsent _ _ h5 => obtain ⟨rs, sent, u0, a, u1, e1, e2, e3⟩ := ih _ _ hb' h5; exact ⟨_ :: rs, sent, u0, a, u1, by rw [e1]; rfl, e2, e3⟩
      | unsentLate _ _ _ => exact absurd rfl (hb _ (List.mem_cons_self ..) _ _)
      | fresh h5 => obtain ⟨rs, sent, u0, a, u1, e1, e2, e3⟩ := ih _ _ hb' h5; exact ⟨_ :: rs, sent, u0, a, u1, by rw [e1]; rfl, e2, e3⟩
  obtain ⟨rs, sent, u0, a, u1, e1, e2, e3⟩ := key before u out hb h2
  exact ⟨rs, sent, u0, a, u1, by rw [h1, e1], e2, e3⟩

/-- A `Send` that times out, then two in time: each returns the answer to the request before it.  After a reconnection
the client is in step again. -/
example : (cliActs .insertion countServer 0 (-1) [.late {} (countRequest b!"x"), .send {} (countRequest b!""), .send {} (countRequest b!"x"),
      .send {} { method := .UNKNOWN }, .again, .send {} (countRequest b!"x"), .send {} (countRequest b!"")] ⟨[], 0⟩ ⟨[], -1⟩ 0).map
    (fun rs => rs.map (fun r => r.map (fun s => (s.rc, s.resp.body)))) =
    .ok [some (-2, []), some (0, b!"one"), some (0, b!"other"), some (-2, []), none, some (0, b!"one"), some (0, b!"other")] := by decide +kernel

end Cppnet
