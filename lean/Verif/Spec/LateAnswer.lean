import Verif.Model.LateAnswer
import Verif.Spec.Conversation

/-!
# Specification: whose answer a `Send` returns (C157)
-/

namespace Cppnet.Spec

variable {σ : Type}

/-- The `Send` returned 0 with the response `r`. -/
def Returned (sent : Sent) (r : HttpResp) : Prop := sent.rc = 0 ∧ SameResponse sent.resp r

/-- The server answers the request `req` with `a`, with the user state `u` before and `u'` after. -/
def Answers (s : Server σ) (fs : Int) (env : Env) (req : HttpReq) (u : σ) (a : HttpResp) (u' : σ) : Prop :=
  ∃ q ctx, SameRequest q req ∧ dispatch s req.route.path (freshCtx env q ⟨[], fs⟩ u) = .ok ctx ∧ ctx.resp = a ∧ ctx.user = u'

/-- The server answers the requests, one after the other. -/
inductive AnswersAll (s : Server σ) (fs : Int) : List (Env × HttpReq) → σ → List HttpResp → σ → Prop
  | nil {u} : AnswersAll s fs [] u [] u
  | cons {j jobs u a u' as u''} : Answers s fs j.1 j.2 u a u' → AnswersAll s fs jobs u' as u'' → AnswersAll s fs (j :: jobs) u (a :: as) u''

/-- The request has no method or no version: it cannot be built. -/
def Unbuildable (req : HttpReq) : Prop := req.method = .UNKNOWN ∨ req.version = .UNKNOWN

/-- What the actions of a client give.  The second argument is the answer to an earlier request that is still on its way
(at most one).  A `Send` returns it if there is one, and its own answer is the next that is on its way. -/
inductive Story (s : Server σ) (fs : Int) : List CliAct → Option HttpResp → σ → List (Option Sent) → Prop
  | nil {w u} : Story s fs [] w u []
  | own {env req as u u' a sent rs} : ¬ Unbuildable req → Answers s fs env req u a u' → Returned sent a →
      Story s fs as none u' rs → Story s fs (.send env req :: as) none u (some sent :: rs)
  | other {env req as u u' a w sent rs} : ¬ Unbuildable req → Answers s fs env req u a u' → Returned sent w →
      Story s fs as (some a) u' rs → Story s fs (.send env req :: as) (some w) u (some sent :: rs)
  | gaveUp {env req as u u' a sent rs} : ¬ Unbuildable req → Answers s fs env req u a u' → sent.rc < 0 →
      Story s fs as (some a) u' rs → Story s fs (.late env req :: as) none u (some sent :: rs)
  | otherLate {env req as u u' a w sent rs} : ¬ Unbuildable req → Answers s fs env req u a u' → Returned sent w →
      Story s fs as (some a) u' rs → Story s fs (.late env req :: as) (some w) u (some sent :: rs)
  | unsent {env req as w u sent rs} : Unbuildable req → sent.rc < 0 → Story s fs as w u rs →
      Story s fs (.send env req :: as) w u (some sent :: rs)
  | unsentLate {env req as w u sent rs} : Unbuildable req → sent.rc < 0 → Story s fs as w u rs →
      Story s fs (.late env req :: as) w u (some sent :: rs)
  | fresh {as w u rs} : Story s fs as none u rs → Story s fs (.again :: as) w u (none :: rs)

/-- The action's request can be built and put on the wire, or cannot be built; and the handlers' answer survives the wire. -/
def Sendable (s : Server σ) (fs : Int) (good : HttpReq → Prop) (okAnswer : Env → Ctx σ → Prop) : CliAct → Prop
  | .again => True
  | .send env req | .late env req => Unbuildable req ∨ (good req ∧ ∀ q u, SameRequest q req →
      ∃ ctx, dispatch s req.route.path (freshCtx env q ⟨[], fs⟩ u) = .ok ctx ∧ okAnswer env ctx)

end Cppnet.Spec
