import Verif.Props.Conversation

/-!
# C133: a handler that throws
-/

namespace Cppnet
open Spec
variable {σ : Type}

/-- C133 is false for every program: when a handler (or filter) throws while a report is handled, the exception leaves
`HandleRead`, and the whole run of the server ends with it, whatever other connections have sent. -/
theorem C133_throw_refuted (s : Server σ) (i : Nat) (env : Env) (evs : List (Nat × Env)) (w : World σ) (e : Fault)
    (hopen : w.closed i = false) (text head body rest : Str) (q : HttpReq) (fin : Int)
    (hc : w.conns i = ⟨text ++ rest, fin⟩) (htext : text = head ++ crlf2 ++ body)
    (h1 : ¬ Occurs crlf2 (head ++ crlf2.dropLast)) (h2 : 10 ∉ (text ++ rest).take 3) (hf : Fits (text ++ rest))
    (hl : (head ++ crlf2).length < 2 ^ 31) (hp : reqParse {} (head ++ crlf2) = .ok (q, kSuccess))
    (hb : (body.length : Int) = max 0 (headerGetContentLength q.header)) (hmax : body.length ≤ maxRw)
    (hthrow : dispatch s q.route.path (freshCtx { env with types := w.types } { q with body := cString body } ⟨rest, fin⟩ w.user) =
      .error e) : worldRun s ((i, env) :: evs) w = .error e := by
  subst htext
  have hr := handleRead_complete { env with types := w.types } s head body rest fin w.user h1 (by simpa using h2) (by simpa using hf)
    hl q hp hb hmax
  have hcx : w.conns i = ⟨head ++ crlf2 ++ (body ++ rest), fin⟩ := by rw [hc]; simp
  have hserve : serveRequest { env with types := w.types } s { q with body := cString body } ⟨rest, fin⟩ w.user = .error e := by
    unfold serveRequest
    unfold freshCtx at hthrow
    simp only at hthrow ⊢
    rw [hthrow]; rfl
  simp only [worldRun, worldStep, hopen, Bool.false_eq_true, if_false]
  rw [hcx, hr, hserve]
  rfl

/-- A handler that throws. -/
def thrower : Option (Handler (List (HttpMethod × Str × Str))) := some fun _ => .error .invalidArgument

set_option synthInstance.maxSize 1000 in
/-- Connection 1 asked for a page that is fine; it is not answered because connection 0 asked for the other. -/
theorem C133_others_refuted : (do
    let s ← registerAll [⟨[], b!"/a", ⟨echo, true, []⟩⟩, ⟨[], b!"/t", ⟨thrower, true, []⟩⟩]
    let r ← worldRun s [(0, {}), (1, {})]
      { conns := fun i => if i = 0 then ⟨b!"GET /t HTTP/1.1\r\n\r\n", 0⟩ else ⟨b!"GET /a HTTP/1.1\r\n\r\n", 0⟩, user := [] }
    .ok (r.2.map (fun o => (o.1, o.2.sent))) : Out _) = .error .invalidArgument := by
  decide +kernel

/-- C133, what holds: a handler that throws does so only for the requests that are routed to it.  If the handlers and
filters that belong to a path do not throw, requests for this path are handled normally, whatever the handlers of other
paths do.  (For registrations that do not collide, C40.) -/
theorem C133_elsewhere_partial (regs : List (Reg σ)) (ha : AsciiRegs regs) (hs : SeparateAll [] regs) (s : Server σ)
    (hr : registerAll regs = .ok s) (path : Str) (hp : Ascii path) (ht : ∀ e ∈ candidates regs path, TotalEntry e) (ctx : Ctx σ) :
    ∃ ctx', dispatch s path ctx = .ok ctx' := by
  obtain ⟨s', h1, h2⟩ := C40_routing_partial regs ha hs
  rw [hr] at h1
  cases h1
  rw [h2 path hp ctx]
  exact runInOrder_total _ ht ctx

/-- With a throwing handler on another path, this one is still fine. -/
example : candidates [⟨[], b!"/a", ⟨echo, true, []⟩⟩, ⟨[], b!"/t", ⟨thrower, true, []⟩⟩] b!"/a" = [⟨echo, true, []⟩] ∧
    SeparateAll [] [⟨[], b!"/a", ⟨echo, true, []⟩⟩, ⟨[], b!"/t", ⟨thrower, true, []⟩⟩] := by
  constructor
  · rfl
  · decide +kernel

end Cppnet
