import Verif.Model.Conversation
import Verif.Spec.Server
import Verif.Spec.Net

/-!
# What it means that requests are served one after another
-/

namespace Cppnet.Spec
variable {σ : Type}

/-- `text` is one complete request: a header block up to its first blank line that parses, with an ASCII path, and a
body of the announced length; below 2 GiB. -/
def CompleteRequest (text : Str) : Prop :=
  ∃ head body q, text = head ++ crlf2 ++ body ∧ ¬ Occurs crlf2 (head ++ crlf2.dropLast) ∧
    reqParse {} (head ++ crlf2) = .ok (q, kSuccess) ∧ Ascii q.route.path ∧
    (body.length : Int) = max 0 (headerGetContentLength q.header) ∧ body.length ≤ maxRw ∧ (head ++ crlf2).length < 2 ^ 31

/-- The handler neither fails nor looks at the incoming stream. -/
def Aloof (f : Handler σ) : Prop := ∀ ctx : Ctx σ, ∃ ctx' : Ctx σ, ∀ c, f { ctx with conn := c } = .ok { ctx' with conn := c }

/-- The handler and the filters of a registration: no failure, no look at the stream. -/
def AloofEntry (e : Entry σ) : Prop :=
  (∀ f, e.callback = some f → Aloof f) ∧ ∀ f ∈ e.filters, ∀ r, ∃ b, f r = .ok b

/-- `outs` is what the server writes when each text arrives alone, on a connection of its own: one list per request,
none empty, and no connection is closed; the user state and the custom content types go from one to the next. -/
inductive EachAlone (s : Server σ) : List (Env × Str) → σ → UMap → List (List Str) → σ → UMap → Prop
  | nil (u t) : EachAlone s [] u t [] u t
  | cons {env text jobs u t fin r outs u' t'} :
      handleRead { env with types := t } s ⟨text, fin⟩ u = .ok r → r.closed = false → r.sent ≠ [] →
      EachAlone s jobs r.user r.types outs u' t' → EachAlone s ((env, text) :: jobs) u t (r.sent :: outs) u' t'

/-- The request `q` that the handlers see is the request `r` that was sent. -/
structure SameRequest (q r : HttpReq) : Prop where
  method : q.method = r.method
  version : q.version = r.version
  path : q.route.path = r.route.path
  params : SameMap q.route.params r.route.params
  body : q.body = r.body
  length : headerGetContentLength q.header = r.body.length
  host : headerGetHost q.header = if headerGetHost r.header = [] then b!"localhost" else headerGetHost r.header
  headers : ∀ k, k ≠ b!"Content-Length" → k ≠ b!"Host" → q.header.get k = r.header.get k

/-- The response `p` that a client got is the response `r` that the handlers left. -/
structure SameResponse (p r : HttpResp) : Prop where
  status : p.status = r.status
  version : p.version = r.version
  body : p.body = r.body
  headers : ∀ k, k ≠ b!"Content-Length" → p.header.get k = r.header.get k

/-- The context the handlers start with. -/
def freshCtx (env : Env) (q : HttpReq) (conn : Conn) (u : σ) : Ctx σ :=
  { req := q, conn, running := env.running, types := env.types, fs := env.fs, live := env.live, user := u }

/-- A conversation as it should be: each `Send` returns 0 with the response the handlers gave to this very request. -/
inductive Talk (s : Server σ) (conn : Conn) : List (Env × HttpReq) → σ → List Sent → σ → Prop
  | nil (u) : Talk s conn [] u [] u
  | cons {env r rest u q ctx sent sents u'} : SameRequest q r →
      dispatch s r.route.path (freshCtx env q conn u) = .ok ctx → sent.rc = 0 → SameResponse sent.resp ctx.resp →
      Talk s conn rest ctx.user sents u' → Talk s conn ((env, r) :: rest) u (sent :: sents) u'

/-- What can be seen of a handler's result without the user state and the custom content types. -/
def seen (c : Ctx σ) : Ctx Unit :=
  { req := c.req, resp := c.resp, conn := c.conn, sent := c.sent, isContinue := c.isContinue, running := c.running,
    fs := c.fs, live := c.live, user := () }

/-- The handler does the same whatever the user state and the custom content types are. -/
def Stateless (f : Handler σ) : Prop :=
  ∀ c c' : Ctx σ, seen c = seen c' → (f c).map seen = (f c').map seen

/-- How often connection `i` was reported readable. -/
def reports (i : Nat) (evs : List (Nat × Env)) : Nat := (evs.filter (fun e => e.1 = i)).length

/-- `outs` is what the server writes when at each report of a connection the next request of that connection (`texts i` are
the requests of connection `i`) arrives alone, on a connection of its own; the user state and the custom content types go
from one to the next. -/
inductive AllAlone (s : Server σ) : (Nat → List Str) → List (Nat × Env) → σ → UMap → List (Nat × List Str) → σ → UMap → Prop
  | nil (texts u t) : AllAlone s texts [] u t [] u t
  | cons {texts i env evs u t x rest fin r outs u' t'} : texts i = x :: rest →
      handleRead { env with types := t } s ⟨x, fin⟩ u = .ok r → r.closed = false → r.sent ≠ [] →
      AllAlone s (fun j => if j = i then rest else texts j) evs r.user r.types outs u' t' →
      AllAlone s texts ((i, env) :: evs) u t ((i, r.sent) :: outs) u' t'

end Cppnet.Spec
