import Verif.Model.Ssl

/-!
# What the TLS properties speak about
-/

namespace Cppnet.Spec

/-- The event uses the session. -/
def SslEv.uses (n : Nat) : SslEv → Bool
  | .setFd k _ | .sslAccept k _ | .sslConnect k _ | .io k _ | .shutdown k _ | .free k => k == n
  | _ => false

/-- The connection `fd` is open: it was accepted and not closed since. -/
def isOpen (fd : Int) (tr : List SslEv) : Bool :=
  tr.foldl (fun b e => if e = .accepted fd then true else if e = .close fd then false else b) false

/-- The session `n` belongs to the present connection `fd`: since `fd` was accepted, the handshake of `n` was made
on it and did not fail, `fd` was not closed, and `n` was not freed. -/
def OwnSession (n : Nat) (fd : Int) (tr : List SslEv) : Prop :=
  ∃ before since rc, tr = before ++ .accepted fd :: since ∧ .setFd n fd ∈ since ∧ .sslAccept n rc ∈ since ∧ 0 ≤ rc ∧
    .close fd ∉ since ∧ .free n ∉ since

/-- The states a TLS server can be in, with what has happened: a new connection gets a descriptor that is not
open, a new session is none of the earlier ones, and the events come for open connections. -/
inductive SslReach (ctx : Option Nat) : SslMap → List SslEv → Prop
  | start : SslReach ctx (fun _ => none) []
  | accept {m tr fd addrRc new rc m' t} : SslReach ctx m tr → 0 ≤ fd → isOpen fd tr = false →
      (∀ n, new = some n → .sslNew n ∉ tr) → sslServe ctx m (.accept fd addrRc new rc) = .ok (m', t) →
      SslReach ctx m' (tr ++ t)
  | read {m tr fd uses drop m' t} : SslReach ctx m tr → isOpen fd tr = true →
      sslServe ctx m (.read fd uses drop) = .ok (m', t) → SslReach ctx m' (tr ++ t)
  | leave {m tr fd m' t} : SslReach ctx m tr → isOpen fd tr = true →
      sslServe ctx m (.leave fd) = .ok (m', t) → SslReach ctx m' (tr ++ t)
  | error {m tr fd m' t} : SslReach ctx m tr → isOpen fd tr = true →
      sslServe ctx m (.error fd) = .ok (m', t) → SslReach ctx m' (tr ++ t)

/-- No call of the history fails because of OpenSSL. -/
def NoSysErr : Option Nat → List CtxOp → Prop
  | _, [] => True
  | m, op :: ops => (ctxApply m op).2.1 ≠ kSysErr ∧ NoSysErr (ctxApply m op).1 ops

end Cppnet.Spec
