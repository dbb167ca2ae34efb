import Verif.Model.Ssl
import Verif.Model.Address

/-!
# Model of the life of a `HttpClient` (`src/cppnet/http/client/http_client.cpp`, with OpenSSL)

`Send` is in `Model/HttpClient.lean`.  Each call yields the list of OpenSSL and system calls it makes.
-/

namespace Cppnet

/-- http_client.hpp:60, what `soc_` points to: a `Socket` or a `SSLSocket`. -/
inductive CliSoc where
  | plain (s : Sock)
  | tls (s : SslSock)
  deriving DecidableEq

/-- http_client.hpp:51, 60: the members.  `ctx`: `ssl_context_` with its `SSL_CTX`. -/
structure Client where
  soc : Option CliSoc := none
  ctx : Option (Option Nat) := none
  deriving DecidableEq

/-- http_client.cpp:8-11 and 83-86: port 0 is replaced by the default port. -/
def clientAddr (dflt : UInt16) (a : Address) : Address :=
  if addressPort a = 0 then (addressInit (addressIP a) dflt).1 else a

/-- http_client.cpp:7-20, `Init`; `res`, `rc`: the answers of `::socket` and `::connect`.  The old socket object is
dropped (its destructor does nothing). -/
def clientInit (c : Client) (res rc : Int) : Client × Int × List SslEv :=
  if res < 0 then ({ c with soc := some (.plain { fd := res }) }, -1, [])
  else
    let c := { c with soc := some (.plain { fd := res, status := .init }) }
    (c, if rc ≠ kSuccess then rc else 0, [.socket res, .connect res rc])

/-- The context object is destroyed (ssl_context.cpp:11). -/
def ctxDrop : Option (Option Nat) → List SslEv
  | none => []
  | some m => (ctxClose m).2

/-- http_client.cpp:83-101, `InitSSL`.  The old context object is destroyed, the old socket object dropped. -/
def clientInitSSL (c : Client) (ctxNew : Option Nat) (res : Int) (sslNew : Option Nat) (rc sslRc : Int) :
    Client × Int × List SslEv :=
  let t0 := ctxDrop c.ctx
  let (m, _, t1) := ctxInitCli none ctxNew
  match ctxCreate m res sslNew with
  | (none, t2) => ({ soc := none, ctx := some m }, kLogicErr, t0 ++ t1 ++ t2)
  | (some s, t2) =>
    let (s, r, t3) := s.connect rc sslRc
    ({ soc := some (.tls s), ctx := some m }, if r ≠ kSuccess then r else 0, t0 ++ t1 ++ t2 ++ t3)

/-- http_client.cpp:68-80, `Close`: with a context, the socket is taken for a `SSLSocket`; the cast of another one
gives a null pointer. -/
def clientClose (c : Client) : Out (Client × List SslEv) :=
  match c.soc with
  | none => .ok (c, [])
  | some (.plain s) =>
    let t := if s.status ≠ .init then [] else [SslEv.close s.fd]
    let s := if s.status ≠ .init then s else { s with status := .closed }
    match c.ctx with
    | none => .ok ({ c with soc := some (.plain s) }, t)
    | some _ => .error .ub
  | some (.tls s) =>
    let (s, _, t) := s.close
    match c.ctx with
    | none => .ok ({ c with soc := some (.tls s) }, t)
    | some m =>
      let (m, t1) := ctxClose m
      let (s, t2) := s.closeSSL
      .ok ({ soc := some (.tls s), ctx := some m }, t ++ t1 ++ t2)

/-- A call on the client (http_client.hpp:26-48). -/
inductive CliOp where
  | init (res rc : Int)
  | initSSL (ctxNew : Option Nat) (res : Int) (sslNew : Option Nat) (rc sslRc : Int)
  | close
  deriving DecidableEq

/-- One call (http_client.hpp:26-48). -/
def clientApply (c : Client) : CliOp → Out (Client × List SslEv)
  | .init res rc => let (c, _, t) := clientInit c res rc; .ok (c, t)
  | .initSSL a res b rc sslRc => let (c, _, t) := clientInitSSL c a res b rc sslRc; .ok (c, t)
  | .close => clientClose c

/-- http_client.hpp:17, the destructor: `Close`, then the members are destroyed (a context frees what it has). -/
def clientDestroy (c : Client) : Out (List SslEv) := do
  let (c, t) ← clientClose c
  .ok (t ++ ctxDrop c.ctx)

/-- The life of a client: the calls, then the destructor (http_client.hpp:14-17). -/
def clientLife : Client → List CliOp → Out (List SslEv)
  | c, [] => clientDestroy c
  | c, op :: ops => do
    let (c, t) ← clientApply c op
    let t' ← clientLife c ops
    .ok (t ++ t')

end Cppnet
