import Verif.Model.ClientLife
import Verif.Spec.TlsPeer

/-!
# Model of what a TLS client asks of its peer (`src/cppnet/ssl/ssl_context.cpp`, `src/cppnet/http/client/http_client.cpp`)

OpenSSL's part is taken from its manual: SSL_CTX_set_verify(3), SSL_set1_host(3), SSL_new(3).
-/

namespace Cppnet
open Spec

/-- What a context, or a session, asks of the peer's certificate: the mode set by `SSL_CTX_set_verify` (new contexts:
`SSL_VERIFY_NONE`) and the name of `X509_VERIFY_PARAM_set1_host` (new contexts: none).  A session starts with those of its context
(`SSL_new`, called at ssl_context.cpp:159). -/
structure TlsWants where
  verify : Bool := false
  host : Option Str := none
  deriving DecidableEq

/-- The answer of `SSL_connect` (called at ssl_socket.cpp:54) when nothing else goes wrong.  TLS makes the peer prove that it has the
key; with `SSL_VERIFY_PEER` OpenSSL also checks the certificate, and its name if one was set. -/
def handshake {Cert : Type} (pki : Pki Cert) (w : TlsWants) (p : TlsPeer Cert) : Int :=
  if !p.key then -1
  else if w.verify && !(pki.trusted p.cert && w.host.all (pki.names p.cert)) then -1
  else 1

/-- A `SSLContext`: its member, and what that asks of peers (ssl_context.hpp:49). -/
structure TlsCtx where
  ctx : Option Nat := none
  wants : TlsWants := {}

/-- ssl_context.cpp:13-151, 201-207, one call.  `given c`: what a context that the caller made asks for; those made here ask for
nothing (no call of `SSL_CTX_set_verify` or `set1_host`, ssl_context.cpp:22-151). -/
def tlsCtxApply (given : Nat → TlsWants) (m : TlsCtx) (op : CtxOp) : TlsCtx × Int :=
  let (c, rc, _) := ctxApply m.ctx op
  match op with
  | .init n => (⟨c, given n⟩, rc)
  | .close => (⟨c, {}⟩, rc)
  | _ => (⟨c, if rc = kSuccess then {} else m.wants⟩, rc)

/-- A history of calls on a new `SSLContext` (ssl_context.hpp:11-47). -/
def tlsCtxRun (given : Nat → TlsWants) : TlsCtx → List CtxOp → TlsCtx
  | m, [] => m
  | m, op :: ops => tlsCtxRun given (tlsCtxApply given m op).1 ops

/-- ssl_context.cpp:168-181 and ssl_socket.cpp:44-61: `CreateSSLSocket()` and `Connect`, with this peer at the address.  `none`: no
socket was made. -/
def tlsConnect {Cert : Type} (pki : Pki Cert) (m : TlsCtx) (p : TlsPeer Cert) (res : Int) (new : Option Nat) (rc : Int) : Option Int :=
  (ctxCreate m.ctx res new).1.map fun s => (s.connect rc (handshake pki m.wants p)).2.1

/-- http_client.cpp:83-101, `HttpClient::InitSSL`, with this peer at the address: the context is a new one of `InitCli`. -/
def httpsInit {Cert : Type} (pki : Pki Cert) (c : Client) (p : TlsPeer Cert) (ctxNew : Option Nat) (res : Int) (sslNew : Option Nat)
    (rc : Int) : Client × Int × List SslEv :=
  clientInitSSL c ctxNew res sslNew rc (handshake pki (tlsCtxApply (fun _ => {}) {} (.initCli ctxNew)).1.wants p)

end Cppnet
