import Verif.Cpp.Bytes

/-!
# Words for C189: who is at the other end of a TLS connection
-/

namespace Cppnet.Spec

/-- Which certificates the machine has reason to believe (signed by an authority it trusts, in time, …), and which names a
certificate is for. -/
structure Pki (Cert : Type) where
  trusted : Cert → Bool
  names : Cert → Str → Bool

/-- Who answers: the certificate they show, and whether they have its private key. -/
structure TlsPeer (Cert : Type) where
  cert : Cert
  key : Bool

/-- Who answers is `host`: they show a certificate for this name that the machine has reason to believe, and it is theirs. -/
def Genuine {Cert : Type} (pki : Pki Cert) (host : Str) (p : TlsPeer Cert) : Prop :=
  p.key = true ∧ pki.trusted p.cert = true ∧ pki.names p.cert host = true

end Cppnet.Spec
