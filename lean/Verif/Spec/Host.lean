import Verif.Model.Host
import Verif.Spec.AddressText

/-!
# Specification vocabulary for the machine's own name and address (C159)
-/

namespace Cppnet.Spec

/-- The four numbers are bytes. -/
def IsIp (i : Ip) : Prop := i.a < 256 ∧ i.b < 256 ∧ i.c < 256 ∧ i.d < 256

/-- What Linux and its resolver promise: a name has at most 64 bytes, none of them NUL; a lookup that succeeds has found an
address, and what it finds are addresses. -/
structure Linux (m : Machine) : Prop where
  name : ∀ n, m.name = some n → n.length ≤ 64 ∧ 0 ∉ n
  found : ∀ n ips, m.lookup n = some ips → ips ≠ [] ∧ ∀ i ∈ ips, IsIp i

end Cppnet.Spec
