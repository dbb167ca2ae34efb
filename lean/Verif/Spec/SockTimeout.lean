import Verif.Model.SockTimeout

/-! # What the timeouts of a socket mean -/

namespace Cppnet.Spec

/-- What `sec` seconds and `usec` microseconds mean; zero is "no timeout". -/
def asked (sec usec : Nat) : Waits := if sec = 0 ∧ usec = 0 then .ever else .micros (sec * 1000000 + usec)

end Cppnet.Spec
