import Verif.Spec.Host
import Verif.Props.AddressText

/-!
# The machine's own name and address: C159
-/

namespace Cppnet
open Spec

/-- C159: on every Linux machine `GetLocalName` returns the machine's name, and the empty text if the machine does not tell it. -/
theorem C159_name (m : Machine) (h : Linux m) : getLocalName m = .ok (m.name.getD []) := by
  unfold getLocalName hostBuffer
  cases hn : m.name with
  | none => rfl
  | some n =>
    have := (h.name n hn).1
    simp only [Option.getD_some]
    rw [if_pos (by omega)]

/-- C159, what holds of the address: `GetLocalIP` returns the first address found for the machine's name, as a dotted quad that `Address::Init` reads as
exactly this address; if nothing is found it returns the empty text. -/
theorem C159_address_partial (m : Machine) (h : Linux m) :
    (∀ ip ips, m.lookup (m.name.getD []) = some (ip :: ips) →
      ∃ t, getLocalIP m = .ok t ∧ DottedQuad t ip.a ip.b ip.c ip.d ∧ ∀ port, (addressInit t port).1.ip = ip ∧ addressIP (addressInit t port).1 = t) ∧
    (m.lookup (m.name.getD []) = none → getLocalIP m = .ok []) := by
  have hb : hostBuffer m = .ok (m.name.getD []) := C159_name m h
  constructor
  · intro ip ips hl
    obtain ⟨_, h2⟩ := h.found _ _ hl
    obtain ⟨h3, h4, h5, h6⟩ := h2 ip (by simp)
    have hq : DottedQuad (inetNtoa ip) ip.a ip.b ip.c ip.d := dottedQuad_iff.2 ⟨h3, h4, h5, h6, rfl⟩
    refine ⟨inetNtoa ip, ?_, hq, fun port => ⟨inetAddr_quad hq, (C65_round_trip _ _ _ _ _ port hq).2.1⟩⟩
    unfold getLocalIP
    rw [hb]
    show (match m.lookup (m.name.getD []) with | none => pure [] | some [] => .error .ub | some (ip :: _) => pure (inetNtoa ip) : Out Str) = _
    rw [hl]
    rfl
  · intro hl
    unfold getLocalIP
    rw [hb]
    show (match m.lookup (m.name.getD []) with | none => pure [] | some [] => .error .ub | some (ip :: _) => pure (inetNtoa ip) : Out Str) = _
    rw [hl]
    rfl

/-- C159 is false where nothing is found for the name (a machine without an entry for itself): `GetLocalIP` gives no error but the empty text,
which `Address::Init` takes for 255.255.255.255, reporting success. -/
theorem C159_broadcast_refuted (m : Machine) (h : Linux m) (hl : m.lookup (m.name.getD []) = none) (port : UInt16) :
    ∃ t, getLocalIP m = .ok t ∧ (addressInit t port).2 = 0 ∧ addressIP (addressInit t port).1 = b!"255.255.255.255" :=
  ⟨[], (C159_address_partial m h).2 hl, rfl, (by decide +kernel : inetNtoa (inetAddr []) = b!"255.255.255.255")⟩

/-- C159, why the size of the buffer matters: with a name of 512 bytes or more, which Linux does not allow, both functions would read beyond it. -/
theorem C159_long_name_partial (m : Machine) (n : Str) (hn : m.name = some n) :
    (512 ≤ n.length → getLocalName m = .error .ub ∧ getLocalIP m = .error .ub) ∧ (n.length < 512 → getLocalName m = .ok n) := by
  constructor
  · intro h
    have hb : hostBuffer m = .error .ub := by
      unfold hostBuffer
      rw [hn]
      simp only
      rw [if_neg (by omega)]
    exact ⟨hb, by unfold getLocalIP; rw [hb]; rfl⟩
  · intro h
    unfold getLocalName hostBuffer
    rw [hn]
    simp only
    rw [if_pos h]

/-- The hypotheses are met: a machine that finds itself, and one that does not. -/
def aMachine (found : Bool) : Machine :=
  { name := some b!"box", lookup := fun n => if found ∧ n = b!"box" then some [⟨192, 168, 0, 7⟩] else none }

example : (∀ b, Linux (aMachine b)) ∧ getLocalIP (aMachine true) = .ok b!"192.168.0.7" ∧ getLocalName (aMachine true) = .ok b!"box" ∧
    (aMachine false).lookup ((aMachine false).name.getD []) = none := by
  refine ⟨fun b => ⟨fun n h => ?_, fun n ips h => ?_⟩, by decide +kernel, by decide +kernel, by decide +kernel⟩
  · cases h; decide
  · simp only [aMachine] at h
    split at h <;> cases h
    exact ⟨by simp, by simp [IsIp]⟩

end Cppnet
