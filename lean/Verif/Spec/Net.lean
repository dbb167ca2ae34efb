import Verif.Spec.Http
import Verif.Model.Socket

/-!
# Specifications for sockets
-/

namespace Cppnet.Spec

/-- The last byte of the delimiter is NUL, or it arrives among the first `delim.length - 1` bytes that
follow `have` bytes already held (so the text is still shorter than the delimiter). -/
def EarlyEnd (delim : Str) (held : Nat) (input : Str) : Prop :=
  ∃ front last, delim = front ++ [last] ∧ held < delim.length ∧
    (last = 0 ∨ last ∈ input.take (delim.length - 1 - held))

/-- A caller that calls `ReadUntil` with the same buffer again after every failed call, until a call succeeds: the stream
comes in pieces, each ended by a failing receive (a timeout, say). -/
def readAgain (delim : Str) : List Conn → Str → Out (Int × Str × Conn)
  | [], buf => .ok (0, buf, ⟨[], 0⟩)
  | [c], buf => sockReadUntil c buf delim
  | c :: cs, buf =>
    match sockReadUntil c buf delim with
    | .error e => .error e
    | .ok (rc, buf', c') => if rc ≤ 0 then readAgain delim cs buf' else .ok (rc, buf', c')

/-- Calls that the status check protects. -/
def Guarded : SockOp → Prop
  | .init _ => False
  | .initUdp _ => False
  | .setNoBlock _ _ => False
  | .setBlock _ _ => False
  | .setSockOpt _ => False
  | _ => True

/-- Calls that (re)initialise the object. -/
def IsInit : SockOp → Prop
  | .init _ => True
  | .initUdp _ => True
  | _ => False

instance (op : SockOp) : Decidable (IsInit op) := by cases op <;> simp only [IsInit] <;> infer_instance

/-- A log entry that created a descriptor. -/
def Created (e : SockOp × Int × List Syscall) : Prop := IsInit e.1 ∧ e.2.1 = 0

instance (e : SockOp × Int × List Syscall) : Decidable (Created e) := by unfold Created; infer_instance

/-- A log entry that made a `close` system call. -/
def Closes (e : SockOp × Int × List Syscall) : Prop := ∃ fd, Syscall.close fd ∈ e.2.2

instance (e : SockOp × Int × List Syscall) : Decidable (Closes e) :=
  decidable_of_iff (∃ c ∈ e.2.2, (match c with | .close _ => true | _ => false) = true) <| by
    unfold Closes
    constructor
    · rintro ⟨c, h1, h2⟩
      cases c <;> simp at h2
      exact ⟨_, h1⟩
    · rintro ⟨fd, h⟩; exact ⟨_, h, rfl⟩

end Cppnet.Spec
