import Verif.Model.Timer

/-! # Specification: timers and datagrams -/

namespace Cppnet.Spec
open Cppnet

/-- A timer started at `t0` with period `p` (nanoseconds) fires at `t0 + p`, `t0 + 2p`, …: this many times after `a` and
not after `b`. -/
def firings (t0 p a b : Nat) : Nat :=
  ((List.range (b + 1)).filter fun t => decide (a < t ∧ t0 < t ∧ (t - t0) % p = 0)).length

/-- Reads of `len i` bytes each, one after the other: each starts `wait i` after the last one returned.  For each: when
it started and how it ended.  A read that does not return is the last one. -/
def timerReads : TimerObj → Nat → List (Nat × Nat) → List (Nat × TimerRead)
  | _, _, [] => []
  | o, now, (wait, len) :: rest =>
    match o.read (now + wait) len with
    | (o', .got n t, _) => (now + wait, .got n t) :: timerReads o' t rest
    | (o', .failed, _) => (now + wait, .failed) :: timerReads o' (now + wait) rest
    | (_, .never, _) => [(now + wait, .never)]

/-- What a user expects of the reads of a timer that fires from `t0` every `p`, when everything up to `last` has been
reported: every read reports exactly the firings since the last one, at least one; it returns at once if there are any,
and otherwise at the next one. -/
inductive Reported (t0 p : Nat) : Nat → List (Nat × TimerRead) → Prop
  | nil (last : Nat) : Reported t0 p last []
  | atOnce (last start n : Nat) (rest : List (Nat × TimerRead)) :
      last ≤ start → 1 ≤ n → n = firings t0 p last start → Reported t0 p start rest →
      Reported t0 p last ((start, .got n start) :: rest)
  | waits (last start fire : Nat) (rest : List (Nat × TimerRead)) :
      last ≤ start → start < fire → firings t0 p last (fire - 1) = 0 → firings t0 p last fire = 1 →
      Reported t0 p fire rest → Reported t0 p last ((start, .got 1 fire) :: rest)

/-- Calls of a timer one after the other, on another system than Linux: their results, and the system calls. -/
def elsewhereCalls : TimerObj → List TimerCall → List (Int ⊕ TimerRead) × List TimerEv
  | _, [] => ([], [])
  | o, c :: cs =>
    match o.elsewhere c with
    | (o', r, e) => (r :: (elsewhereCalls o' cs).1, e ++ (elsewhereCalls o' cs).2)

/-- The number whose base-256 digits, lowest first, are the bytes. -/
def numberOf : Str → Nat
  | [] => 0
  | b :: s => b.toNat + 256 * numberOf s

/-- The arguments name a positive length of time the way the documentation asks (`1s = 1e9ns`). -/
def WellFormedPeriod (sec nsec : Int) : Prop := 0 ≤ sec ∧ 0 ≤ nsec ∧ nsec < 1000000000 ∧ 0 < sec + nsec

/-- The length of time the arguments name. -/
def nanos (sec nsec : Int) : Int := sec * 1000000000 + nsec

/-- Several `WriteUdp` calls of several senders to one receiver: results and the receiver's queue. -/
def writeUdps {α : Type} : List (Str × α) → List (Dgram α) → List Int × List (Dgram α)
  | [], q => ([], q)
  | (d, a) :: ms, q => let (r, q) := sockWriteUdp d a q; let (rs, q) := writeUdps ms q; (r :: rs, q)

end Cppnet.Spec
