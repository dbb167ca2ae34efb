import Verif.Model.MuxSettings

/-!
# The timeouts of a socket on the systems the library is built for

`src/cppnet/socket/socket.cpp:226-247`: `SetReadTimeout` and `SetWriteTimeout` hand a `struct timeval` to `setsockopt`, on every
system (the branch for Windows at 242-246 only casts the pointer).
-/

namespace Cppnet

/-- How long a blocking call waits (socket.cpp:226-238). -/
inductive Waits where
  | ever | notAtAll | micros (n : Nat)
  deriving DecidableEq, Repr

/-- What `setsockopt` makes of the waiting time `old` when it gets a `struct timeval` for `SO_RCVTIMEO` or `SO_SNDTIMEO`, and its
answer (called at socket.cpp:243, 245).
Linux (`sock_set_timeout`): microseconds outside 0 … 999999 are refused, negative seconds mean not to wait, zero means for ever.
macOS (`sosetopt`): negative seconds are refused as well.
Windows (Winsock, `SO_RCVTIMEO`): the option is a `DWORD` of milliseconds, zero means for ever; it is read from the first four bytes, and
these are `tv_sec` (a `long` of 32 bits).
Simplified: the rounding to clock ticks, and the half second that some versions of Windows add. -/
def setTimeval (pl : Platform) (old : Waits) (sec usec : Int) : Waits × Int :=
  match pl with
  | .linux =>
    if usec < 0 ∨ 1000000 ≤ usec then (old, -1)
    else if sec < 0 then (.notAtAll, 0)
    else if sec = 0 ∧ usec = 0 then (.ever, 0)
    else (.micros (sec * 1000000 + usec).toNat, 0)
  | .apple =>
    if sec < 0 ∨ usec < 0 ∨ 1000000 ≤ usec then (old, -1)
    else if sec = 0 ∧ usec = 0 then (.ever, 0)
    else (.micros (sec * 1000000 + usec).toNat, 0)
  | .windows =>
    if sec % 2 ^ 32 = 0 then (.ever, 0) else (.micros ((sec % 2 ^ 32).toNat * 1000), 0)

/-- The waiting times of an open socket (socket.cpp:226-238). -/
structure SockWaits where
  recv : Waits := .ever
  send : Waits := .ever
  deriving DecidableEq, Repr

/-- A call (socket.hpp:146-153). -/
inductive TimeoutCall where
  | read (sec usec : Int) | write (sec usec : Int)
  deriving DecidableEq, Repr

/-- socket.cpp:226-231 and 233-238, `SetReadTimeout` and `SetWriteTimeout`. -/
def SockWaits.call (pl : Platform) (w : SockWaits) : TimeoutCall → SockWaits × Int
  | .read s u => ({ w with recv := (setTimeval pl w.recv s u).1 }, (setTimeval pl w.recv s u).2)
  | .write s u => ({ w with send := (setTimeval pl w.send s u).1 }, (setTimeval pl w.send s u).2)

/-- Several calls on a new socket (socket.cpp:226-238). -/
def waitsAfter (pl : Platform) (cs : List TimeoutCall) : SockWaits := cs.foldl (fun w c => (w.call pl c).1) {}

end Cppnet
