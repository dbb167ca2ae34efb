import Verif.Model.Socket

/-!
# Model of `src/cppnet/timer/timer.cpp`, `timer.hpp` and of the datagram calls of
`src/cppnet/socket/socket.cpp`

Times are natural numbers of nanoseconds on the clock that cannot be set: the code arms its timers relatively (flags 0, timer.cpp:41), and
Linux does not let the setting of the system clock act on such timers, although they are made for `CLOCK_REALTIME` (timer.cpp:18).
-/

namespace Cppnet

/-! ### `timerfd` -/

/-- The kernel's timer: when it was armed, its period (0: disarmed; the code always makes the first expiry and the
interval equal), and how many expirations since then have been read (made at timer.cpp:18). -/
structure KTimer where
  base : Nat := 0
  period : Nat := 0
  seen : Nat := 0
  deriving DecidableEq, Repr

/-- Linux's `timerfd_settime(fd, 0, …)` at time `now` with the same value for `it_value` and `it_interval`: a negative
number of seconds or nanoseconds that are not below 10^9 are refused (`EINVAL`), and nothing changes
(called at timer.cpp:41). -/
def KTimer.set (k : KTimer) (now : Nat) (sec nsec : Int) : KTimer :=
  if sec < 0 ∨ nsec < 0 ∨ 1000000000 ≤ nsec then k
  else { base := now, period := (sec * 1000000000 + nsec).toNat, seen := 0 }

/-- How often the timer has expired since it was armed (seen at timer.hpp:33). -/
def KTimer.expired (k : KTimer) (t : Nat) : Nat := if k.period = 0 then 0 else (t - k.base) / k.period

/-- How a `read` ends (timer.hpp:33). -/
inductive TimerRead where
  | failed | never | got (count time : Nat)
  deriving DecidableEq, Repr

/-- Linux's `read(fd, buf, len)` on a timer, called at time `t`: fewer than 8 bytes are refused (`EINVAL`); the number
of expirations not read yet, for which it waits if there is none (called at timer.hpp:33). -/
def KTimer.read (k : KTimer) (t len : Nat) : KTimer × TimerRead :=
  if len < 8 then (k, .failed)
  else if k.seen < k.expired t then ({ k with seen := k.expired t }, .got (k.expired t - k.seen) t)
  else if k.period = 0 then (k, .never)
  else ({ k with seen := k.seen + 1 }, .got 1 (k.base + (k.seen + 1) * k.period))

/-- The eight bytes that `read` delivers (x86-64 and arm64: the lowest first) (delivered at timer.hpp:33). -/
def le64 (n : Nat) : Str := (List.range 8).map fun i => UInt8.ofNat (n / 256 ^ i)

/-! ### `TimerSocket` -/

/-- timer.hpp:6-40: the inherited members, and the kernel's timer that `fd_` refers to. -/
structure TimerObj where
  sock : Sock := {}
  tm : Option KTimer := none
  deriving DecidableEq

/-- The system calls (timer.cpp:18, 41; timer.hpp:33). -/
inductive TimerEv where
  | create (res : Int) | settime (fd : Int) | read (fd : Int)
  deriving DecidableEq, Repr

/-- timer.cpp:33-46, `TimerSocket::Reset`: neither the status nor the result of the call is looked at. -/
def TimerObj.reset (o : TimerObj) (now : Nat) (sec nsec : Int) : TimerObj × Int × List TimerEv :=
  ({ o with tm := o.tm.map (·.set now sec nsec) }, kSuccess, [.settime o.sock.fd])

/-- timer.cpp:15-31, `TimerSocket::Init`; `res` is the answer to `timerfd_create`. -/
def TimerObj.init (o : TimerObj) (now : Nat) (res sec nsec : Int) : TimerObj × Int × List TimerEv :=
  let o : TimerObj := { sock := { o.sock with fd := res }, tm := if res < 0 then none else some {} }
  if res ≤ 0 then (o, kSysErr, [.create res])
  else
    let (o, _, t) := o.reset now sec nsec
    ({ o with sock := { o.sock with status := .init } }, kSuccess, .create res :: t)

/-- timer.hpp:32-34 and socket.cpp:125-135, `Socket::Read(void *, len, …)` on a timer: the flag is ignored, so
`complete` makes no difference. -/
def TimerObj.read (o : TimerObj) (t len : Nat) : TimerObj × TimerRead × List TimerEv :=
  if o.sock.status ≠ .init then (o, .failed, [])
  else
    match o.tm with
    | none => (o, .failed, [.read o.sock.fd])
    | some k => let (k, r) := k.read t len; ({ o with tm := some k }, r, [.read o.sock.fd])

/-- socket.cpp:137-147, `Socket::ReadPeek` on a timer: the flag `MSG_PEEK` is ignored too (timer.hpp:32). -/
def TimerObj.peek (o : TimerObj) (t len : Nat) : TimerObj × TimerRead × List TimerEv := o.read t len

/-- A call of a timer on another system than Linux (timer.hpp:22-34, socket.hpp). -/
inductive TimerCall where
  | init (sec nsec : Int) | reset (sec nsec : Int) | read (t len : Nat) | peek (t len : Nat)
  deriving DecidableEq

/-- timer.cpp:26-30, 43-45: on macOS and elsewhere `Init` and `Reset` do nothing; reading is as on Linux. -/
def TimerObj.elsewhere (o : TimerObj) : TimerCall → TimerObj × (Int ⊕ TimerRead) × List TimerEv
  | .init _ _ => (o, .inl kNotSupport, [])
  | .reset _ _ => (o, .inl kNotSupport, [])
  | .read t len => let (o, r, e) := o.read t len; (o, .inr r, e)
  | .peek t len => let (o, r, e) := o.peek t len; (o, .inr r, e)

/-- socket.cpp:113-123, what `Socket::Read(std::string &, 8)` leaves in the string when `count` was read. -/
def timerText (count : Nat) : Str := cString (le64 count ++ [0])

/-! ### Datagrams -/

/-- A datagram in the receiving queue: its bytes and its sender (socket.cpp:185, 213). -/
structure Dgram (α : Type) where
  data : Str
  from_ : α
  deriving DecidableEq

/-- `recvfrom(fd, buf, len, 0, …)` on a datagram socket: the first datagram is taken from the queue; what does not fit in
`len` bytes is lost.  `none`: it waits (called at socket.cpp:185). -/
def recvfrom {α : Type} (len : Nat) : List (Dgram α) → Option (Int × Str × α × List (Dgram α))
  | [] => none
  | d :: q => some ((d.data.take len).length, d.data.take len, d.from_, q)

/-- socket.cpp:179-191, `Socket::ReadUdp(void *, …)` on an open socket: result, bytes, sender, queue. -/
def sockReadUdpRaw {α : Type} (len : Nat) (q : List (Dgram α)) : Option (Int × Str × α × List (Dgram α)) :=
  recvfrom len q

/-- socket.cpp:166-177, `Socket::ReadUdp(std::string &, …)` on an open socket: the bytes go to a zeroed array of `len + 1`
chars, which is assigned to the string as a C string. -/
def sockReadUdp {α : Type} (len : Nat) (q : List (Dgram α)) : Option (Int × Str × α × List (Dgram α)) :=
  match sockReadUdpRaw len q with
  | none => none
  | some (rc, bytes, a, q) => some (rc, cString (bytes ++ List.replicate (len + 1 - bytes.length) 0), a, q)

/-- The largest UDP payload over IPv4 (bounds socket.cpp:213). -/
def maxUdp : Nat := 65507

/-- socket.cpp:204-218, `Socket::WriteUdp` of a string on an open socket: `sendto` sends one datagram or fails
(`EMSGSIZE`).  The queue is the receiver's; delivery is not lost and not reordered here. -/
def sockWriteUdp {α : Type} (data : Str) (self : α) (q : List (Dgram α)) : Int × List (Dgram α) :=
  if maxUdp < data.length then (-1, q) else (data.length, q ++ [⟨data, self⟩])

/-- Several `ReadUdp` calls one after the other (socket.cpp:166-177). -/
def readUdps {α : Type} (len : Nat) : Nat → List (Dgram α) → Option (List (Int × Str × α))
  | 0, _ => some []
  | n + 1, q =>
    match sockReadUdp len q with
    | none => none
    | some (rc, s, a, q) => (readUdps len n q).map ((rc, s, a) :: ·)

end Cppnet
