import Verif.Cpp.Basic

/-!
# The settings of the multiplexers

`src/cppnet/server/io_multiplexing/io_multiplexing_base.hpp:72-88`: how many events one wait may report, and how long it may last.
`Loop` of `epoll.cpp`, `kqueue.cpp` and `select.cpp` reads them before each wait.
-/

namespace Cppnet

/-- io_multiplexing_base.hpp:87-88. -/
structure MuxCfg where
  maxEvents : Int := 1024
  timeout : Int := -1
  deriving DecidableEq, Repr

/-- io_multiplexing_base.hpp:74, `set_max_event_num`. -/
def MuxCfg.setMax (c : MuxCfg) (n : Int) : MuxCfg := { c with maxEvents := n }

/-- io_multiplexing_base.hpp:78, `set_wait_timeout`. -/
def MuxCfg.setTimeout (c : MuxCfg) (t : Int) : MuxCfg := { c with timeout := t }

/-- How long a wait lasts if nothing happens (epoll.cpp:51, kqueue.cpp:57, select.cpp:35). -/
inductive WaitFor where
  | ever
  | ns (n : Nat)
  deriving DecidableEq, Repr

/-- What a wait asks the kernel for: the number of events at most (`none`: no bound), and the time. -/
structure WaitCall where
  max : Option Nat
  time : WaitFor
  deriving DecidableEq, Repr

/-- epoll.cpp:50-51: an array of `max_event_num_` places, which has to be positive, is a variable of the block (that a large one may not fit
on the stack: `Mux.waitOn`); `epoll_wait` waits for ever if its last argument is negative, otherwise that many milliseconds. -/
def epollWait (c : MuxCfg) : Out WaitCall :=
  if c.maxEvents ≤ 0 then .error .ub
  else .ok ⟨some c.maxEvents.toNat, if c.timeout < 0 then .ever else .ns (c.timeout.toNat * 1000000)⟩

/-- kqueue.cpp:50-55: the `timespec`, or the null pointer. -/
def kqTimespec (c : MuxCfg) : Option (Int × Int) :=
  if c.timeout > 0 then some (c.timeout.tdiv 1000, c.timeout.tmod 1000 * 1000000) else none

/-- kqueue.cpp:49-57: `kevent` waits for ever if it gets no `timespec`. -/
def kqWait (c : MuxCfg) : Out WaitCall :=
  if c.maxEvents ≤ 0 then .error .ub
  else
    match kqTimespec c with
    | none => .ok ⟨some c.maxEvents.toNat, .ever⟩
    | some (s, ns) => .ok ⟨some c.maxEvents.toNat, .ns (s * 1000000000 + ns).toNat⟩

/-- select.cpp:35: neither of the settings is used. -/
def selWait (_ : MuxCfg) : Out WaitCall := .ok ⟨none, .ever⟩

/-- The multiplexers (io_multiplexing_base.hpp:11-15). -/
inductive Mux where
  | epoll | kqueue | select
  deriving DecidableEq, Repr

/-- The wait of each `Loop` (epoll.cpp:51, kqueue.cpp:57, select.cpp:35). -/
def Mux.wait : Mux → MuxCfg → Out WaitCall
  | .epoll => epollWait
  | .kqueue => kqWait
  | .select => selWait

/-- io_multiplexing_factory.cpp:13-24, `CreateDefault`: the system decides. -/
inductive Platform where
  | linux | apple | windows
  deriving DecidableEq, Repr

/-- io_multiplexing_factory.cpp:13-24. -/
def createDefault : Platform → Mux
  | .linux => .epoll
  | .apple => .kqueue
  | .windows => .select

/-- What happens to a multiplexer, before its loop or in callbacks: a setting is changed, or the loop waits
(io_multiplexing_base.hpp:74-78). -/
inductive MuxEv where
  | setMax (n : Int) | setTimeout (t : Int) | wait
  deriving DecidableEq, Repr

/-- The waits of a history (epoll.cpp:49-72, kqueue.cpp:48-78, select.cpp:33-53). -/
def muxWaits (m : Mux) : MuxCfg → List MuxEv → Out (List WaitCall)
  | _, [] => .ok []
  | c, .setMax n :: evs => muxWaits m (c.setMax n) evs
  | c, .setTimeout t :: evs => muxWaits m (c.setTimeout t) evs
  | c, .wait :: evs => do
    let w ← m.wait c
    let ws ← muxWaits m c evs
    .ok (w :: ws)

/-- The bytes of one place of the array (epoll.cpp:50, kqueue.cpp:49): `struct epoll_event` is packed on x86-64; select.cpp:34 has a set of fixed size. -/
def Mux.place : Mux → Nat
  | .epoll => 12
  | .kqueue => 32
  | .select => 0

/-- epoll.cpp:50, kqueue.cpp:49: the array is on the stack, of which `stack` bytes are left; one that does not fit
overwrites other memory or stops the program. -/
def Mux.waitOn (stack : Nat) (m : Mux) (c : MuxCfg) : Out WaitCall :=
  if (stack : Int) < m.place * c.maxEvents then .error .ub else m.wait c

/-- The waits of a history, on a stack with `stack` bytes left (epoll.cpp:49-72, kqueue.cpp:48-78, select.cpp:33-53). -/
def muxWaitsOn (stack : Nat) (m : Mux) : MuxCfg → List MuxEv → Out (List WaitCall)
  | _, [] => .ok []
  | c, .setMax n :: evs => muxWaitsOn stack m (c.setMax n) evs
  | c, .setTimeout t :: evs => muxWaitsOn stack m (c.setTimeout t) evs
  | c, .wait :: evs => do
    let w ← m.waitOn stack c
    let ws ← muxWaitsOn stack m c evs
    .ok (w :: ws)

/-! ### Which of the ready descriptors a wait reports -/

/-- Linux's `epoll_wait(…, evs, max, …)` with the ready list `ready`: the first `max` are reported, the others stay at the front
(called at epoll.cpp:51).  What is ready later, or still, comes behind them. -/
def epollReport (max : Nat) (ready : List Int) : List Int × List Int := (ready.take max, ready.drop max)

/-- epoll.cpp:49-72: the reports of several waits, each with its own bound.  Between two waits some of those that are left may have
stopped being ready, and others come behind them: `later` says what the list is then. -/
def epollReports : List Int → List (Nat × (List Int → List Int)) → List (List Int)
  | _, [] => []
  | ready, (max, later) :: rest =>
    let (out, left) := epollReport max ready
    out :: epollReports (later left) rest

end Cppnet
