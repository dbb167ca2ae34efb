import Verif.Model.Timer

/-!
# A server that watches a timer

`TcpServer::AddSoc` of a `TimerSocket` (README.md:270-286, `src/test/timer/timer_test.hpp`), in the modes with `epoll` on Linux.
-/

namespace Cppnet

/-- A timer that is watched, and whether it was reported since it was last read: Linux's `timerfd` is woken by its first expiration and,
although it goes on counting, not again before it is read; an edge-triggered `epoll_wait` reports it once for each time it is woken
(tcp_server.cpp:61-67, epoll.cpp:21-35, timer.cpp:18). -/
structure Watched where
  k : KTimer
  told : Bool := false
  deriving DecidableEq, Repr

/-- Does a wait that returns at time `t` report the timer: level-triggered, whenever there is something to read; edge-triggered, once
(epoll.cpp:28-32, 51). -/
def Watched.reports (edge : Bool) (w : Watched) (t : Nat) : Bool :=
  decide (w.k.seen < w.k.expired t) && !(edge && w.told)

/-- One round of the loop: the wait returns at time `wait`; if the callback reads the timer with `TimerSocket::Read(&n, 8)`, it does so at
time `read`.  A callback that calls `Read` of the `Socket` it is given does not: `recv` fails on a timer (socket.cpp:125-135, socket.hpp:199,
tcp_server.cpp:99-102, timer.hpp:32-34). -/
structure TimerRound where
  wait : Nat
  read : Option Nat
  deriving DecidableEq, Repr

/-- A round: the timer afterwards, and whether the callback was called, with what its read gave (`none`: it did not read)
(epoll.cpp:49-68, tcp_server.cpp:99-102). -/
def Watched.round (edge : Bool) (w : Watched) (x : TimerRound) : Watched × Option (Option TimerRead) :=
  if w.reports edge x.wait then
    match x.read with
    | none => ({ w with told := true }, some none)
    | some r => let (k, c) := w.k.read r 8; ({ k, told := false }, some (some c))
  else (w, none)

/-- The rounds of a loop (epoll.cpp:49-70). -/
def Watched.rounds (edge : Bool) : Watched → List TimerRound → Watched × List (Option (Option TimerRead))
  | w, [] => (w, [])
  | w, x :: xs =>
    let (w, c) := w.round edge x
    let (w', cs) := w.rounds edge xs
    (w', c :: cs)

/-- Tasks that read the timer, one after the other, all begun at time `t` (in the mixed mode a report is handed to the pool,
tcp_server.cpp:142-145): what each of them gets. -/
def KTimer.readAll (k : KTimer) (t : Nat) : Nat → KTimer × List TimerRead
  | 0 => (k, [])
  | n + 1 =>
    let (k, c) := k.read t 8
    let (k', cs) := k.readAll t n
    (k', c :: cs)

end Cppnet
