import Verif.Model.TcpServer

/-!
# Model of `src/cppnet/server/io_multiplexing/select.cpp` (Windows) and `kqueue.cpp` (macOS)

`epoll.cpp` is in `Model/TcpServer.lean`.  Here the multiplexers by themselves: which descriptors they watch and which
callbacks a round makes.  A callback's effect on the multiplexer is a list of actions.
-/

namespace Cppnet

/-- What a callback does to the multiplexer it is called by (tcp_server.cpp:54-67, 201-216). -/
inductive MuxAct where
  | monitor (fd : Int) | remove (fd : Int) | stop
  deriving DecidableEq, Repr

/-! ### select -/

/-- `FD_SETSIZE` of winsock2.h; the code does not define it (select.hpp:18). -/
def fdSetSize : Nat := 64

/-- select.hpp:18-19 and io_multiplexing_base.hpp:86: `monitor_set_` (its `fd_array` up to `fd_count`) and the flag. -/
structure Sel where
  fds : List Int := []
  loop : Bool := true
  deriving DecidableEq, Repr

/-- winsock2.h, `FD_SET`: a descriptor that is there already, or for which there is no room, changes nothing
(called at select.cpp:17). -/
def fdSet (fd : Int) (fds : List Int) : List Int :=
  if fd ∈ fds then fds else if fds.length < fdSetSize then fds ++ [fd] else fds

/-- winsock2.h, `FD_CLR`: the ones behind it move up (called at select.cpp:25). -/
def fdClr (fd : Int) (fds : List Int) : List Int := fds.erase fd

/-- select.cpp:16-22, `Select::MonitorSoc` (`max_fd_` is not used). -/
def selMonitor (s : Sel) (fd : Int) : Sel × Int := ({ s with fds := fdSet fd s.fds }, 0)

/-- select.cpp:24-27, `Select::RemoveSoc`. -/
def selRemove (s : Sel) (fd : Int) : Sel × Int := ({ s with fds := fdClr fd s.fds }, 0)

/-- select.cpp:11-14 and 29, `Init` and `Close`. -/
def selZero (s : Sel) : Sel := { s with fds := [] }

/-- One action (select.cpp:16-27, io_multiplexing_base.hpp:64). -/
def selAct (s : Sel) : MuxAct → Sel
  | .monitor fd => (selMonitor s fd).1
  | .remove fd => (selRemove s fd).1
  | .stop => { s with loop := false }

/-- select.cpp:43-52: the event for the result of peeking one byte. -/
def selEvent (peek : Int) : SrvEvent := if peek = 0 then .leave else if peek > 0 then .read else .error

/-- What a round of `select` depends on: the descriptors reported ready, what peeking at each gives, and what the
callback does (select.cpp:35, 43-50). -/
structure SelRound where
  ready : Int → Bool
  peek : Int → Int := fun _ => 1
  acts : Int → SrvEvent → List MuxAct := fun _ _ => []

/-- select.cpp:39-53: the loop over `monitor_set_.fd_array`, which the callbacks change; `event` is `event_set`.  The array
never has more than `FD_SETSIZE` places, so that many steps suffice. -/
def selScan (r : SelRound) (event : List Int) : Nat → Nat → Sel → Sel × List (Int × SrvEvent)
  | 0, _, s => (s, [])
  | fuel + 1, i, s =>
    match s.fds[i]? with
    | none => (s, [])
    | some fd =>
      if fd ∈ event then
        let ev := selEvent (r.peek fd)
        let (s, t) := selScan r event fuel (i + 1) ((r.acts fd ev).foldl selAct s)
        (s, (fd, ev) :: t)
      else selScan r event fuel (i + 1) s

/-- select.cpp:34-53, one round: `select` leaves the ready ones in the copy. -/
def selRound (r : SelRound) (s : Sel) : Sel × List (Int × SrvEvent) := selScan r (s.fds.filter r.ready) fdSetSize 0 s

/-- select.cpp:31-56, `Select::Loop` with a callback: rounds until the flag is cleared; `select` fails for an empty set
(`WSAEINVAL`) and returns that; when `rounds` is used up it waits. -/
def selLoop : List SelRound → Sel → Sel × List (List (Int × SrvEvent)) × LoopEnd
  | rs, s =>
    if !s.loop then (s, [], .returned 0)
    else if s.fds = [] then (s, [], .returned (-1))
    else
      match rs with
      | [] => (s, [], .waiting)
      | r :: rs =>
        let (s, t) := selRound r s
        let (s, ts, e) := selLoop rs s
        (s, t :: ts, e)

/-! ### kqueue -/

/-- The flags of a `kevent` that the code looks at (kqueue.cpp:70-74). -/
structure KqBits where
  eof : Bool := false
  error : Bool := false
  read : Bool := true
  deriving DecidableEq, Repr

/-- kqueue.cpp:70-76: the event for the flags. -/
def kqEvent (b : KqBits) : Option SrvEvent :=
  if b.eof then some .leave else if b.error then some .error else if b.read then some .read else none

/-- How a call of `kevent` ends (kqueue.cpp:57-68). -/
inductive KqWait where
  | intr | fail | events (evs : List (Int × KqBits)) (acts : Int → SrvEvent → List MuxAct)

/-- The object: the descriptors the kernel watches, and `loop_flag_`
(kqueue.hpp:17, io_multiplexing_base.hpp:86; made by kqueue.cpp:9-20, closed by kqueue.cpp:82). -/
structure Kq where
  fds : List Int := []
  loop : Bool := true
  deriving DecidableEq, Repr

/-- kqueue.cpp:22-30, `KQueue::MonitorSoc`; `res` is the kernel's answer (`EV_ADD` of a watched descriptor is no error). -/
def kqMonitor (k : Kq) (fd res : Int) : Kq × Int :=
  if res = -1 then (k, kSysErr) else ({ k with fds := if fd ∈ k.fds then k.fds else k.fds ++ [fd] }, kSuccess)

/-- kqueue.cpp:32-40, `KQueue::RemoveSoc`. -/
def kqRemove (k : Kq) (fd res : Int) : Kq × Int :=
  if res = -1 then (k, kSysErr) else ({ k with fds := k.fds.erase fd }, kSuccess)

/-- One action of a callback (the kernel agrees to it) (kqueue.cpp:22-40, io_multiplexing_base.hpp:64). -/
def kqAct (k : Kq) : MuxAct → Kq
  | .monitor fd => (kqMonitor k fd 0).1
  | .remove fd => (kqRemove k fd 0).1
  | .stop => { k with loop := false }

/-- kqueue.cpp:69-77: the loop over the reported events. -/
def kqBatch (acts : Int → SrvEvent → List MuxAct) : List (Int × KqBits) → Kq → Kq × List (Int × SrvEvent)
  | [], k => (k, [])
  | (fd, b) :: rest, k =>
    match kqEvent b with
    | none => kqBatch acts rest k
    | some ev =>
      let (k, t) := kqBatch acts rest ((acts fd ev).foldl kqAct k)
      (k, (fd, ev) :: t)

/-- kqueue.cpp:42-80, `KQueue::Loop` with a callback.  Lines 63 to 68: an interrupted wait is treated like any other
failure. -/
def kqLoop : List KqWait → Kq → Kq × List (List (Int × SrvEvent)) × LoopEnd
  | ws, k =>
    if !k.loop then (k, [], .returned 0)
    else
      match ws with
      | [] => (k, [], .waiting)
      | .intr :: _ => (k, [], .returned kSysErr)
      | .fail :: _ => (k, [], .returned kSysErr)
      | .events evs acts :: ws =>
        let (k, t) := kqBatch acts evs k
        let (k, ts, e) := kqLoop ws k
        (k, t :: ts, e)

end Cppnet
