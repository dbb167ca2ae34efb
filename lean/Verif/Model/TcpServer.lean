import Verif.Model.Socket
import Verif.Model.Address

/-!
# Model of `src/cppnet/server/tcp_server.cpp`, `tcp_server.hpp` and
`src/cppnet/server/io_multiplexing/epoll.cpp` (the Linux build)

Each function yields the list of system calls and user callbacks it performs, in order, with the answers
of the system.  The answers are arguments.  Error messages are not modelled.  What the thread pool does
with a task is the subject of `Model/ThreadPool.lean`; here a task that was added is one item of the list.
-/

namespace Cppnet

/-- tcp_server.hpp:16-21. -/
inductive SrvEvent where
  | accept | read | leave | error
  deriving DecidableEq, Repr

/-- tcp_server.hpp:27-31; `other` is any other value of the enum. -/
inductive SrvMode where
  | io | multiThread | mixed | other
  deriving DecidableEq, Repr

/-- The bits of `epoll_event::events` the code looks at (and `EPOLLHUP`, which it does not) (epoll.cpp:59-68). -/
structure EpBits where
  inn : Bool := false
  rdhup : Bool := false
  err : Bool := false
  hup : Bool := false
  deriving DecidableEq, Repr

/-- A user callback, by number; `null` is the empty `std::function`, `quiet` the default one of
tcp_server.cpp:319. -/
inductive Cb where
  | null | quiet | user (n : Nat)
  deriving DecidableEq, Repr

/-- What happens, in order: system calls with their results (for `wait` the reported descriptors and bits),
user callbacks, tasks given to the thread pool (tcp_server.cpp:19-322, epoll.cpp:12-81). -/
inductive NetEv where
  | socket (res : Int) | setReuse (fd res : Int) | bind (fd res : Int) | listen (fd queue res : Int)
  | connect (fd res : Int) | accept (fd res : Int) | peek (fd res : Int) | close (fd : Int)
  | epollCreate (res : Int) | ctlAdd (ep fd res : Int) (edge : Bool) | ctlDel (ep fd res : Int)
  | wait (ep : Int) (ready : List (Int × EpBits)) | waitFailed (ep : Int)
  | noBlock (fd res : Int)
  | call (cb : Cb) (ev : SrvEvent) (fd : Int)
  | addTask (fd : Int)
  | poolStop
  deriving DecidableEq, Repr

/-- epoll.hpp:20-24 and io_multiplexing_base.hpp:84-89: the members.  `baseTrigger` is the inherited
`trigger_type_` that `set_trigger_type` assigns (`true`: edge); `Epoll` reads its own static member of the
same name (epoll.hpp:24, epoll.cpp:10), which nothing assigns. -/
structure Ep where
  fd : Sock := {}
  loop : Bool := true
  baseTrigger : Bool := false
  deriving DecidableEq

/-- epoll.cpp:10, the static `Epoll::trigger_type_`: level. -/
def epollTrigger : Bool := false

/-- tcp_server.hpp:102-122: the members. -/
structure TcpSrv where
  addr : Address := {}
  listen : Sock := { fd := -1 }
  loop : Bool := true
  cb : Cb := .null
  mode : SrvMode := .io
  io : Option Ep := none
  pool : Bool := false
  maxQueue : Int := 10
  deriving DecidableEq

/-! ### epoll -/

/-- epoll.cpp:12-19, `Epoll::Init` (and 74, `CreateEpoll`). -/
def epInit (e : Ep) (res : Int) : Ep × Int × List NetEv :=
  let e := { e with fd := Sock.ofFd res }
  if e.fd.status ≠ .init then (e, kSysErr, [.epollCreate res]) else (e, kSuccess, [.epollCreate res])

/-- epoll.cpp:21-35, `Epoll::MonitorSoc`; `nb` is the answer to `SetNoBlock` (counted as one call). -/
def epMonitor (e : Ep) (fd nb res : Int) : Int × List NetEv :=
  if epollTrigger then
    if nb < 0 then (kSysErr, [.noBlock fd nb]) else (res, [.noBlock fd nb, .ctlAdd e.fd.fd fd res true])
  else (res, [.ctlAdd e.fd.fd fd res false])

/-- epoll.cpp:37-39, `Epoll::RemoveSoc`. -/
def epRemove (e : Ep) (fd res : Int) : Int × List NetEv := (res, [.ctlDel e.fd.fd fd res])

/-- epoll.cpp:41, `Epoll::Close`. -/
def epClose (e : Ep) : Ep × List NetEv :=
  if e.fd.status ≠ .init then (e, []) else ({ e with fd := { e.fd with status := .closed } }, [.close e.fd.fd])

/-- epoll.cpp:59-68: which event is reported for the bits (`none`: no callback). -/
def epEvent (b : EpBits) : Option SrvEvent :=
  if b.rdhup then some .leave else if b.err then some .error else if b.inn then some .read else none

/-! ### Creating and initialising -/

/-- What the system answers during `Init` (tcp_server.cpp:19-50, 260-322). -/
structure InitAns where
  socket : Int := 0
  reuse : Int := 0
  bind : Int := 0
  listen : Int := 0
  epoll : Int := 0
  noBlock : Int := 0
  add : Int := 0

/-- tcp_server.cpp:19-50, `CreateSocket`; the error codes become sockets through `Socket(int)`.  36-42: the
address is used only if it has a port (the text of an address is never empty). -/
def createSocket (s : TcpSrv) (a : InitAns) : Sock × List NetEv :=
  if a.socket < 0 then (Sock.ofFd kSysErr, [.socket a.socket])
  else if a.reuse < 0 then (Sock.ofFd kSysErr, [.socket a.socket, .setReuse a.socket a.reuse])
  else if addressIP s.addr = [] ∨ addressPort s.addr = 0 then
    (Sock.ofFd kLogicErr, [.socket a.socket, .setReuse a.socket a.reuse])
  else if a.bind < 0 then
    (Sock.ofFd kSysErr, [.socket a.socket, .setReuse a.socket a.reuse, .bind a.socket a.bind])
  else (Sock.ofFd a.socket, [.socket a.socket, .setReuse a.socket a.reuse, .bind a.socket a.bind])

/-- socket.cpp:66-76 on the member `listenfd_`. -/
def closeListen (s : TcpSrv) : TcpSrv × List NetEv :=
  if s.listen.status ≠ .init then (s, [])
  else ({ s with listen := { s.listen with status := .closed } }, [.close s.listen.fd])

/-- tcp_server.cpp:285-307, the part of `InitMode` that sets up epoll (`CreateDefault` gives a new `Epoll`). -/
def initEpoll (s : TcpSrv) (a : InitAns) : TcpSrv × Int × List NetEv :=
  let (e, rc, t1) := epInit {} a.epoll
  let s := { s with io := some e }
  if rc < 0 then
    let (s, t2) := closeListen s
    (s, kSysErr, t1 ++ t2)
  else
    let (rc, t2) := epMonitor e s.listen.fd a.noBlock a.add
    if rc < 0 then
      let (s, t3) := closeListen s
      (s, kSysErr, t1 ++ t2 ++ t3)
    else (s, kSuccess, t1 ++ t2)

/-- tcp_server.cpp:277-322, `InitMode`.  The pool's own `Init` is in `Model/ThreadPool.lean`. -/
def initMode (s : TcpSrv) (a : InitAns) : TcpSrv × Int × List NetEv :=
  match s.mode with
  | .mixed =>
    let (s, rc, t) := initEpoll { s with pool := true } a
    if rc < 0 then (s, rc, t) else ({ s with cb := .quiet }, kSuccess, t)
  | .io =>
    let (s, rc, t) := initEpoll s a
    if rc < 0 then (s, rc, t) else ({ s with cb := .quiet }, kSuccess, t)
  | .multiThread => ({ s with pool := true, cb := .quiet }, kSuccess, [])
  | .other => (s, kSuccess, [])

/-- tcp_server.cpp:260-275, `Init`. -/
def tcpInit (s : TcpSrv) (a : InitAns) : TcpSrv × Int × List NetEv :=
  let (l, t1) := createSocket s a
  let s := { s with loop := true, listen := l }
  if s.listen.status ≠ .init then (s, kSysErr, t1)
  else
    let t2 := [NetEv.listen s.listen.fd s.maxQueue a.listen]
    if a.listen < 0 then
      let (s, t3) := closeListen s
      (s, kSysErr, t1 ++ t2 ++ t3)
    else
      let (s, rc, t3) := initMode s a
      (s, rc, t1 ++ t2 ++ t3)

/-! ### Callbacks -/

/-- What a user callback does to the server and to descriptors (with the system's answers).  `close` is
`Socket::Close` on an open `Socket` object for the descriptor (callbacks get copies) (tcp_server.hpp:45-91). -/
inductive CbAct where
  | remove (fd res : Int) | add (fd nb res : Int) | close (fd : Int) | stop | register (n : Nat)
  deriving DecidableEq, Repr

/-- tcp_server.cpp:201-216, `Stop`; in the modes with epoll the multiplexer must exist. -/
def tcpStop (s : TcpSrv) : Out TcpSrv :=
  if s.listen.status ≠ .init then .ok s
  else
    let s := { s with loop := false }
    match s.mode with
    | .io | .mixed =>
      match s.io with
      | none => .error .ub
      | some e => .ok { s with io := some { e with loop := false } }
    | _ => .ok s

/-- tcp_server.cpp:54-59, `RemoveSoc`. -/
def tcpRemove (s : TcpSrv) (fd res : Int) : Int × List NetEv :=
  match s.io with
  | none => (kSuccess, [])
  | some e => epRemove e fd res

/-- tcp_server.cpp:61-67, `AddSoc` of an open socket: the multiplexer is not checked. -/
def tcpAdd (s : TcpSrv) (fd nb res : Int) : Out (Int × List NetEv) :=
  match s.io with
  | none => .error .ub
  | some e => .ok (epMonitor e fd nb res)

/-- One action of a callback (tcp_server.hpp:45-91). -/
def cbAct (s : TcpSrv) : CbAct → Out (TcpSrv × List NetEv)
  | .remove fd res => .ok (s, (tcpRemove s fd res).2)
  | .add fd nb res => (tcpAdd s fd nb res).map fun r => (s, r.2)
  | .close fd => .ok (s, [.close fd])
  | .stop => (tcpStop s).map fun s => (s, [])
  | .register n => .ok ({ s with cb := .user n }, [])

/-- All actions of a callback (tcp_server.hpp:45-91). -/
def cbActs : TcpSrv → List CbAct → Out (TcpSrv × List NetEv)
  | s, [] => .ok (s, [])
  | s, a :: as => do
    let (s, t1) ← cbAct s a
    let (s, t2) ← cbActs s as
    .ok (s, t1 ++ t2)

/-- `event_callback_(ev, *this, soc)`: the empty function throws `std::bad_function_call`; the default one
does nothing; `acts` are the actions of a user callback (tcp_server.cpp:75, 86, 96, 101, 107, 114, 168-174). -/
def callCb (s : TcpSrv) (ev : SrvEvent) (fd : Int) (acts : List CbAct) : Out (TcpSrv × List NetEv) :=
  match s.cb with
  | .null => .error .terminate
  | .quiet => .ok (s, [.call .quiet ev fd])
  | .user n => do
    let (s', t) ← cbActs s acts
    .ok (s', .call (.user n) ev fd :: t)

/-! ### I/O multiplexing -/

/-- What the system and the user answer while one reported event is handled: the results of `accept`,
`SetNoBlock`, `epoll_ctl`, and what the callback does when it is called with an event and a descriptor
(tcp_server.cpp:69-116). -/
structure EvAns where
  accept : Int := -1
  noBlock : Int := 0
  add : Int := 0
  del : Int := 0
  acts : SrvEvent → Int → List CbAct := fun _ _ => []

/-- tcp_server.cpp:69-97, `HandleAccept` in a mode with epoll. -/
def handleAccept (s : TcpSrv) (a : EvAns) : Out (TcpSrv × List NetEv) :=
  if s.listen.status ≠ .init then callCb s .error (-1) (a.acts .error (-1))
  else if a.accept < 0 then do
    let (s, t) ← callCb s .error a.accept (a.acts .error a.accept)
    .ok (s, .accept s.listen.fd a.accept :: t)
  else
    match s.io with
    | none => .error .ub
    | some e =>
      let t1 := NetEv.accept s.listen.fd a.accept
      let (rc, t2) := epMonitor e a.accept a.noBlock a.add
      if rc < 0 then do
        let (s, t3) ← callCb s .error a.accept (a.acts .error a.accept)
        .ok (s, t1 :: t2 ++ t3 ++ [.close a.accept])
      else do
        let (s, t3) ← callCb s .accept a.accept (a.acts .accept a.accept)
        .ok (s, t1 :: t2 ++ t3)

/-- tcp_server.cpp:99-102, `HandleRead`. -/
def handleReadEv (s : TcpSrv) (fd : Int) (a : EvAns) : Out (TcpSrv × List NetEv) :=
  callCb s .read fd (a.acts .read fd)

/-- tcp_server.cpp:104-116, `HandleLeave` and `HandleError`: the callback gets a copy of `soc`, which is
closed afterwards in any case. -/
def handleGone (s : TcpSrv) (ev : SrvEvent) (fd : Int) (a : EvAns) : Out (TcpSrv × List NetEv) := do
  let (s, t) ← callCb s ev fd (a.acts ev fd)
  .ok (s, t ++ (tcpRemove s fd a.del).2 ++ [.close fd])

/-- `thread_pool_->…`: the pointer is not checked (tcp_server.cpp:144, 162, 189, 191). -/
def needPool (s : TcpSrv) : Out Unit := if s.pool then .ok () else .error .ub

/-- tcp_server.cpp:133-155, the lambda given to `Loop`, for one reported descriptor. -/
def ioEvent (s : TcpSrv) (fd : Int) (ev : SrvEvent) (a : EvAns) : Out (TcpSrv × List NetEv) :=
  if fd = s.listen.fd then handleAccept s a
  else
    match ev with
    | .leave => handleGone s .leave fd a
    | .read =>
      if s.mode = .mixed then do
        needPool s
        .ok (s, [.addTask fd])
      else handleReadEv s fd a
    | .error => handleGone s .error fd a
    | .accept => .ok (s, [])

/-- epoll.cpp:59-69: the loop over the reported events. -/
def ioBatch : TcpSrv → List (Int × EpBits × EvAns) → Out (TcpSrv × List NetEv)
  | s, [] => .ok (s, [])
  | s, (fd, b, a) :: rest =>
    match epEvent b with
    | none => ioBatch s rest
    | some ev => do
      let (s, t1) ← ioEvent s fd ev a
      let (s, t2) ← ioBatch s rest
      .ok (s, t1 ++ t2)

/-- How one `epoll_wait` ends: not at all, interrupted, with another error, or with events (epoll.cpp:51-58). -/
inductive WaitRes where
  | never | intr | fail
  | events (evs : List (Int × EpBits × EvAns))

/-- One round of the loop: how `epoll_wait` ends, and whether another thread calls `Stop` before the loop
flag is read again (epoll.cpp:49-58). -/
structure Round where
  res : WaitRes
  stopped : Bool := false

/-- How a loop stands: it waits (for events, or for a connection), or it has returned
(epoll.cpp:49-71, tcp_server.cpp:118-199). -/
inductive LoopEnd where
  | waiting | returned (rc : Int)
  deriving DecidableEq, Repr

/-- `Stop` called by another thread (tcp_server.cpp:201-216). -/
def stopIf (b : Bool) (s : TcpSrv) : Out TcpSrv := if b then tcpStop s else .ok s

/-- epoll.cpp:43-72, `Epoll::Loop` (the callback is never empty here).  `rounds` says how the waits end;
when it is used up the loop is waiting. -/
def ioLoop : TcpSrv → List Round → Out (TcpSrv × List NetEv × LoopEnd)
  | s, [] =>
    match s.io with
    | none => .error .ub
    | some e => .ok (s, [], if e.loop then .waiting else .returned kSuccess)
  | s, r :: rs =>
    match s.io with
    | none => .error .ub
    | some e =>
      if e.loop then
        match r.res with
        | .never => do
          let s ← stopIf r.stopped s
          .ok (s, [], .waiting)
        | .intr => do
          let s ← stopIf r.stopped s
          let (s, t, o) ← ioLoop s rs
          .ok (s, .waitFailed e.fd.fd :: t, o)
        | .fail => .ok (s, [.waitFailed e.fd.fd], .returned kSysErr)
        | .events evs => do
          let (s, t1) ← ioBatch s evs
          let s ← stopIf r.stopped s
          let (s, t2, o) ← ioLoop s rs
          .ok (s, .wait e.fd.fd (evs.map fun x => (x.1, x.2.1)) :: t1 ++ t2, o)
      else .ok (s, [], .returned kSuccess)

/-! ### Multi-threading -/

/-- How one blocking `accept` ends: not at all, or with a result; and whether `Stop` was called before
(tcp_server.cpp:177-188). -/
structure MtRound where
  accept : Option Int
  stopped : Bool := false
  acts : List CbAct := []

/-- tcp_server.cpp:177-192, the accept loop of the multi-thread mode. -/
def mtLoop : TcpSrv → List MtRound → Out (TcpSrv × List NetEv × LoopEnd)
  | s, [] =>
    if s.loop then .ok (s, [], .waiting)
    else do
      needPool s
      .ok (s, [.poolStop], .returned kSuccess)
  | s, r :: rs =>
    if s.loop then do
      let s ← stopIf r.stopped s
      match r.accept with
      | none => .ok (s, [], .waiting)
      | some fd =>
        if !s.loop then do
          needPool s
          .ok (s, [.accept s.listen.fd fd, .poolStop], .returned kSuccess)
        else if fd < 0 then do
          let l := s.listen.fd
          let (s, t) ← callCb s .error fd r.acts
          .ok (s, .accept l fd :: t, .returned kSysErr)
        else do
          needPool s
          let (s', t, o) ← mtLoop s rs
          .ok (s', .accept s.listen.fd fd :: .addTask fd :: t, o)
    else do
      needPool s
      .ok (s, [.poolStop], .returned kSuccess)

/-- tcp_server.cpp:169-172: the reading loop of a connection's task: each round peeks, and while there is
something to read calls the callback.  `fin` is the result of the last peek.  The task's own `Socket`
object stays open whatever the callback does with its copy. -/
def connReads (s : TcpSrv) (fd fin : Int) : List (List CbAct) → Out (TcpSrv × List NetEv)
  | [] => .ok (s, [.peek fd fin])
  | acts :: rest => do
    let (s, t1) ← callCb s .read fd acts
    let (s, t2) ← connReads s fd fin rest
    .ok (s, .peek fd 1 :: t1 ++ t2)

/-- tcp_server.cpp:167-175, the task of one connection. -/
def connTask (s : TcpSrv) (fd fin : Int) (acceptActs : List CbAct) (reads : List (List CbAct))
    (leaveActs : List CbAct) : Out (TcpSrv × List NetEv) := do
  let (s, t1) ← callCb s .accept fd acceptActs
  let (s, t2) ← connReads s fd fin reads
  let (s, t3) ← callCb s .leave fd leaveActs
  .ok (s, t1 ++ t2 ++ t3)

/-! ### The other members, and histories -/

/-- tcp_server.cpp:118-199, `EventLoop`. -/
def eventLoop (s : TcpSrv) (rounds : List Round) (mt : List MtRound) : Out (TcpSrv × List NetEv × LoopEnd) :=
  if s.listen.status ≠ .init then .ok (s, [], .returned kLogicErr)
  else if s.io = none ∧ s.mode ≠ .multiThread then .ok (s, [], .returned kLogicErr)
  else
    match s.mode with
    | .io => ioLoop s rounds
    | .mixed => do
      let (s, t, o) ← ioLoop s rounds
      if o = .returned kSuccess then do
        needPool s
        .ok (s, t ++ [.poolStop], o)
      else .ok (s, t, o)
    | .multiThread => mtLoop s mt
    | .other => .ok (s, [], .returned kLogicErr)

/-- tcp_server.cpp:218-225, `Clean`. -/
def tcpClean (s : TcpSrv) : TcpSrv × List NetEv :=
  let (s, t1) := closeListen s
  match s.io with
  | none => (s, t1)
  | some e =>
    let (e, t2) := epClose e
    ({ s with io := some e }, t1 ++ t2)

/-- tcp_server.cpp:227-258, `WakeUp`, with the answers to `socket` and `connect`: a failed `connect`
returns without closing the socket.  (A failing `close` is reported like success here.) -/
def tcpWakeUp (s : TcpSrv) (soc conn : Int) : Int × List NetEv :=
  if s.loop then (kLogicErr, [])
  else
    match s.mode with
    | .multiThread | .mixed =>
      if soc < 0 then (kSysErr, [.socket soc])
      else if conn < 0 then (kSysErr, [.socket soc, .connect soc conn])
      else (kSuccess, [.socket soc, .connect soc conn, .close soc])
    | _ => (kSuccess, [])

/-- A call on the server object, with the answers it gets (tcp_server.hpp:45-91). -/
inductive SrvOp where
  | init (a : InitAns) | register (n : Nat) | eventLoop (rounds : List Round) (mt : List MtRound)
  | stop | clean | wakeUp (soc conn : Int) | removeSoc (fd res : Int) | addSoc (fd nb res : Int)
  | setMode (m : SrvMode) | setAddr (a : Address) | setQueue (n : Int) | setTrigger (edge : Bool)

/-- tcp_server.cpp, one call: the object afterwards, what happened, the result.  `setTrigger` is
`server.io_multiplexing()->set_trigger_type` (io_multiplexing_base.hpp:82). -/
def TcpSrv.apply (s : TcpSrv) : SrvOp → Out (TcpSrv × List NetEv × LoopEnd)
  | .init a => let (s, rc, t) := tcpInit s a; .ok (s, t, .returned rc)
  | .register n => .ok ({ s with cb := .user n }, [], .returned kSuccess)
  | .eventLoop rounds mt => Cppnet.eventLoop s rounds mt
  | .stop => (tcpStop s).map fun s => (s, [], .returned kSuccess)
  | .clean => let (s, t) := tcpClean s; .ok (s, t, .returned kSuccess)
  | .wakeUp soc conn => let (rc, t) := tcpWakeUp s soc conn; .ok (s, t, .returned rc)
  | .removeSoc fd res => let (rc, t) := tcpRemove s fd res; .ok (s, t, .returned rc)
  | .addSoc fd nb res => (tcpAdd s fd nb res).map fun r => (s, r.2, .returned r.1)
  | .setMode m => .ok ({ s with mode := m }, [], .returned kSuccess)
  | .setAddr a => .ok ({ s with addr := a }, [], .returned kSuccess)
  | .setQueue n => .ok ({ s with maxQueue := n }, [], .returned kSuccess)
  | .setTrigger edge =>
    match s.io with
    | none => .error .ub
    | some e => .ok ({ s with io := some { e with baseTrigger := edge } }, [], .returned kSuccess)

/-- A history of calls made by one thread; a loop that has not returned is the last one (tcp_server.hpp:45-91). -/
def TcpSrv.history : TcpSrv → List SrvOp → Out (TcpSrv × List NetEv)
  | s, [] => .ok (s, [])
  | s, op :: ops => do
    let (s, t, o) ← s.apply op
    if o = .waiting then .ok (s, t)
    else do
      let (s, t') ← TcpSrv.history s ops
      .ok (s, t ++ t')

/-! ### What `HttpServer` does in the callback -/

/-- http_server.cpp:228-411, the effects of `HttpServer::EventFunc` (plain connections) on the
server and the descriptor: `HandleAccept` drops the connection when the peer's address is not available,
`HandleRead` when reading, parsing or writing fails (`dropped`); `HandleLeave` and `HandleError` only log. -/
def httpActs (addrRc : Int) (dropped : Bool) (del : Int) : SrvEvent → Int → List CbAct
  | .accept, fd => if addrRc ≠ kSuccess then [.remove fd del, .close fd] else []
  | .read, fd => if dropped then [.remove fd del, .close fd] else []
  | .leave, _ => []
  | .error, _ => []

end Cppnet
