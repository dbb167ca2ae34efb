import Verif.Model.StartErr

/-!
# Model of `TcpServer::err_msg()` while the server runs

`src/cppnet/server/tcp_server.cpp:61-258` and `epoll.cpp:43-72`: the messages that `HandleAccept`, `EventLoop`, `AddSoc`, `Stop` and `WakeUp`
leave, and the one that a callback finds.  What the functions do otherwise is in `Model/TcpServer`.

What is simplified: the I/O multiplexing mode; `strerror(errno)` right after a failed call is the text of that call.
-/

namespace Cppnet

/-- One reported descriptor: the bits, the answers, `strerror` of what fails in handling it, and what the callback's own calls make of
the message (tcp_server.cpp:69-116). -/
structure MsgEv where
  fd : Int
  bits : EpBits
  ans : EvAns
  sys : Str := []
  cbErr : Str → Str := id

/-- tcp_server.cpp:61-67, `AddSoc`: the message afterwards; a failure of `MonitorSoc` is not recorded. -/
def addSocErr (status : SockStatus) (m : Str) : Str := if status ≠ .init then b!"[logicerr]:soc is not init" else m

/-- tcp_server.cpp:201-205, `Stop`: the message afterwards. -/
def stopErr (s : TcpSrv) (m : Str) : Str := if s.listen.status ≠ .init then b!"[logicerr]:epfd or listenfd not init" else m

/-- tcp_server.cpp:227-258, `WakeUp`: the message afterwards (`::close` is taken to succeed). -/
def wakeUpErr (s : TcpSrv) (soc conn : Int) (x : ErrnoText) (m : Str) : Str :=
  if s.loop then b!"[logicerr]:server is running"
  else
    match s.mode with
    | .multiThread | .mixed =>
      if soc < 0 then b!"[syserr]:" ++ x .socket
      else if conn < 0 then b!"[syserr]:" ++ x .connect
      else m
    | _ => m

/-- tcp_server.cpp:69-97 and 133-155: the message when the callback is called for a report (`m` before; `io` is the message of the
`Epoll`, which `MonitorSoc` does not write when `epoll_ctl` fails, epoll.cpp:21-35, 76-81). -/
def eventErr (s : TcpSrv) (fd : Int) (ev : SrvEvent) (a : EvAns) (sys io m : Str) : Str :=
  if fd = s.listen.fd then
    if s.listen.status ≠ .init then b!"[syserr]:" ++ sys
    else if a.accept < 0 then b!"[syserr]:" ++ sys
    else
      match s.io with
      | none => m
      | some e => if (epMonitor e a.accept a.noBlock a.add).1 < 0 then b!"[syserr]:" ++ io else m
  else
    match ev with
    | .accept => b!"[logicerr]:unknown event"
    | _ => m

/-- The callbacks in a trace (tcp_server.cpp:75, 86, 96, 101, 107, 114). -/
def callsIn (t : List NetEv) : List (SrvEvent × Int) :=
  t.filterMap fun
    | .call _ ev fd => some (ev, fd)
    | _ => none

/-- epoll.cpp:59-69: the reports of one wait: the callbacks, each with the message it finds; the server and the message afterwards. -/
def batchMsgs (io : Str) : TcpSrv → List MsgEv → Str → Out (TcpSrv × List ((SrvEvent × Int) × Str) × Str)
  | s, [], m => .ok (s, [], m)
  | s, v :: rest, m =>
    match epEvent v.bits with
    | none => batchMsgs io s rest m
    | some ev => do
      let (s', t) ← ioEvent s v.fd ev v.ans
      let m1 := eventErr s v.fd ev v.ans v.sys io m
      let (s'', l, m2) ← batchMsgs io s' rest (v.cbErr m1)
      .ok (s'', (callsIn t).map (fun c => (c, m1)) ++ l, m2)

/-- How a wait ends; a failure with its text (epoll.cpp:51-58, tcp_server.cpp:157-160). -/
inductive MsgWait where
  | never | intr | fail (sys : Str) | events (evs : List MsgEv)

/-- One round of the loop (epoll.cpp:49-58). -/
structure MsgRound where
  res : MsgWait
  stopped : Bool := false

/-- The same round for the model without messages (epoll.cpp:49-58). -/
def MsgRound.plain (r : MsgRound) : Round :=
  { res := match r.res with
      | .never => .never
      | .intr => .intr
      | .fail _ => .fail
      | .events evs => .events (evs.map fun v => (v.fd, v.bits, v.ans))
    stopped := r.stopped }

/-- epoll.cpp:43-72 and tcp_server.cpp:156-165 (`kIOMultiplexing`): the callbacks, each with the message it finds, the message in the
end, and how the loop stands.  `Stop` from another thread changes no message while the listening socket is open (201-205). -/
def loopMsgs (io : Str) : TcpSrv → List MsgRound → Str → Out (List ((SrvEvent × Int) × Str) × Str × LoopEnd)
  | s, [], m =>
    match s.io with
    | none => .error .ub
    | some e => .ok ([], m, if e.loop then .waiting else .returned kSuccess)
  | s, r :: rs, m =>
    match s.io with
    | none => .error .ub
    | some e =>
      if e.loop then
        match r.res with
        | .never => do
          let s' ← stopIf r.stopped s
          .ok ([], if r.stopped then stopErr s' m else m, .waiting)
        | .intr => do
          let s' ← stopIf r.stopped s
          loopMsgs io s' rs (if r.stopped then stopErr s' m else m)
        | .fail sys => .ok ([], b!"[syserr]:" ++ sys, .returned kSysErr)
        | .events evs => do
          let (s', l1, m) ← batchMsgs io s evs m
          let s'' ← stopIf r.stopped s'
          let (l2, m, o) ← loopMsgs io s'' rs (if r.stopped then stopErr s'' m else m)
          .ok (l1 ++ l2, m, o)
      else .ok ([], m, .returned kSuccess)

/-- tcp_server.cpp:118-127: what `EventLoop` says when it does not begin. -/
def eventLoopErr (s : TcpSrv) (m : Str) : Str :=
  if s.listen.status ≠ .init then b!"[logicerr]:epfd or listenfd not init"
  else if s.io = none ∧ s.mode ≠ .multiThread then b!"[logicerr]:io multiplexing not init"
  else m

end Cppnet
