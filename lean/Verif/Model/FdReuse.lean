import Verif.Model.TcpServer
import Verif.Model.ServerThreads

/-!
# Descriptor numbers and the connections they stand for

`src/cppnet/server/tcp_server.cpp:91-199` in the multi-thread and the mixed mode: the tasks of the pool know their connection by
the number of its descriptor only; the system gives the number of a closed descriptor to the next connection.

What is simplified: what is read and written is left out, only which connection a system call reaches is kept; the thread that
calls `Stop`, failing `accept`s and other descriptors of the process are left out; any number that is not open may be given to a new
connection (POSIX gives the lowest one).
-/

namespace Cppnet

/-- What a callback does with the `Socket` it was given (a copy, tcp_server.hpp:45-46): a system call on its descriptor
(`Read`, `Write`, `GetAddr`, …), or `Close` (socket.cpp:113-254). -/
inductive FdAct where
  | io | close
  deriving DecidableEq, Repr

/-- Where a task is: in the queue of the pool, in a callback with what it has still to do (`live`: its copy of the socket was
not closed), at the `ReadPeek` of the multi-thread mode, or at its end (tcp_server.cpp:99-102, 167-175). -/
inductive FdPc where
  | queued
  | cb (ev : SrvEvent) (todo : List FdAct) (live : Bool)
  | peek
  | done
  deriving DecidableEq, Repr

/-- A task: the connection it was made for, the number it knows it by (tcp_server.cpp:143, 188). -/
structure FdTask where
  owner : Nat
  fd : Int
  pc : FdPc := .queued
  deriving DecidableEq, Repr

/-- A system call on a descriptor: the connection for which it was meant, the number, and the connection that the number stands
for at that moment (`none`: none, the call fails with `EBADF`). -/
structure FdTouch where
  owner : Nat
  fd : Int
  conn : Option Nat
  deriving DecidableEq, Repr

/-- The thread in `Run` in the mixed mode: waiting in `epoll_wait`, or in a callback of a connection (tcp_server.cpp:133-155). -/
inductive FdLoop where
  | idle
  | cb (ev : SrvEvent) (owner : Nat) (fd : Int) (todo : List FdAct) (live : Bool)
  deriving DecidableEq, Repr

/-- The server's threads and the system's table of descriptors (tcp_server.cpp:118-199). -/
structure FdSys where
  mode : MtMode
  /-- the open descriptors: number and connection -/
  table : List (Int × Nat) := []
  /-- connections accepted so far; the next one gets this number -/
  next : Nat := 0
  tasks : List FdTask := []
  loop : FdLoop := .idle
  log : List FdTouch := []
  deriving DecidableEq, Repr

/-- One action (tcp_server.cpp:69-199). -/
inductive FdStep where
  /-- multi-thread mode: `accept` returns `fd`, a task is queued (tcp_server.cpp:179-188) -/
  | accept (fd : Int)
  /-- mixed mode: `accept` returns `fd`, the loop calls the callback (tcp_server.cpp:69-97) -/
  | ioAccept (fd : Int) (acts : List FdAct)
  /-- mixed mode: `fd` is reported readable, a task is queued (tcp_server.cpp:141-144) -/
  | report (fd : Int)
  /-- mixed mode: the peer of `fd` has left, the loop calls the callback (tcp_server.cpp:104-109, 138-139) -/
  | left (fd : Int) (acts : List FdAct)
  /-- the loop goes on in its callback -/
  | loopWork
  /-- a worker takes a task and calls the callback: of the accept in the multi-thread mode, of the read in the mixed mode -/
  | start (i : Nat) (acts : List FdAct)
  /-- multi-thread mode: `ReadPeek` returns, with something to read or not, and the callback of the read or of the leave is called
  (tcp_server.cpp:170-173) -/
  | peek (i : Nat) (readable : Bool) (acts : List FdAct)
  /-- a task goes on in its callback -/
  | work (i : Nat)
  deriving DecidableEq, Repr

namespace FdSys

/-- What a number stands for now (the system's table). -/
def conn (s : FdSys) (fd : Int) : Option Nat := s.table.lookup fd

/-- A system call on `fd` by somebody who takes it for the connection `owner` (socket.cpp:113-254). -/
def touch (s : FdSys) (owner : Nat) (fd : Int) : FdSys := { s with log := s.log ++ [⟨owner, fd, s.conn fd⟩] }

/-- `close(fd)` (socket.cpp:113-133): whatever the number stands for is closed. -/
def closeFd (s : FdSys) (owner : Nat) (fd : Int) : FdSys :=
  { s.touch owner fd with table := s.table.filter fun e => e.1 ≠ fd }

/-- Task `i` is now at `pc`. -/
def setPc (s : FdSys) (i : Nat) (pc : FdPc) : FdSys :=
  { s with tasks := s.tasks.modify i fun t => { t with pc := pc } }

/-- The new connection gets the number `fd`, which was free. -/
def open' (s : FdSys) (fd : Int) : FdSys := { s with table := (fd, s.next) :: s.table, next := s.next + 1 }

/-- The next act of a callback on its copy of the socket: a copy that was closed makes no system call (C36). -/
def act (s : FdSys) (owner : Nat) (fd : Int) (live : Bool) : FdAct → FdSys × Bool
  | .io => (if live then s.touch owner fd else s, live)
  | .close => (if live then s.closeFd owner fd else s, false)

/-- One action; `none` if it is not possible now (tcp_server.cpp:69-199). -/
def step (s : FdSys) : FdStep → Option FdSys
  | .accept fd =>
    if s.mode = .multiThread ∧ s.conn fd = none then
      some { s.open' fd with tasks := s.tasks ++ [{ owner := s.next, fd := fd }] }
    else none
  | .ioAccept fd acts =>
    if s.mode = .mixed ∧ s.loop = .idle ∧ s.conn fd = none then
      some { s.open' fd with loop := .cb .accept s.next fd acts true }
    else none
  | .report fd =>
    if s.mode = .mixed ∧ s.loop = .idle then
      match s.conn fd with
      | none => none
      | some c => some { s with tasks := s.tasks ++ [{ owner := c, fd := fd }] }
    else none
  | .left fd acts =>
    if s.mode = .mixed ∧ s.loop = .idle then
      match s.conn fd with
      | none => none
      | some c => some { s with loop := .cb .leave c fd acts true }
    else none
  | .loopWork =>
    match s.loop with
    | .idle => none
    | .cb ev o fd (a :: todo) live =>
      let r := s.act o fd live a
      some { r.1 with loop := .cb ev o fd todo r.2 }
    | .cb ev o fd [] _ =>
      -- after the leave callback the loop closes its own `Socket` (tcp_server.cpp:108)
      if ev = .leave then some { s.closeFd o fd with loop := .idle } else some { s with loop := .idle }
  | .start i acts =>
    match s.tasks[i]? with
    | some t =>
      if t.pc = .queued then
        some (s.setPc i (.cb (match s.mode with | .multiThread => .accept | .mixed => .read) acts true))
      else none
    | none => none
  | .peek i readable acts =>
    match s.tasks[i]? with
    | some t =>
      if t.pc = .peek ∧ (readable = true → (s.conn t.fd).isSome) then
        some ((s.touch t.owner t.fd).setPc i (.cb (if readable then .read else .leave) acts true))
      else none
    | none => none
  | .work i =>
    match s.tasks[i]? with
    | some t =>
      match t.pc with
      | .cb ev (a :: todo) live =>
        let r := s.act t.owner t.fd live a
        some (r.1.setPc i (.cb ev todo r.2))
      | .cb ev [] _ =>
        match s.mode with
        | .multiThread => some (s.setPc i (if ev = .leave then .done else .peek))
        | .mixed => some (s.setPc i .done)
      | _ => none
    | none => none

/-- Several actions, one after the other. -/
def runSteps (s : FdSys) : List FdStep → Option FdSys
  | [] => some s
  | st :: rest => match s.step st with
    | none => none
    | some s => s.runSteps rest

end FdSys

/-- The callback of `HttpServer` (http_server.cpp:232-411): `GetAddr` on an accept and a leave; reading and writing on a read; a
connection that is dropped (`drop`: no address, a bad request, an error or a timeout) is closed. -/
def httpFdActs (drop : Bool) : SrvEvent → List FdAct
  | .accept => .io :: if drop then [.close] else []
  | .read => .io :: .io :: if drop then [.close] else []
  | .leave => [.io]
  | .error => []

end Cppnet
