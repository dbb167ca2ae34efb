import Verif.Model.HttpHeader

/-!
# The threads of a running `HttpServer`, and which plain variables their actions read and write

`src/cppnet/server/tcp_server.cpp:118-199` and `src/cppnet/http/server/http_server.cpp:182-430` in the multi-thread and the
mixed mode.  There are the thread in `Run`, the pool's workers, each with the task of a connection (multi-thread mode) or of a
report (mixed mode), and one more thread that calls `Stop` and, in the end, the destructor.  (In the I/O multiplexing mode there
is only the thread in `Run`.)

What is simplified: an action ends at the next access of a shared variable, so that the actions between are not seen; sockets,
TLS sessions, requests and responses belong to one task and are left out; the user's own handlers touch nothing of the server;
the variables that are only set before `Run` (`mode_`, `event_callback_`, the timeouts, the pointers to the logger, the TLS
context, the pool and the multiplexer, the filters) are left out; `operator[]` of a map with a key that is in it only reads.  A
worker is free when it has no task, and `Stop` of the pool waits for the tasks that were begun and begins no others, as C48 to
C50 say of the pool.
-/

namespace Cppnet

/-- The plain variables that more than one thread can reach. -/
inductive SVar where
  /-- `HttpServer::ssl_sockets_map_` (http_server.hpp:228) -/
  | sessions
  /-- `SSLContext::err_msg_` (ssl_context.hpp) -/
  | ctxErr
  /-- `HttpServer::is_continue_` (http_server.hpp:242) -/
  | cont
  /-- `TcpServer::loop_flag_` (tcp_server.hpp:108) -/
  | loopFlag
  /-- `IOMultiplexingBase::loop_flag_` (io_multiplexing_base.hpp:86) -/
  | ioFlag
  /-- `TcpServer::err_msg_` (tcp_server.hpp:112) -/
  | srvErr
  /-- `HttpGroup::err_msg_` (http_server.hpp:173) -/
  | httpErr
  /-- `TcpServer::listenfd_` (tcp_server.hpp:106) -/
  | listen
  /-- `Epoll::epoll_fd_` (epoll.hpp) -/
  | poll
  /-- `HttpHeader::custom_content_type_` (http_header.hpp:115) -/
  | types
  /-- the buffers of a `FileLogger` (file_logger.hpp:55-73) -/
  | log
  /-- `HttpServer::trie_` with the nodes (http_server.hpp:241) -/
  | trie
  /-- the length that `Address::GetAddrLen` hands to the system, one variable for the whole process: every call sets it, and
  `accept` and `getpeername` read and set it through the pointer (address.cpp:60-69, socket.cpp:41, 63) -/
  | addrLen
  deriving DecidableEq, Repr

/-- A read or a write of one of them (the lines are with the variables: http_server.hpp:173-242, tcp_server.hpp:106-112). -/
inductive SAccess where
  | read (v : SVar)
  | write (v : SVar)
  deriving DecidableEq, Repr

/-- The two modes with several threads (tcp_server.hpp:30-36). -/
inductive MtMode where
  | multiThread | mixed
  deriving DecidableEq, Repr

/-- A handler that a request reaches: one of the user's, one of `StaticDir` or `StaticFile` that serves nothing and says so in
the log, or that serves a file with a suffix (http_server.cpp:98-134, 148-172). -/
inductive MtHandler where
  | user | refuse | dir (suffix : Str) | file (suffix : Str)
  deriving DecidableEq, Repr

/-- Where a task is.  `say k`: at a call of the logger, after which it is at `k` (http_server.cpp:228-411). -/
inductive TaskPc where
  /-- in the queue of the pool -/
  | queued
  | say (next : TaskPc)
  /-- `HandleAccept`: the peer's address is asked for (http_server.cpp:234) -/
  | greet
  /-- `RemoveSoc` of a connection that is dropped (tcp_server.cpp:54-59) -/
  | drop
  /-- `AcceptSSL` (http_server.cpp:253) -/
  | secure
  /-- `err_msg_ = …` in `AcceptSSL` (ssl_context.cpp:186, 192) -/
  | secErr
  /-- `ssl_context_->err_msg()` (http_server.cpp:255) -/
  | secMsg
  /-- `ssl_sockets_map_[fd] = ssl_socket` (http_server.cpp:260) -/
  | insert
  /-- `ReadPeek` (tcp_server.cpp:170) -/
  | peek
  /-- `ssl_sockets_map_.find(fd)` (http_server.cpp:285) -/
  | find
  /-- the request is read and parsed (http_server.cpp:299-358) -/
  | recv
  /-- `trie_.Search` goes on to the next handler (http_server.cpp:366-390) -/
  | search
  /-- in a handler (http_server.cpp:383) -/
  | handler (h : MtHandler)
  /-- `if (!is_continue_)` (http_server.cpp:384) -/
  | checkCont
  /-- the response is built and written (http_server.cpp:393-411) -/
  | respond
  /-- `HandleLeave`: the peer's address is asked for (http_server.cpp:267) -/
  | bye
  /-- `ssl_sockets_map_.find(fd)` in `HandleLeave` (http_server.cpp:271) -/
  | byeFind
  /-- `erase` (http_server.cpp:273) -/
  | byeErase
  | done
  deriving DecidableEq, Repr

/-- Where the thread in `Run` is.  `say k`: at a call of the logger, after which it is at `k`
(http_server.cpp:196-218, tcp_server.cpp:118-199, epoll.cpp:43-72). -/
inductive RunPc where
  | say (next : RunPc)
  /-- `if (!is_continue_)` (http_server.cpp:197) -/
  | run
  /-- `listenfd_.status()` (tcp_server.cpp:119) -/
  | enter
  /-- `while (loop_flag_)` (tcp_server.cpp:177; epoll.cpp:49) -/
  | top
  /-- `listenfd_.Accept` in the multi-thread mode (tcp_server.cpp:179) -/
  | accept
  /-- `if (!loop_flag_)` after it, with the result of `accept` (tcp_server.cpp:180) -/
  | check (fd : Int)
  /-- `err_msg_ = "[syserr]:" + listenfd_.err_msg()` after it failed (tcp_server.cpp:184) -/
  | failed
  /-- `HttpServer::HandleError`: `server.err_msg()` (http_server.cpp:230) -/
  | failMsg (next : RunPc)
  /-- `err_msg_ = server_.err_msg()` after the loop failed (http_server.cpp:213) -/
  | ret (rc : Int)
  /-- `epoll_wait` (epoll.cpp:51) -/
  | wait
  /-- `err_msg_ = …` after it failed (tcp_server.cpp:158) -/
  | waitFailed
  /-- the loop over the reported events, `if (fd == listenfd_)` (epoll.cpp:59, tcp_server.cpp:135) -/
  | batch
  /-- `listenfd_.Accept` in the mixed mode (tcp_server.cpp:72) -/
  | ioAccept
  /-- `MonitorSoc` of the new connection (tcp_server.cpp:83) -/
  | monitor
  /-- `HandleAccept` in the mixed mode: the peer's address is asked for (http_server.cpp:234) -/
  | hello
  /-- `HandleLeave` in the mixed mode: the peer's address is asked for (http_server.cpp:267) -/
  | bye
  /-- `err_msg_ = …` after one of them failed (tcp_server.cpp:74, 85) -/
  | ioFailed
  /-- `RemoveSoc` (tcp_server.cpp:107, 114; http_server.cpp:237) -/
  | remove
  /-- `thread_pool_->Stop()` (tcp_server.cpp:162, 191) -/
  | stopPool
  | returned (rc : Int)
  deriving DecidableEq, Repr

/-- Where the thread is that calls `Stop` and the destructor (`dtor`) (http_server.cpp:220-228, tcp_server.cpp:201-258). -/
inductive CtlPc where
  | idle
  /-- `if (!is_continue_)` (http_server.cpp:221) -/
  | askCont (dtor : Bool)
  /-- `is_continue_ = false` (http_server.cpp:224) -/
  | clearCont (dtor : Bool)
  /-- `listenfd_.status()` (tcp_server.cpp:202) -/
  | askListen (dtor : Bool)
  /-- `loop_flag_ = false` (tcp_server.cpp:206) -/
  | clearLoop (dtor : Bool)
  /-- `io_multiplexing_->Stop()` (io_multiplexing_base.hpp:64) -/
  | clearIo (dtor : Bool)
  /-- `if (loop_flag_)` in `WakeUp` (tcp_server.cpp:228) -/
  | wakeUp (dtor : Bool)
  /-- `soc.Connect(addr_)` in `WakeUp` (tcp_server.cpp:242) -/
  | connect (dtor : Bool)
  /-- `err_msg_ = …` when the connection to itself fails (tcp_server.cpp:239, 244, 249) -/
  | wakeErr (dtor : Bool)
  /-- `listenfd_.Close()` (tcp_server.cpp:219-220) -/
  | clean (dtor : Bool)
  /-- `io_multiplexing_->Close()` (tcp_server.cpp:223) -/
  | cleanIo (dtor : Bool)
  /-- the members are destroyed in the reverse order of their declaration, the trie first (http_server.hpp:227-244) -/
  | freeTrie
  /-- then the `TcpServer` with its pool, which waits for its tasks (tcp_server.cpp:14-17, threadpool.hpp:29) -/
  | join
  /-- then the map of the TLS sessions (http_server.hpp:228) -/
  | freeSessions
  | gone
  deriving DecidableEq, Repr

/-- The server and its threads (http_server.hpp:177-245). -/
structure MtSys where
  mode : MtMode
  /-- `InitSSL` was called (http_server.hpp:227); it refuses the mixed mode -/
  tls : Bool := false
  /-- the logger is a `FileLogger` (the default one has no state that changes) -/
  fileLog : Bool := false
  /-- threads of the pool (threadpool.hpp:34) -/
  workers : Nat := 10
  /-- `custom_content_type_` -/
  types : UMap := .empty
  /-- the descriptors in `ssl_sockets_map_` -/
  sessions : List Int := []
  cont : Bool := true
  loopFlag : Bool := true
  ioFlag : Bool := true
  /-- `listenfd_` is open -/
  listen : Bool := true
  loop : RunPc := .run
  /-- the tasks in the order in which they were given to the pool, with their connection's descriptor -/
  tasks : List (Int × TaskPc) := []
  /-- the pool was stopped -/
  poolStopped : Bool := false
  ctl : CtlPc := .idle

/-- The threads. -/
inductive MtThread where
  | loop | task (i : Nat) | ctl
  deriving DecidableEq, Repr

/-- `ConvertFileType` gets to the table of the custom content types: the suffix is not built in (http_header.cpp:86-105). -/
def looksUpTypes (suffix : Str) : Bool := contentTypeOfFile .empty suffix = .applicationOctetStream

namespace MtSys

/-- What a call of the logger accesses (file_logger.cpp:60-96; logger.hpp). -/
def logAcc (s : MtSys) : List SAccess := if s.fileLog then [.write .log] else []

/-- What `ConvertFileType` and `ConvertToStr` in the static handlers access.  `StaticDir` asks for the text of the type without
the suffix, and a custom type that is not in the table is put there (http_server.cpp:132, 169-170, http_header.cpp:105, 137). -/
def handlerAcc (s : MtSys) : MtHandler → List SAccess
  | .user | .refuse => []
  | .dir suffix =>
    if looksUpTypes suffix then
      if (s.types.get suffix).isSome ∧ (s.types.get []).isNone then [.read .types, .write .types] else [.read .types]
    else []
  | .file suffix => if looksUpTypes suffix then [.read .types] else []

/-- What the next action of a task accesses (http_server.cpp:232-411). -/
def taskAcc (s : MtSys) : TaskPc → List SAccess
  | .say _ => s.logAcc
  | .drop => match s.mode with
    | .mixed => [.read .poll]
    | .multiThread => []
  | .secErr => [.write .ctxErr]
  | .secMsg => [.read .ctxErr]
  | .insert => [.write .sessions]
  | .find => [.read .sessions]
  | .search => [.read .trie]
  | .handler h => s.handlerAcc h
  | .checkCont => [.read .cont]
  | .byeFind => [.read .sessions]
  | .byeErase => [.write .sessions]
  | .greet | .bye => [.write .addrLen]
  | .queued | .secure | .peek | .recv | .respond | .done => []

/-- What the next action of the thread in `Run` accesses (http_server.cpp:196-218, tcp_server.cpp:118-199, epoll.cpp:43-72). -/
def loopAcc (s : MtSys) : RunPc → List SAccess
  | .say _ => s.logAcc
  | .run => if s.cont then [.read .cont] else [.read .cont, .write .httpErr]
  | .enter => if s.listen then [.read .listen] else [.read .listen, .write .srvErr]
  | .top => match s.mode with
    | .multiThread => [.read .loopFlag]
    | .mixed => [.read .ioFlag]
  | .accept => [.read .listen, .write .addrLen]
  | .check _ => [.read .loopFlag]
  | .failed => [.read .listen, .write .srvErr]
  | .failMsg _ => [.read .srvErr]
  | .ret _ => [.read .srvErr, .write .httpErr]
  | .wait => [.read .poll]
  | .waitFailed => [.write .srvErr]
  | .batch => [.read .listen]
  | .ioAccept => [.read .listen, .write .addrLen]
  | .monitor => [.read .poll]
  | .hello | .bye => [.write .addrLen]
  | .ioFailed => [.write .srvErr]
  | .remove => [.read .poll]
  | .stopPool | .returned _ => []

/-- What the next action of the controlling thread accesses (http_server.cpp:220-228, tcp_server.cpp:201-258,
http_server.hpp:180, 227-244). -/
def ctlAcc (s : MtSys) : CtlPc → List SAccess
  | .askCont _ => [.read .cont]
  | .clearCont _ => [.write .cont]
  | .askListen _ => if s.listen then [.read .listen] else [.read .listen, .write .srvErr]
  | .clearLoop _ => [.write .loopFlag]
  | .clearIo _ => [.write .ioFlag]
  | .wakeUp _ => if s.loopFlag then [.read .loopFlag, .write .srvErr] else [.read .loopFlag]
  | .connect _ => [.write .addrLen]
  | .wakeErr _ => [.write .srvErr]
  | .clean _ => if s.listen then [.read .listen, .write .listen] else [.read .listen]
  | .cleanIo _ => match s.mode with
    | .mixed => [.read .poll, .write .poll]
    | .multiThread => []
  | .freeTrie => [.write .trie]
  | .freeSessions => [.write .sessions]
  | .idle | .join | .gone => []

/-- What the next action of a thread accesses (http_server.cpp, tcp_server.cpp, as above). -/
def acc (s : MtSys) : MtThread → List SAccess
  | .loop => s.loopAcc s.loop
  | .ctl => s.ctlAcc s.ctl
  | .task i => match s.tasks[i]? with
    | some (_, pc) => s.taskAcc pc
    | none => []

/-- The answers of the system and the choices of the user that decide how a task goes on: whether the address is known, the
handshake succeeds, there is something to read, the request is well-formed, the response is written (`ok`); which handler a
request reaches next, if any (`next`); whether `AcceptSSL` fails (http_server.cpp:234, 253, 301-403, tcp_server.cpp:170). -/
structure TAns where
  ok : Bool := true
  next : Option MtHandler := none
  deriving DecidableEq, Repr

/-- Where a task goes when a connection or a request is over: to the next peek (tcp_server.cpp:170), or, in the mixed mode, to
its end (tcp_server.cpp:99-102). -/
def afterRead (s : MtSys) : TaskPc :=
  match s.mode with
  | .multiThread => .peek
  | .mixed => .done

/-- Where the handling of a readable connection begins (http_server.cpp:284). -/
def startRead (s : MtSys) : TaskPc := if s.tls then .find else .recv

/-- The next action of a task (tcp_server.cpp:167-175, http_server.cpp:232-411): its new location and the server's new state
(the tasks are updated by the caller). -/
def taskNext (s : MtSys) (fd : Int) (a : TAns) : TaskPc → Option (TaskPc × MtSys)
  | .queued => none
  | .say k => some (k, s)
  | .greet =>
    if a.ok then some (.say (if s.tls then .secure else .peek), s) else some (.say .drop, s)
  | .drop => some (s.afterRead, s)
  | .secure => if a.ok then some (.insert, s) else some (.secErr, s)
  | .secErr => some (.secMsg, s)
  | .secMsg => some (.say .drop, s)
  | .insert => some (.peek, { s with sessions := fd :: s.sessions })
  | .peek => if a.ok then some (s.startRead, s) else some (.bye, s)
  | .bye => some (.say (if s.tls then .byeFind else .done), s)
  | .find => if fd ∈ s.sessions then some (.recv, s) else some (.say .drop, s)
  | .recv => if a.ok then some (.say .search, s) else some (.say .drop, s)
  | .search => match a.next with
    | some h => some (.handler h, s)
    | none => some (.respond, s)
  | .handler .user => some (.checkCont, s)
  | .handler .refuse => some (.say .checkCont, s)
  | .handler (.dir suffix) =>
    some (.say .checkCont, { s with types := (contentTypeToStr s.types (contentTypeOfFile s.types suffix) []).2 })
  | .handler (.file suffix) =>
    some (.say .checkCont, { s with types := (contentTypeToStr s.types (contentTypeOfFile s.types suffix) suffix).2 })
  | .checkCont => if s.cont then some (.search, s) else some (.respond, s)
  | .respond => if a.ok then some (.say s.afterRead, s) else some (.say .drop, s)
  | .byeFind => if fd ∈ s.sessions then some (.byeErase, s) else some (.done, s)
  | .byeErase => some (.done, { s with sessions := s.sessions.filter (· ≠ fd) })
  | .done => none

/-- What `epoll_wait` reports in the mixed mode (epoll.cpp:60-68). -/
inductive MtEvent where
  | accept | leave | error | read (fd : Int)
  deriving DecidableEq, Repr

/-- The system's answers for the thread in `Run`: the result of `accept`; in the mixed mode whether `epoll_wait` or `MonitorSoc`
succeeds and the address of a new connection is known (`ok`), whether `epoll_wait` was interrupted, and what is reported next
(nothing left of the batch: `none`) (tcp_server.cpp:72, 83, 179; epoll.cpp:51-69; http_server.cpp:234). -/
structure LAns where
  fd : Int := -1
  ok : Bool := true
  intr : Bool := false
  event : Option MtEvent := none
  deriving DecidableEq, Repr

/-- `AddTask` (tcp_server.cpp:144, 189; threadpool.cpp:24-36). -/
def addTask (s : MtSys) (fd : Int) : MtSys := { s with tasks := s.tasks ++ [(fd, .queued)] }

/-- The task was begun and has not ended (threadpool.cpp:52-79). -/
def active : TaskPc → Bool
  | .queued | .done => false
  | _ => true

/-- The next action of the thread in `Run` (http_server.cpp:196-218, tcp_server.cpp:118-199, epoll.cpp:43-72). -/
def loopNext (s : MtSys) (a : LAns) : RunPc → Option MtSys
  | .say k => some { s with loop := k }
  | .run => some { s with loop := if s.cont then .say .enter else .returned kLogicErr }
  | .enter => some { s with loop := if s.listen then .top else .ret kLogicErr }
  | .top => match s.mode with
    | .multiThread => some { s with loop := if s.loopFlag then .accept else .stopPool }
    | .mixed => some { s with loop := if s.ioFlag then .wait else .stopPool }
  | .accept => some { s with loop := .check (if s.listen then a.fd else -1) }
  | .check fd =>
    if s.loopFlag then
      if fd < 0 then some { s with loop := .failed } else some { s.addTask fd with loop := .top }
    else some { s with loop := .stopPool }
  | .failed => some { s with loop := .failMsg (.ret kSysErr) }
  | .failMsg k => some { s with loop := .say k }
  | .ret rc => some { s with loop := .returned rc }
  | .wait => some { s with loop := if a.ok then .batch else if a.intr then .top else .waitFailed }
  | .waitFailed => some { s with loop := .ret kSysErr }
  | .batch => match a.event with
    | none => some { s with loop := .top }
    | some .accept => some { s with loop := .ioAccept }
    | some .leave => some { s with loop := .bye }
    | some .error => some { s with loop := .failMsg .remove }
    | some (.read fd) => some { s.addTask fd with loop := .batch }
  | .ioAccept => some { s with loop := if s.listen ∧ 0 ≤ a.fd then .monitor else .ioFailed }
  | .monitor =>
    some { s with loop := if a.ok then .hello else .ioFailed }
  | .hello => some { s with loop := .say (if a.ok then .batch else .remove) }
  | .bye => some { s with loop := .say .remove }
  | .ioFailed => some { s with loop := .failMsg .batch }
  | .remove => some { s with loop := .batch }
  | .stopPool =>
    if s.tasks.any fun t => active t.2 then none
    else some { s with poolStopped := true, loop := .returned kSuccess }
  | .returned _ => none

/-- The next action of the controlling thread; `ok`: the connection to itself in `WakeUp` succeeds (http_server.cpp:220-228,
tcp_server.cpp:201-258).  The calls of `Stop` and `Clean` in `~TcpServer` (tcp_server.cpp:14-17) find everything closed and write
only `err_msg_`, which no task reads; they are left out. -/
def ctlNext (s : MtSys) (ok : Bool) : CtlPc → Option MtSys
  | .idle => none
  | .askCont d => some { s with ctl := if s.cont then .clearCont d else if d then .freeTrie else .idle }
  | .clearCont d => some { s with ctl := .askListen d, cont := false }
  | .askListen d => some { s with ctl := if s.listen then .clearLoop d else .wakeUp d }
  | .clearLoop d => match s.mode with
    | .multiThread => some { s with ctl := .wakeUp d, loopFlag := false }
    | .mixed => some { s with ctl := .clearIo d, loopFlag := false }
  | .clearIo d => some { s with ctl := .wakeUp d, ioFlag := false }
  | .wakeUp d => some { s with ctl := if s.loopFlag then .clean d else .connect d }
  | .connect d => some { s with ctl := if ok then .clean d else .wakeErr d }
  | .wakeErr d => some { s with ctl := .clean d }
  | .clean d => some { s with ctl := .cleanIo d, listen := false }
  | .cleanIo d => some { s with ctl := if d then .freeTrie else .idle }
  | .freeTrie => some { s with ctl := .join }
  | .join =>
    if s.tasks.any fun t => active t.2 then none
    else some { s with poolStopped := true, ctl := .freeSessions }
  | .freeSessions => some { s with ctl := .gone, sessions := [] }
  | .gone => none

end MtSys

/-- What happens next (http_server.hpp:177-245, tcp_server.cpp:118-199). -/
inductive MtLabel where
  | loop (a : MtSys.LAns)
  /-- a free worker takes the first task of the queue -/
  | start
  | task (i : Nat) (a : MtSys.TAns)
  | ctl (ok : Bool)
  | callStop
  /-- the destructor is called; not before `Run` has returned -/
  | callDtor
  deriving DecidableEq, Repr

namespace MtSys

/-- Where a task begins (tcp_server.cpp:99-101, 168). -/
def startTask (s : MtSys) : TaskPc :=
  match s.mode with
  | .multiThread => .greet
  | .mixed => s.startRead

/-- `Run` has returned (http_server.cpp:196-218). -/
def hasReturned : RunPc → Bool
  | .returned _ => true
  | _ => false

/-- One action of the whole (http_server.hpp:177-245, tcp_server.cpp:118-199, threadpool.cpp:52-79). -/
def step (s : MtSys) : MtLabel → Option MtSys
  | .loop a => s.loopNext a s.loop
  | .start =>
    match s.tasks.findIdx? fun t => t.2 = .queued with
    | none => none
    | some i =>
      if s.poolStopped ∨ s.workers ≤ (s.tasks.filter fun t => active t.2).length then none
      else some { s with tasks := s.tasks.modify i fun t => (t.1, s.startTask) }
  | .task i a =>
    match s.tasks[i]? with
    | none => none
    | some (fd, pc) =>
      match s.taskNext fd a pc with
      | none => none
      | some (pc', s') => some { s' with tasks := s.tasks.set i (fd, pc') }
  | .ctl ok => s.ctlNext ok s.ctl
  | .callStop => if s.ctl = .idle then some { s with ctl := .askCont false } else none
  | .callDtor => if s.ctl = .idle ∧ hasReturned s.loop then some { s with ctl := .askCont true } else none

/-- A run (http_server.hpp:177-245). -/
def run : MtSys → List MtLabel → Option MtSys
  | s, [] => some s
  | s, l :: tr => match s.step l with
    | none => none
    | some s' => run s' tr

end MtSys

/-- A server that was initialised in a mode with several threads, before `Run` (http_server.cpp:182-194, 443-460). -/
def startedServer (mode : MtMode) (tls fileLog : Bool) (workers : Nat) (types : UMap) : MtSys :=
  { mode, tls := tls && mode == .multiThread, fileLog, workers, types }

end Cppnet
