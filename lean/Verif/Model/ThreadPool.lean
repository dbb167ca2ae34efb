import Verif.Cpp.Basic

/-!
# Model of `src/cppnet/utils/threadpool.cpp` and `threadpool.hpp`

A labelled transition system.  One step is one atomic action of one thread: taking or releasing the mutex,
one read or write of a shared variable (or several inside the critical section, where nobody else can
look), one notification.  Any number of client threads call the pool's functions in any order; a running
task may itself call them, too.  Tasks may take arbitrarily long, and may throw.  (A task does not catch what the pool's
functions throw.)  An empty `task_func` counts as a task that does nothing.

`thread_num_` and `threads_` are plain variables: C++ calls it a data race when `Init` or `Resize` runs at
the same time as another call.  The model then shows one of the interleavings; the theorems that allow
it are about sequentially consistent executions.
-/

namespace Cppnet

/-- A thread that uses the pool: a client thread, or the task that worker `i` is running (threadpool.hpp:18-54). -/
inductive Agent where
  | client (j : Nat)
  | worker (i : Nat)
  deriving DecidableEq

/-- What a call of `Stop` is part of: a plain call, `Resize(n)`, or the destructor
(threadpool.cpp:18, 35-44; threadpool.hpp:29). -/
inductive AfterStop where
  | ret
  | resize (n : Nat)
  | destroy
  deriving DecidableEq

/-- A call of one of the pool's functions (threadpool.hpp:27-54). -/
inductive PoolOp (α : Type) where
  | init (n : Nat)
  | resize (n : Nat)
  | add (t : α)
  | stop
  | numbers
  | destroy
  deriving DecidableEq

/-- Where an agent is inside one of the pool's functions (`idle`: in none) (threadpool.cpp:6-50). -/
inductive CPc (α : Type) where
  | idle
  /-- threadpool.cpp:25, the test at the start of `AddTask` -/
  | addCheck (t : α)
  /-- threadpool.cpp:29, before the mutex is taken -/
  | addLock (t : α)
  /-- threadpool.cpp:30, mutex held -/
  | addPush (t : α)
  /-- threadpool.cpp:31, mutex held -/
  | addNotify
  /-- threadpool.cpp:33, the guard's destructor -/
  | addUnlock
  /-- threadpool.cpp:36 -/
  | stopCheck (k : AfterStop)
  /-- threadpool.cpp:39 -/
  | stopSet (k : AfterStop)
  /-- threadpool.cpp:40 -/
  | stopNotify (k : AfterStop)
  /-- threadpool.cpp:41-43, with the loop variable -/
  | stopJoin (k : AfterStop) (i : Nat)
  /-- threadpool.cpp:15 -/
  | resizeCheck (n : Nat)
  /-- threadpool.cpp:19-20 -/
  | resizeClear (n : Nat)
  /-- threadpool.cpp:7-8; `r`: called by `Resize` -/
  | initClear (r : Bool) (n : Nat)
  /-- threadpool.cpp:9-11, threads still to be started -/
  | initSpawn (r : Bool) (n : Nat)
  /-- threadpool.hpp:29, the destructors of the members, after `Stop` -/
  | members
  /-- threadpool.cpp:47, before the mutex is taken -/
  | numLock
  /-- threadpool.cpp:48, mutex held -/
  | numSize
  /-- threadpool.cpp:49-50, mutex held; `task` has been set -/
  | numBusy (task : Nat)
  deriving DecidableEq

/-- Where a worker thread is in `Worker`, threadpool.cpp:52-79. -/
inductive WPc (α : Type) where
  /-- 57, before the mutex is taken -/
  | lock
  /-- 58, mutex held -/
  | check
  /-- 59-61, evaluating the predicate of `wait`, mutex held -/
  | pred
  /-- inside `wait`, the predicate was false; about to release the mutex and block, in one action -/
  | block
  /-- blocked in `wait`, mutex not held -/
  | waiting
  /-- notified (or woken spuriously), before the mutex is taken again -/
  | wake
  /-- 63, mutex held -/
  | cont
  /-- 66-70, mutex held -/
  | size
  /-- 73, before `busy_now_++`; the task has been popped -/
  | taken (t : α)
  /-- 74-75, about to call the task -/
  | start (t : α)
  /-- 75, inside the task -/
  | run (t : α)
  /-- 77, before `busy_now_--` -/
  | done
  /-- 64, the thread function has returned -/
  | exited
  deriving DecidableEq

/-- The effect of `notify_all` on one worker (threadpool.cpp:40, 59). -/
def WPc.notify {α : Type} : WPc α → WPc α
  | .waiting => .wake
  | w => w

/-- `live`: the pool exists.  `terminated`: a `joinable` `std::thread` was destroyed (`std::terminate`), a
`join` failed (uncaught `std::system_error`) or a task threw.  `destroyed`: the pool has been destroyed (threadpool.hpp:29, 66). -/
inductive PoolPhase where
  | live
  | terminated
  | destroyed
  deriving DecidableEq

/-- The pool's members (threadpool.hpp:60-66), the program counters of all threads, and a history.
The `unsigned` counters are natural numbers. -/
structure Pool (α : Type) where
  /-- `que_lock_`: who holds it -/
  lock : Option Agent := none
  /-- `task_que_`, front first -/
  queue : List α := []
  /-- `thread_num_` -/
  threadNum : Nat := 0
  /-- `busy_now_` -/
  busy : Nat := 0
  /-- `is_continue_` -/
  cont : Bool := true
  /-- the worker threads started so far -/
  workers : List (WPc α) := []
  /-- `threads_`: which worker, and is it still joinable -/
  threads : List (Nat × Bool) := []
  /-- the pool function each agent is in -/
  pcs : Agent → CPc α := fun _ => .idle
  phase : PoolPhase := .live
  /-- history: the tasks pushed by `AddTask`, in order -/
  accepted : List α := []
  /-- history: the tasks popped by workers, in order -/
  popped : List α := []
  /-- history: the tasks whose function was called, in order -/
  started : List α := []
  /-- history: the tasks whose function has returned, in order -/
  finished : List α := []

/-- What a call returns (threadpool.hpp:27-54). -/
inductive PoolRet where
  | added (rc : Int)
  | stopped
  | resized
  | inited
  | destroyed
  | numbers (busy task : Nat)
  deriving DecidableEq

/-- What a step shows: a call, its return, a spurious wake-up of a worker, an exception that leaves a task, or nothing
(threadpool.hpp:27-54, threadpool.cpp:75). -/
inductive PoolLabel (α : Type) where
  | tau
  | call (a : Agent) (op : PoolOp α)
  | ret (a : Agent) (r : PoolRet)
  | spurious
  | throws
  deriving DecidableEq

namespace Pool
variable {α : Type}

/-- threadpool.cpp:6-50: where agent `a` is -/
def setPc (s : Pool α) (a : Agent) (c : CPc α) : Pool α :=
  { s with pcs := fun b => if b = a then c else s.pcs b }

/-- threadpool.cpp:52-79: where worker `i` is -/
def setW (s : Pool α) (i : Nat) (w : WPc α) : Pool α := { s with workers := s.workers.set i w }

/-- First location of each function (threadpool.cpp:6-50). -/
def entry : PoolOp α → CPc α
  | .init n => .initClear false n
  | .resize n => .resizeCheck n
  | .add t => .addCheck t
  | .stop => .stopCheck .ret
  | .numbers => .numLock
  | .destroy => .stopCheck .destroy

/-- Who may call something: clients, and a worker while it runs a task (threadpool.cpp:75). -/
def mayCall (s : Pool α) : Agent → PoolOp α → Prop
  | .client _, _ => True
  | .worker i, _ => ∃ t, s.workers[i]? = some (.run t)

/-- Where `Stop` goes on when it returns (threadpool.cpp:18-22, 44; threadpool.hpp:29). -/
def afterStop : AfterStop → CPc α
  | .ret => .idle
  | .resize n => .resizeClear n
  | .destroy => .members

/-- What the return of `Stop` shows (threadpool.cpp:44). -/
def stopLabel (a : Agent) : AfterStop → PoolLabel α
  | .ret => .ret a .stopped
  | _ => .tau

/-- One atomic action of one thread of a live pool (threadpool.cpp:6-79). -/
inductive Act : Pool α → PoolLabel α → Pool α → Prop where
  /-- an agent calls a function -/
  | call {s a op} (hidle : s.pcs a = .idle) (hmay : s.mayCall a op) :
      Act s (.call a op) (s.setPc a (entry op))
  /-- threadpool.cpp:24-28 -/
  | addRefused {s a t} (hpc : s.pcs a = .addCheck t) (h : s.cont = false ∨ s.threadNum = 0) :
      Act s (.ret a (.added (-2))) (s.setPc a .idle)
  /-- threadpool.cpp:25 -/
  | addChecked {s a t} (hpc : s.pcs a = .addCheck t) (h : s.cont = true) (h' : s.threadNum ≠ 0) :
      Act s .tau (s.setPc a (.addLock t))
  /-- threadpool.cpp:29 -/
  | addLocked {s a t} (hpc : s.pcs a = .addLock t) (h : s.lock = none) :
      Act s .tau ({ s with lock := some a }.setPc a (.addPush t))
  /-- threadpool.cpp:30 -/
  | addPushed {s a t} (hpc : s.pcs a = .addPush t) :
      Act s .tau ({ s with queue := s.queue ++ [t], accepted := s.accepted ++ [t] }.setPc a .addNotify)
  /-- threadpool.cpp:31: one of the blocked workers is woken … -/
  | addNotified {s a i} (hpc : s.pcs a = .addNotify) (h : s.workers[i]? = some .waiting) :
      Act s .tau ((s.setW i .wake).setPc a .addUnlock)
  /-- … or there is none -/
  | addNobody {s a} (hpc : s.pcs a = .addNotify) (h : ∀ w ∈ s.workers, w ≠ .waiting) :
      Act s .tau (s.setPc a .addUnlock)
  /-- threadpool.cpp:32-33 -/
  | addDone {s a} (hpc : s.pcs a = .addUnlock) :
      Act s (.ret a (.added 0)) ({ s with lock := none }.setPc a .idle)
  /-- threadpool.cpp:36-38 -/
  | stopAlready {s a k} (hpc : s.pcs a = .stopCheck k) (h : s.cont = false) :
      Act s (stopLabel a k) (s.setPc a (afterStop k))
  /-- threadpool.cpp:36 -/
  | stopChecked {s a k} (hpc : s.pcs a = .stopCheck k) (h : s.cont = true) :
      Act s .tau (s.setPc a (.stopSet k))
  /-- threadpool.cpp:39 -/
  | stopFlag {s a k} (hpc : s.pcs a = .stopSet k) :
      Act s .tau ({ s with cont := false }.setPc a (.stopNotify k))
  /-- threadpool.cpp:40 -/
  | stopNotified {s a k} (hpc : s.pcs a = .stopNotify k) :
      Act s .tau ({ s with workers := s.workers.map WPc.notify }.setPc a (.stopJoin k 0))
  /-- threadpool.cpp:41-42: `join` returns when the worker has returned -/
  | stopJoined {s a k i w} (hpc : s.pcs a = .stopJoin k i) (h : s.threads[i]? = some (w, true))
      (h' : s.workers[w]? = some .exited) :
      Act s .tau ({ s with threads := s.threads.set i (w, false) }.setPc a (.stopJoin k (i + 1)))
  /-- threadpool.cpp:42: `join` on a thread that is not joinable throws -/
  | stopBadJoin {s a k i w} (hpc : s.pcs a = .stopJoin k i) (h : s.threads[i]? = some (w, false)) :
      Act s .tau { s with phase := .terminated }
  /-- threadpool.cpp:42: a thread that joins itself gets an exception (`resource_deadlock_would_occur`) -/
  | stopSelfJoin {s k i w} (hpc : s.pcs (.worker w) = .stopJoin k i) (h : s.threads[i]? = some (w, true)) :
      Act s .tau { s with phase := .terminated }
  /-- threadpool.cpp:44 -/
  | stopDone {s a k i} (hpc : s.pcs a = .stopJoin k i) (h : s.threads.length ≤ i) :
      Act s (stopLabel a k) (s.setPc a (afterStop k))
  /-- threadpool.cpp:15-17 -/
  | resizeSame {s a n} (hpc : s.pcs a = .resizeCheck n) (h : s.threadNum = n ∨ n = 0) :
      Act s (.ret a .resized) (s.setPc a .idle)
  /-- threadpool.cpp:15, 18 -/
  | resizeStop {s a n} (hpc : s.pcs a = .resizeCheck n) (h : s.threadNum ≠ n) (h' : n ≠ 0) :
      Act s .tau (s.setPc a (.stopCheck (.resize n)))
  /-- threadpool.cpp:19-20: destroying a joinable thread terminates the program -/
  | resizeCleared {s a n} (hpc : s.pcs a = .resizeClear n) (h : ∀ x ∈ s.threads, x.2 = false) :
      Act s .tau ({ s with threadNum := n, threads := [] }.setPc a (.initClear true n))
  | resizeTerminates {s a n} (hpc : s.pcs a = .resizeClear n) (h : ∃ x ∈ s.threads, x.2 = true) :
      Act s .tau { s with phase := .terminated }
  /-- threadpool.cpp:7-8: the same -/
  | initCleared {s a r n} (hpc : s.pcs a = .initClear r n) (h : ∀ x ∈ s.threads, x.2 = false) :
      Act s .tau ({ s with threadNum := n, threads := [] }.setPc a (.initSpawn r n))
  | initTerminates {s a r n} (hpc : s.pcs a = .initClear r n) (h : ∃ x ∈ s.threads, x.2 = true) :
      Act s .tau { s with phase := .terminated }
  /-- threadpool.cpp:9-11 -/
  | initSpawned {s a r n} (hpc : s.pcs a = .initSpawn r (n + 1)) :
      Act s .tau ({ s with workers := s.workers ++ [WPc.lock],
                           threads := s.threads ++ [(s.workers.length, true)] }.setPc a (.initSpawn r n))
  /-- threadpool.cpp:12, 22 -/
  | initDone {s a r} (hpc : s.pcs a = .initSpawn r 0) :
      Act s (.ret a (if r then .resized else .inited)) (s.setPc a .idle)
  /-- threadpool.hpp:29, 66: `~vector<thread>` -/
  | destroyed {s a} (hpc : s.pcs a = .members) (h : ∀ x ∈ s.threads, x.2 = false) :
      Act s (.ret a .destroyed) ({ s with phase := .destroyed }.setPc a .idle)
  | destroyTerminates {s a} (hpc : s.pcs a = .members) (h : ∃ x ∈ s.threads, x.2 = true) :
      Act s .tau { s with phase := .terminated }
  /-- threadpool.cpp:47 -/
  | numLocked {s a} (hpc : s.pcs a = .numLock) (h : s.lock = none) :
      Act s .tau ({ s with lock := some a }.setPc a .numSize)
  /-- threadpool.cpp:48 -/
  | numSized {s a} (hpc : s.pcs a = .numSize) :
      Act s .tau (s.setPc a (.numBusy s.queue.length))
  /-- threadpool.cpp:49-50 -/
  | numDone {s a k} (hpc : s.pcs a = .numBusy k) :
      Act s (.ret a (.numbers s.busy k)) ({ s with lock := none }.setPc a .idle)
  /-- threadpool.cpp:57 -/
  | wLocked {s i} (hpc : s.workers[i]? = some .lock) (h : s.lock = none) :
      Act s .tau ({ s with lock := some (.worker i) }.setW i .check)
  /-- threadpool.cpp:58 -/
  | wWait {s i} (hpc : s.workers[i]? = some .check) (h : s.cont = true) (h' : s.queue = []) :
      Act s .tau (s.setW i .pred)
  | wNoWait {s i} (hpc : s.workers[i]? = some .check) (h : s.cont = false ∨ s.queue ≠ []) :
      Act s .tau (s.setW i .cont)
  /-- threadpool.cpp:59-61, the predicate holds -/
  | wPredTrue {s i} (hpc : s.workers[i]? = some .pred) (h : s.queue ≠ [] ∨ s.cont = false) :
      Act s .tau (s.setW i .cont)
  /-- threadpool.cpp:59-61, the predicate does not hold -/
  | wPredFalse {s i} (hpc : s.workers[i]? = some .pred) (h : s.queue = []) (h' : s.cont = true) :
      Act s .tau (s.setW i .block)
  /-- inside `wait` -/
  | wBlocked {s i} (hpc : s.workers[i]? = some .block) :
      Act s .tau ({ s with lock := none }.setW i .waiting)
  /-- inside `wait`: the standard allows a worker to wake up without a notification -/
  | wSpurious {s i} (hpc : s.workers[i]? = some .waiting) :
      Act s .spurious (s.setW i .wake)
  /-- inside `wait` -/
  | wRelocked {s i} (hpc : s.workers[i]? = some .wake) (h : s.lock = none) :
      Act s .tau ({ s with lock := some (.worker i) }.setW i .pred)
  /-- threadpool.cpp:63-65 -/
  | wExit {s i} (hpc : s.workers[i]? = some .cont) (h : s.cont = false) :
      Act s .tau ({ s with lock := none }.setW i .exited)
  | wGoOn {s i} (hpc : s.workers[i]? = some .cont) (h : s.cont = true) :
      Act s .tau (s.setW i .size)
  /-- threadpool.cpp:66-68 -/
  | wEmpty {s i} (hpc : s.workers[i]? = some .size) (h : s.queue = []) :
      Act s .tau ({ s with lock := none }.setW i .lock)
  /-- threadpool.cpp:69-71 -/
  | wPop {s i t q} (hpc : s.workers[i]? = some .size) (h : s.queue = t :: q) :
      Act s .tau ({ s with lock := none, queue := q, popped := s.popped ++ [t] }.setW i (.taken t))
  /-- threadpool.cpp:73 -/
  | wBusy {s i t} (hpc : s.workers[i]? = some (.taken t)) :
      Act s .tau ({ s with busy := s.busy + 1 }.setW i (.start t))
  /-- threadpool.cpp:74-75 -/
  | wStart {s i t} (hpc : s.workers[i]? = some (.start t)) :
      Act s .tau ({ s with started := s.started ++ [t] }.setW i (.run t))
  /-- threadpool.cpp:75-76: the task returns (it is in none of the pool's functions then) -/
  | wFinish {s i t} (hpc : s.workers[i]? = some (.run t)) (h : s.pcs (.worker i) = .idle) :
      Act s .tau ({ s with finished := s.finished ++ [t] }.setW i .done)
  /-- threadpool.cpp:75: an exception leaves the task, and with it the thread function -/
  | wThrow {s i t} (hpc : s.workers[i]? = some (.run t)) (h : s.pcs (.worker i) = .idle) :
      Act s .throws { s with phase := .terminated }
  /-- threadpool.cpp:77 -/
  | wUnbusy {s i} (hpc : s.workers[i]? = some .done) :
      Act s .tau ({ s with busy := s.busy - 1 }.setW i .lock)

end Pool

end Cppnet
