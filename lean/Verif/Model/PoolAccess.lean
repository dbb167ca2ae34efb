import Verif.Model.ThreadPool

/-!
# Which plain members of the thread pool each action reads and writes

`is_continue_` and `busy_now_` are `std::atomic`, `que_lock_` and `cond_` are synchronisation objects; the other members
(`src/cppnet/utils/threadpool.hpp:60-67`) are plain variables.
-/

namespace Cppnet
variable {α : Type}

/-- The plain members (threadpool.hpp:62, 63, 66, 67). -/
inductive PoolVar where
  | taskQue
  | threadNum
  | threads
  | errMsg
  deriving DecidableEq

/-- A read or a write of a plain member (threadpool.hpp:62-67). -/
inductive Access where
  | read (v : PoolVar)
  | write (v : PoolVar)
  deriving DecidableEq

/-- What the next action of an agent at this location of a pool function accesses (threadpool.cpp:6-50).  Line 25 does not
look at `thread_num_` when the pool is stopped.  `join` (42) changes the `std::thread` in the vector. -/
def CPc.accesses (s : Pool α) : CPc α → List Access
  | .addCheck _ =>
    if s.cont = false then [.write .errMsg]
    else if s.threadNum = 0 then [.read .threadNum, .write .errMsg] else [.read .threadNum]
  | .addPush _ => [.write .taskQue]
  | .stopJoin _ i => if i < s.threads.length then [.read .threads, .write .threads] else [.read .threads]
  | .resizeCheck _ => [.read .threadNum]
  | .resizeClear _ => [.write .threadNum, .write .threads]
  | .initClear _ _ => [.write .threads, .write .threadNum]
  | .initSpawn _ (_ + 1) => [.write .threads]
  | .members => [.write .errMsg, .write .threads, .write .taskQue]
  | .numSize => [.read .taskQue]
  | _ => []

/-- What the next action of a worker accesses (threadpool.cpp:58-70). -/
def WPc.accesses : WPc α → List Access
  | .check | .pred => [.read .taskQue]
  | .size => [.read .taskQue, .write .taskQue]
  | _ => []

/-- What the next action of a thread accesses: a client is in a pool function or in none; a worker is in its loop
(threadpool.cpp:52-79) or, while it runs a task, in the pool function that the task has called. -/
def Pool.accesses (s : Pool α) : Agent → List Access
  | .client j => (s.pcs (.client j)).accesses s
  | .worker i =>
    match s.workers[i]? with
    | some (.run _) => (s.pcs (.worker i)).accesses s
    | some w => w.accesses
    | none => []

end Cppnet
