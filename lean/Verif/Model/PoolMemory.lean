import Verif.Model.ThreadPool

/-!
# A thread pool whose program runs out of memory

`task_que_.push(task)` copies the task into the queue and may have to allocate a node, the copy of a `std::function` may allocate, too.
If that fails `std::bad_alloc` leaves `AddTask`, whose `unique_lock` gives the mutex back (threadpool.cpp:29-30); `push` has no effect
then.  A worker copies the task out of the queue again (threadpool.cpp:69): nothing catches what that throws, and an exception that
leaves the function of a thread terminates the program.  Allocations of the threads of `Init` are `Model/ThreadLimit`; the copy of the
argument of `AddTask` is made before the call.
-/

namespace Cppnet

/-- What a step shows: what it shows when there is memory, or that `AddTask` throws (threadpool.cpp:30), or a worker (69). -/
inductive MemLabel (α : Type) where
  | pool (l : PoolLabel α)
  | addThrew (a : Agent)
  | copyThrew (i : Nat)
  deriving DecidableEq

namespace Pool
variable {α : Type}

/-- One atomic action of one thread, of a pool for which memory may run out (threadpool.cpp:6-79). -/
inductive MemAct : Pool α → MemLabel α → Pool α → Prop where
  | act {s l s'} (h : Act s l s') : MemAct s (.pool l) s'
  /-- threadpool.cpp:29-30: the exception leaves `AddTask`; the caller catches it (a task that does not throws, the last action of `Act`) -/
  | addThrew {s a t} (hpc : s.pcs a = .addPush t) : MemAct s (.addThrew a) ({ s with lock := none }.setPc a .idle)
  /-- threadpool.cpp:69: the exception leaves `Worker` -/
  | copyThrew {s i t q} (hpc : s.workers[i]? = some .size) (h : s.queue = t :: q) :
      MemAct s (.copyThrew i) { s with phase := .terminated }

end Pool

end Cppnet
