import Verif.Model.ThreadPool

/-!
# What a pool's tasks have captured

The variable `task` of `Worker` (`src/cppnet/utils/threadpool.cpp:54`) is declared outside the loop.  It keeps the last task a worker
has taken until the assignment at line 69 replaces it, which is inside the critical section, or the thread function returns,
which is outside (the guard at line 57 is destroyed first).  The copies in the queue and in the parameter of `AddTask` are
gone before that.
-/

namespace Cppnet
variable {α : Type}

/-- The pool, the variable `task` of each worker (threadpool.cpp:54), and a history: the tasks of which no copy is left, so that what
they captured has been destroyed. -/
structure HPool (α : Type) where
  pool : Pool α := {}
  held : Nat → Option α := fun _ => none
  released : List α := []

/-- Does a worker that goes from `w` to `w'` lose what its variable `task` held?  It takes the next task (threadpool.cpp:69), or
it returns (64). -/
def drops : Option (WPc α) → Option (WPc α) → Bool
  | some .size, some (.taken _) => true
  | some .cont, some .exited => true
  | _, _ => false

/-- threadpool.cpp:54-77: what becomes of the variables `task` when the pool goes on to `p`.  With the pool, the queue is
destroyed (threadpool.hpp:62). -/
def HPool.track (s : HPool α) (p : Pool α) : HPool α :=
  { pool := p
    held := fun i =>
      match p.workers[i]? with
      | some (.taken t) => some t
      | some .exited => none
      | _ => s.held i
    released := s.released ++
      (List.range p.workers.length).filterMap (fun i => if drops s.pool.workers[i]? p.workers[i]? then s.held i else none) ++
      (if p.phase = .destroyed then s.pool.queue else []) }

/-- One action of one thread (threadpool.cpp:6-79), as in `Pool.Act`.  `calls t`: the destructor of what `t` captured calls
`AddTask` or `GetBusyAndTaskNum` of the same pool.  In the assignment at line 69 it would have to take the mutex that its own thread
holds: the thread does not come out of it.  (C++ leaves that undefined; the mutexes of the usual systems block.) -/
inductive HPool.Act (calls : α → Prop) : HPool α → PoolLabel α → HPool α → Prop where
  | act {s l p} (h : Pool.Act s.pool l p)
      (hfree : ∀ i t u, s.pool.workers[i]? = some WPc.size → p.workers[i]? = some (WPc.taken t) → s.held i = some u → ¬ calls u) :
      HPool.Act calls s l (s.track p)

end Cppnet
