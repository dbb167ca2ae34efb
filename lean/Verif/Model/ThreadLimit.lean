import Verif.Model.ThreadPool

/-!
# Model of `src/cppnet/utils/threadpool.cpp` when the system has no more threads

`std::thread`'s constructor throws `std::system_error` if the system starts no thread.  Nothing in the pool catches it, so it leaves
`Init` between two rounds of the loop (threadpool.cpp:9-11): the threads that were started go on, `thread_num_` is what was asked for.
-/

namespace Cppnet

/-- What a step shows: what it shows without refusals, or that `Init` (or `Resize`) throws (threadpool.cpp:10). -/
inductive LimLabel (α : Type) where
  | pool (l : PoolLabel α)
  | refused (a : Agent)
  deriving DecidableEq

namespace Pool
variable {α : Type}

/-- One atomic action of one thread, of a pool that may be refused threads (threadpool.cpp:6-79). -/
inductive LimAct : Pool α → LimLabel α → Pool α → Prop where
  | act {s l s'} (h : Act s l s') : LimAct s (.pool l) s'
  /-- threadpool.cpp:10: the exception leaves `Init`; the caller catches it -/
  | refused {s j r n} (hpc : s.pcs (.client j) = .initSpawn r (n + 1)) : LimAct s (.refused (.client j)) (s.setPc (.client j) .idle)
  /-- threadpool.cpp:10, 75: as everything that the pool's functions throw, it leaves a task that called `Init`, and with it the thread -/
  | refusedTask {s i r n} (hpc : s.pcs (.worker i) = .initSpawn r (n + 1)) :
      LimAct s (.refused (.worker i)) { s with phase := .terminated }

/-- threadpool.hpp:27: a pool at the start of the constructor with a number, which `client 0` runs. -/
def constructing (n : Nat) : Pool α := ({} : Pool α).setPc (.client 0) (entry (.init n))

/-- threadpool.hpp:27, threadpool.cpp:10: a thread is refused inside the constructor.  The exception leaves it, the destructor does
not run, those of the members do; destroying a joinable thread terminates the program (`std::terminate`), otherwise the caller of the
constructor gets the exception and there is no pool. -/
inductive CtorRefused : Pool α → Pool α → Prop where
  | terminates {s r n} (hpc : s.pcs (.client 0) = .initSpawn r (n + 1)) (h : ∃ x ∈ s.threads, x.2 = true) :
      CtorRefused s { s with phase := .terminated }
  | thrown {s r n} (hpc : s.pcs (.client 0) = .initSpawn r (n + 1)) (h : ∀ x ∈ s.threads, x.2 = false) :
      CtorRefused s { s with phase := .destroyed }

end Pool

end Cppnet
