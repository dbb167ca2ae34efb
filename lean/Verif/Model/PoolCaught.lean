import Verif.Model.ThreadPool

/-!
# A task that catches what `Stop` throws when it joins its own thread (`threadpool.cpp:35-44`)
-/

namespace Cppnet
namespace Pool
variable {α : Type}

/-- threadpool.cpp:42: the task of worker `w` has called `Stop` (or `Resize`, line 18), and `Stop` has come to the
thread the task runs on.  `join` throws `std::system_error`, the exception leaves `Stop` (and `Resize`), and the task
catches it.  The loop of lines 41-43 is not resumed, and the thread stays joinable.  The destructor (threadpool.hpp:29) is `noexcept`,
so its caller cannot catch the exception. -/
inductive CaughtJoin : Nat → Pool α → Pool α → Prop where
  | mk {s k i w} (hpc : s.pcs (.worker w) = .stopJoin k i) (h : s.threads[i]? = some (w, true)) (hk : k ≠ .destroy) :
      CaughtJoin w s (s.setPc (.worker w) .idle)

end Pool
end Cppnet
