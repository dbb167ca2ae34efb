import Verif.Model.Logger

/-!
# `MultiLogger`s that share loggers (`src/cppnet/log/multi_logger.cpp`)

`Model/Logger` takes a `MultiLogger` to be a tree.  Here loggers are objects in memory that any number of `MultiLogger`s
may point to, themselves included.
-/

namespace Cppnet

/-- A logger object: the class `Logger` itself, a `StdLogger`, a logger of the user's own, or a `MultiLogger` with its
`shared_ptr`s (multi_logger.hpp:20), `none` being a null pointer. -/
inductive LogObj where
  | base (level : Level)
  | std (level : Level)
  | sink (n : Nat)
  | multi (loggers : List (Option Nat))
  deriving DecidableEq

/-- The objects by their addresses (multi_logger.hpp:20). -/
abbrev LogHeap := Nat → LogObj

/-- multi_logger.cpp:12-14 (and the same loop in the other four): the loop over `loggers_`; `f` is the call of one of them. -/
def callEach (f : Nat → Out (List LogOut)) : List (Option Nat) → Out (List LogOut)
  | [] => .ok []
  | none :: _ => .error .ub
  | some l :: ls => do
    let a ← f l
    let b ← callEach f ls
    .ok (a ++ b)

/-- logger.hpp:12-16, std_logger.hpp:11-38, multi_logger.cpp:11-39: the virtual method for `lvl` of the object at `p`, on a stack that
has room for `depth` calls; one more overflows it. -/
def callLog (h : LogHeap) (lvl : Level) (msg : Str) : Nat → Nat → Out (List LogOut)
  | 0, _ => .error .ub
  | depth + 1, p =>
    match h p with
    | .base _ => .ok []
    | .std level => .ok (stdLog level lvl msg)
    | .sink n => .ok [.sink n lvl msg]
    | .multi ls => callEach (callLog h lvl msg depth) ls

/-- multi_logger.cpp:5-9, `Init` of the object at `p` (for another class of logger: no such method, nothing happens). -/
def heapInit (h : LogHeap) (p : Nat) (more : List (Option Nat)) : LogHeap := fun q =>
  if q = p then
    match h p with
    | .multi ls => .multi (ls ++ more)
    | o => o
  else h q

end Cppnet
