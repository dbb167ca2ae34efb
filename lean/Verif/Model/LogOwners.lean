import Verif.Model.LogGraph

/-!
# Who owns the loggers of a `MultiLogger` (`src/cppnet/log/multi_logger.hpp`)

A `MultiLogger` holds its loggers by `std::shared_ptr`, as the program does.  An object is destroyed with the last `shared_ptr` to it; a
`MultiLogger` that is destroyed gives up the pointers in `loggers_`.
-/

namespace Cppnet

/-- The `shared_ptr`s in an object (multi_logger.hpp:20); a null pointer owns nothing. -/
def ownedBy : LogObj → List Nat
  | .multi ls => ls.filterMap id
  | _ => []

/-- How many `shared_ptr`s to each object there are, and the objects that were destroyed, in order (multi_logger.hpp:20). -/
structure LogRefs where
  count : Nat → Nat
  gone : List Nat := []

/-- The counts when the objects `all` exist and the program itself has the pointers `handles` (multi_logger.cpp:5-9: `Init` copies
the pointers it is given). -/
def logRefs (h : LogHeap) (all handles : List Nat) : LogRefs where
  count p := handles.count p + (all.flatMap fun a => ownedBy (h a)).count p

/-- The destructors of these `shared_ptr`s (multi_logger.hpp:20), one after the other; what the destructor of a `MultiLogger` gives up
comes first.  `.ub`: an object that is gone is released; `.diverge`: more than so many steps. -/
def releaseAll (h : LogHeap) : Nat → LogRefs → List Nat → Out LogRefs
  | _, s, [] => .ok s
  | 0, _, _ :: _ => .error .diverge
  | k + 1, s, p :: todo =>
    match s.count p with
    | 0 => .error .ub
    | 1 => releaseAll h k ⟨fun q => if q = p then 0 else s.count q, s.gone ++ [p]⟩ (ownedBy (h p) ++ todo)
    | n + 2 => releaseAll h k { s with count := fun q => if q = p then n + 1 else s.count q } todo

end Cppnet
