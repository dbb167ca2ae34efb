import Verif.Model.Links

/-!
# Specification for C183: symbolic links
-/

namespace Cppnet.Spec

/-- From the directory `here`, the components `todo` lead to the place `k` with `n` links on the way: `k` is something that is no link, or
a name that is free in a directory. -/
inductive Leads (t : LTree) : Nat → FsKey → FsKey → FsKey → Prop
  | here {k : FsKey} {x : LNode} (hx : t k = some x) (hl : ∀ g, x ≠ .link g) : Leads t 0 k [] k
  | new {h : FsKey} {c : Str} (hd : t h = some (.node .dir)) (hn : t (h ++ [c]) = none) : Leads t 0 h [c] (h ++ [c])
  | step {n : Nat} {h rest k : FsKey} {c : Str} {x : LNode} (hd : t h = some (.node .dir)) (hx : t (h ++ [c]) = some x)
      (hl : ∀ g, x ≠ .link g) (next : Leads t n (h ++ [c]) rest k) : Leads t n h (c :: rest) k
  | link {n : Nat} {h rest k target : FsKey} {c : Str} (hd : t h = some (.node .dir)) (hx : t (h ++ [c]) = some (.link target))
      (next : Leads t n [] (target ++ rest) k) : Leads t (n + 1) h (c :: rest) k

/-- The path leads to the place `k`, over at most 40 links. -/
def LeadsTo (res : Str → FsKey) (t : LTree) (path : Str) (k : FsKey) : Prop := ∃ n, n ≤ 40 ∧ Leads t n [] (res (cString path)) k

/-- A tree without links and closed directories. -/
def plain (fs : FsTree) : LTree := fun k => (fs k).map .node

/-- What is there is in a directory, and the root is one. -/
def Rooted (fs : FsTree) : Prop := fs [] = some .dir ∧ ∀ k c, fs (k ++ [c]) ≠ none → fs k = some .dir

end Cppnet.Spec
