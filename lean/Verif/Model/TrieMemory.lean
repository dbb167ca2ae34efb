import Verif.Model.TrieHeap

/-!
# Model of `src/cppnet/utils/trie.cpp` when memory runs out

Every `new`, every copy of a `std::any` with a `shared_ptr` in it and every text that is too long for the space inside a
`std::string` may throw `std::bad_alloc`.  The call then ends, and the tree is left as it is at that point.  As in `Model/Trie` the tree
is a value; so a node that is lost (trie.cpp:46-47, when the text of line 47 cannot be made) does not show.
-/

namespace Cppnet
open TNode
variable {α : Type}

/-- The memory that is left for a call: how many more objects (`new Node`, with everything in it, and copies of a `std::any`) and how
many more texts can be made; `none` if there is enough (trie.cpp:5-111). -/
structure Mem where
  objects : Option Nat := none
  texts : Option Nat := none
  deriving DecidableEq

/-- An object is made; `none` if that throws (trie.cpp:46, 65, 74, 79, 94, 109). -/
def Mem.object (m : Mem) : Option Mem :=
  match m.objects with
  | none => some m
  | some 0 => none
  | some (n + 1) => some { m with objects := some n }

/-- A text is made; `none` if that throws (trie.cpp:47, 57, 78, 96). -/
def Mem.text (m : Mem) : Option Mem :=
  match m.texts with
  | none => some m
  | some 0 => none
  | some (n + 1) => some { m with texts := some n }

/-- trie.cpp:65-66, 79-80, 109-110: `now->data_ = data; now->stop_ = true;`.  The result is the node and the memory left, `none` if
the call has thrown. -/
def setVal (v : α) (n : TNode α) (m : Mem) : TNode α × Option Mem :=
  match m.object with
  | none => (n, none)
  | some m => (mk n.key (some v) n.next, some m)

/-- trie.cpp:39-58, `Trie::ForkNode`. -/
def forkMem (n : TNode α) (pos : Nat) (m : Mem) : Out (TNode α × Option Mem) :=
  if pos ≤ 0 ∨ pos ≥ n.key.length then .ok (n, some m)
  else
    match n.key[pos]? with
    | none => .error .ub
    | some c =>
      match m.object with
      | none => .ok (n, none)
      | some m =>
        match m.text with
        | none => .ok (n, none)
        | some m => do
          let n' ← TNode.setSlot (mk n.key none fun _ => none) c (mk (n.key.drop pos) n.val n.next)
          match m.text with
          | none => .ok (n', none)
          | some m => .ok (mk (n.key.take pos) n'.val n'.next, some m)

/-- trie.cpp:88, 107: the call of `ForkNode` under a condition. -/
def forkIf (b : Bool) (n : TNode α) (pos : Nat) (m : Mem) : Out (TNode α × Option Mem) :=
  if b then forkMem n pos m else .ok (n, some m)

/-- trie.cpp:83-110, the loop of `Trie::SetNode` and the assignment after it, as in `setGo`. -/
def setGoMem (v : α) : TNode α → Nat → Str → Mem → Out (TNode α × Option Mem)
  | now, pos, [], m => do
    let r ← forkIf (pos ≠ now.key.length) now pos m
    match r with
    | (now, none) => .ok (now, none)
    | (now, some m) => .ok (setVal v now m)
  | now, pos, c :: cs, m =>
    if pos < now.key.length ∧ now.key[pos]? = some c then setGoMem v now (pos + 1) cs m
    else do
      let r ← forkIf (pos < now.key.length) now pos m
      match r with
      | (now, none) => .ok (now, none)
      | (now, some m) =>
        if pos < now.key.length then .error .diverge
        else
          match ← now.slot c with
          | none =>
            match m.object with
            | none => .ok (now, none)
            | some m =>
              match m.text with
              | none => do
                let now ← now.setSlot c TNode.empty
                .ok (now, none)
              | some m => do
                let now ← now.setSlot c (setVal v (mk (c :: cs) none fun _ => none) m).1
                .ok (now, (setVal v (mk (c :: cs) none fun _ => none) m).2)
          | some ch => do
            let r ← setGoMem v ch 1 cs m
            let now ← now.setSlot c r.1
            .ok (now, r.2)

/-- trie.cpp:77-81: the first node of the key, if it has no text yet. -/
def setFirst (v : α) (root : TNode α) (c : Byte) (key : Str) (now : TNode α) (m : Mem) : Out (TNode α × Option Mem) :=
  match m.text with
  | none => do
    let root ← root.setSlot c now
    .ok (root, none)
  | some m => do
    let root ← root.setSlot c (setVal v (mk key now.val now.next) m).1
    .ok (root, (setVal v (mk key now.val now.next) m).2)

/-- trie.cpp:60-111, `Trie::SetNode`; the first object is the argument made by `Trie::Set` (trie.hpp:24). -/
def trieSetMem (root : TNode α) (key : Str) (v : α) (m : Mem) : Out (TNode α × Option Mem) :=
  match m.object with
  | none => .ok (root, none)
  | some m =>
    match key with
    | [] => .ok (setVal v root m)
    | c :: _ => do
      match ← root.slot c with
      | none =>
        match m.object with
        | none => .ok (root, none)
        | some m => setFirst v root c key TNode.empty m
      | some ch =>
        if ch.key = [] then setFirst v root c key ch m
        else do
          let r ← setGoMem v ch 0 key m
          let root ← root.setSlot c r.1
          .ok (root, r.2)

/-- A sequence of calls on a trie, each with the memory that is left for it, whose exceptions are caught: the trie and the calls that
have returned (trie.cpp:26-29, 60-111).  `Reset` has enough memory (else `hResetMem`). -/
def trieRunMem : TNode α → List (TrieOp α × Mem) → Out (TNode α × List (TrieOp α))
  | t, [] => .ok (t, [])
  | t, (.set k v, m) :: ops => do
    let r ← trieSetMem t k v m
    let x ← trieRunMem r.1 ops
    .ok (x.1, if r.2.isSome then .set k v :: x.2 else x.2)
  | _, (.reset, _) :: ops => do
    let x ← trieRunMem TNode.empty ops
    .ok (x.1, .reset :: x.2)

/-- trie.cpp:26-29, `Trie::Reset` when there is no memory for the new root: the nodes are gone, and `root_` is what it was. -/
def hResetMem (k : Nat) (t : HTrie α) : Out (HTrie α) := do
  let h ← cleanMemory k t.heap t.root
  .ok { t with heap := h }

end Cppnet
