import Verif.Cpp.Basic

/-!
# Model of `src/cppnet/utils/trie.hpp` and `trie.cpp`

The pointer tree becomes a value: a function that mutates a node returns the new node, and the
callers put it back into the slot it came from.  `stop_` and `data_` are always written together,
so one `Option` stands for both (`some` = stop).  Only one payload type per trie is modelled (no
`bad_any_cast`).  What `Reset` and the destructor free is in `Model/TrieHeap`.
-/

namespace Cppnet

/-- trie.hpp:65-70, `Trie::Node`.  `next c` is slot `c` of the 128-slot vector. -/
structure TNode (α : Type) where
  /-- `key_` -/
  key : Str
  /-- `stop_`/`data_` -/
  val : Option α
  /-- `next_` -/
  next : Byte → Option (TNode α)

namespace TNode
variable {α : Type}

/-- trie.hpp:65-70, a default-constructed node (also trie.cpp:5, the root of a new trie). -/
def empty : TNode α := mk [] none fun _ => none

/-- The read `now->next_[c]`: the index is a `char` converted to `size_t`, and the vector has 128
slots, so a byte ≥ 0x80 reads out of bounds (trie.cpp:82-197). -/
def slot (n : TNode α) (c : Byte) : Out (Option (TNode α)) :=
  if c < 128 then .ok (n.next c) else .error .ub

/-- The write `now->next_[c] = ch` (same index rule) (trie.cpp:56, 82-110). -/
def setSlot (n : TNode α) (c : Byte) (ch : TNode α) : Out (TNode α) :=
  if c < 128 then .ok (mk n.key n.val fun x => if x = c then some ch else n.next x)
  else .error .ub

end TNode

open TNode
variable {α : Type}

/-- trie.cpp:39-58, `Trie::ForkNode`. -/
def forkNode (n : TNode α) (pos : Nat) : Out (TNode α) :=
  if pos ≤ 0 ∨ pos ≥ n.key.length then .ok n
  else
    match n.key[pos]? with
    | none => .error .ub
    | some c =>
      TNode.setSlot (mk (n.key.take pos) none fun _ => none) c (mk (n.key.drop pos) n.val n.next)

/-- trie.cpp:82-110, the loop of `Trie::SetNode` at node `now`, position `pos` of its key, with the
rest of the new key as last argument, and the assignment after the loop.  `i--` after a fork
repeats the iteration; it would repeat for ever if the fork changed nothing. -/
def setGo (v : α) : TNode α → Nat → Str → Out (TNode α)
  | now, pos, [] => do
    let now ← if pos ≠ now.key.length then forkNode now pos else .ok now
    .ok (mk now.key (some v) now.next)
  | now, pos, c :: cs =>
    if pos < now.key.length ∧ now.key[pos]? = some c then setGo v now (pos + 1) cs
    else do
      let now ← if pos < now.key.length then forkNode now pos else .ok now
      if pos < now.key.length then .error .diverge
      else
        match ← now.slot c with
        | none => now.setSlot c (mk (c :: cs) (some v) fun _ => none)
        | some ch => do
          let ch ← setGo v ch 1 cs
          now.setSlot c ch

/-- trie.cpp:60-111, `Trie::SetNode` (`Trie::Set`, trie.hpp:23-25). -/
def trieSet (root : TNode α) (key : Str) (v : α) : Out (TNode α) :=
  match key with
  | [] => .ok (mk root.key (some v) root.next)
  | c :: _ => do
    let now := match ← root.slot c with
      | none => TNode.empty
      | some ch => ch
    if now.key = [] then root.setSlot c (mk key (some v) now.next)
    else do
      let ch ← setGo v now 0 key
      root.setSlot c ch

/-- trie.cpp:130-149, the loop of `Trie::GetNode`; the result is the payload of the returned node
(`none` = nullptr).  The final test is only `stop_`, not the position (146). -/
def getGo : TNode α → Nat → Str → Out (Option α)
  | now, _, [] => .ok now.val
  | now, pos, c :: cs =>
    if pos < now.key.length then
      if now.key[pos]? = some c then getGo now (pos + 1) cs else .ok none
    else do
      match ← now.slot c with
      | none => .ok none
      | some ch => getGo ch 1 cs

/-- trie.cpp:113-150, `Trie::GetNode` (`Trie::Get`, trie.hpp:31-37). -/
def trieGet (root : TNode α) (key : Str) : Out (Option α) :=
  match key with
  | [] => .ok root.val
  | c :: _ => do
    match ← root.slot c with
    | none => .ok none
    | some ch => getGo ch 0 key

/-- trie.cpp:31-37, `Trie::Check`. -/
def trieCheck (root : TNode α) (key : Str) : Out Bool := do
  let r ← trieGet root key
  .ok r.isSome

/-- trie.cpp:171-197, the loop of `Trie::SearchNode`.  The callback is any function with a state
`σ`; it returns the new state and whether to continue. -/
def searchGo {σ : Type} (cb : σ → α → Bool → Out (σ × Bool)) : σ → TNode α → Nat → Str → Out σ
  | s, now, pos, [] =>
    match now.val with
    | some v => if pos = now.key.length then do
        let r ← cb s v true
        .ok r.1
      else .ok s
    | none => .ok s
  | s, now, pos, c :: cs =>
    if pos < now.key.length then
      if now.key[pos]? = some c then searchGo cb s now (pos + 1) cs else .ok s
    else do
      let r ← match now.val with
        | some v => cb s v false
        | none => .ok (s, true)
      if !r.2 then .ok r.1
      else
        match ← now.slot c with
        | none => .ok r.1
        | some ch => searchGo cb r.1 ch 1 cs

/-- trie.cpp:152-198, `Trie::SearchNode` (`Trie::Search`, trie.hpp:44-50). -/
def trieSearch {σ : Type} (cb : σ → α → Bool → Out (σ × Bool)) (s : σ) (root : TNode α) (key : Str) :
    Out σ := do
  let r ← match root.val with
    | some v => cb s v key.isEmpty
    | none => .ok (s, true)
  if !r.2 then .ok r.1
  else
    match key with
    | [] => .ok r.1
    | c :: _ =>
      match ← root.slot c with
      | none => .ok r.1
      | some ch => searchGo cb r.1 ch 0 key

/-- The mutating calls of the public interface (trie.hpp:23-62). -/
inductive TrieOp (α : Type) where
  | set (k : Str) (v : α)
  | reset

/-- One call; trie.cpp:26-29 for `Reset`. -/
def trieStep (t : TNode α) : TrieOp α → Out (TNode α)
  | .set k v => trieSet t k v
  | .reset => .ok TNode.empty

/-- A sequence of calls on a new trie (trie.cpp:5). -/
def trieRun (ops : List (TrieOp α)) : Out (TNode α) := ops.foldlM trieStep TNode.empty

end Cppnet
