import Verif.Model.Trie

/-!
# Model of `src/cppnet/utils/trie.cpp` with its pointers

`Model/Trie` renders the tree of nodes as a value.  Here the nodes live on a heap, `next_` holds addresses, `new` and `delete` are
explicit, and using an address that is not alive (never made, or deleted) is undefined behaviour.  Addresses are not used again
(an allocator may do so; then a dangling pointer would be worse than here).  As in `Model/Trie` one `Option` stands for `stop_` and
`data_`, and there is one payload type.  `new` does not fail (else `Model/TrieMemory`).
-/

namespace Cppnet
variable {α : Type}

/-- trie.hpp:65-70, `Trie::Node` with addresses in the 128 slots (`none` = nullptr). -/
structure HNode (α : Type) where
  /-- `key_` -/
  key : Str := []
  /-- `stop_`/`data_` -/
  val : Option α := none
  /-- `next_` -/
  next : Byte → Option Nat := fun _ => none

/-- The nodes made with `new` (trie.cpp:5, 28, 46, 74, 94) and deleted (trie.cpp:21). -/
structure Heap (α : Type) where
  /-- what is at an address: `none` if it was never made or has been deleted -/
  cell : Nat → Option (HNode α) := fun _ => none
  /-- how many nodes were made; they are numbered from 0 -/
  made : Nat := 0
  /-- the addresses given to `delete`, last first -/
  deleted : List Nat := []

namespace Heap

/-- `p->…` read (trie.cpp:12-197). -/
def read (h : Heap α) (p : Nat) : Out (HNode α) :=
  match h.cell p with
  | some n => .ok n
  | none => .error .ub

/-- `p->… = …` (trie.cpp:50-110). -/
def write (h : Heap α) (p : Nat) (n : HNode α) : Out (Heap α) :=
  match h.cell p with
  | some _ => .ok { h with cell := fun x => if x = p then some n else h.cell x }
  | none => .error .ub

/-- `new Node` (trie.cpp:5, 28, 46, 74, 94): the heap and the address. -/
def new (h : Heap α) (n : HNode α) : Heap α × Nat :=
  ({ h with cell := fun x => if x = h.made then some n else h.cell x, made := h.made + 1 }, h.made)

/-- `delete p` (trie.cpp:21). -/
def delete (h : Heap α) (p : Nat) : Out (Heap α) :=
  match h.cell p with
  | some _ => .ok { h with cell := fun x => if x = p then none else h.cell x, deleted := p :: h.deleted }
  | none => .error .ub

end Heap

/-- The read `now->next_[c]` (trie.cpp:73-197): out of bounds for a byte ≥ 0x80. -/
def HNode.slot (n : HNode α) (c : Byte) : Out (Option Nat) :=
  if c < 128 then .ok (n.next c) else .error .ub

/-- The write `now->next_[c] = q` (trie.cpp:56, 74, 95). -/
def HNode.setSlot (n : HNode α) (c : Byte) (q : Nat) : Out (HNode α) :=
  if c < 128 then .ok { n with next := fun x => if x = c then some q else n.next x } else .error .ub

/-- trie.cpp:39-58, `Trie::ForkNode`. -/
def hForkNode (h : Heap α) (p pos : Nat) : Out (Heap α) := do
  let n ← h.read p
  if pos ≤ 0 ∨ pos ≥ n.key.length then .ok h
  else
    match n.key[pos]? with
    | none => .error .ub
    | some c => do
      let (h, q) := h.new { n with key := n.key.drop pos }
      let n' ← ({ key := n.key.take pos, val := none, next := fun _ => none } : HNode α).setSlot c q
      h.write p n'

/-- trie.cpp:82-110, the loop of `Trie::SetNode` with the node at `now`, position `pos` of its key and the rest of the new key, and
the assignment after the loop.  The `break` at 99 leaves `now` at the new node with `pos` at the end of its key.  `i--` after a
fork repeats the iteration; it would repeat for ever if the fork changed nothing. -/
def hSetGo (v : α) : Heap α → Nat → Nat → Str → Out (Heap α)
  | h, now, pos, [] => do
    let n ← h.read now
    let h ← if pos ≠ n.key.length then hForkNode h now pos else .ok h
    let n ← h.read now
    h.write now { n with val := some v }
  | h, now, pos, c :: cs => do
    let n ← h.read now
    if pos < n.key.length ∧ n.key[pos]? = some c then hSetGo v h now (pos + 1) cs
    else do
      let h ← if pos < n.key.length then hForkNode h now pos else .ok h
      let n ← h.read now
      if pos < n.key.length then .error .diverge
      else
        match ← n.slot c with
        | none => do
          let (h, tmp) := h.new {}
          let n ← n.setSlot c tmp
          let h ← h.write now n
          let m ← h.read tmp
          let h ← h.write tmp { m with key := c :: cs }
          let m ← h.read tmp
          h.write tmp { m with val := some v }
        | some q => hSetGo v h q 1 cs

/-- trie.cpp:60-111, `Trie::SetNode`, on the trie with this root. -/
def hTrieSet (h : Heap α) (root : Nat) (key : Str) (v : α) : Out (Heap α) := do
  let r ← h.read root
  match key with
  | [] => h.write root { r with val := some v }
  | c :: _ => do
    let (h, now) ← match ← r.slot c with
      | none => do
        let (h, q) := h.new {}
        let r ← r.setSlot c q
        let h ← h.write root r
        .ok (h, q)
      | some q => .ok (h, q)
    let n ← h.read now
    if n.key = [] then h.write now { n with key := key, val := some v }
    else hSetGo v h now 0 key

/-- trie.cpp:130-149, the loop of `Trie::GetNode`: the address it returns. -/
def hGetGo (h : Heap α) : Nat → Nat → Str → Out (Option Nat)
  | now, _, [] => do
    let n ← h.read now
    .ok (if n.val.isSome then some now else none)
  | now, pos, c :: cs => do
    let n ← h.read now
    if pos < n.key.length then
      if n.key[pos]? = some c then hGetGo h now (pos + 1) cs else .ok none
    else
      match ← n.slot c with
      | none => .ok none
      | some q => hGetGo h q 1 cs

/-- trie.cpp:113-150, `Trie::GetNode`. -/
def hGetNode (h : Heap α) (root : Nat) (key : Str) : Out (Option Nat) := do
  let r ← h.read root
  match key with
  | [] => .ok (if r.val.isSome then some root else none)
  | c :: _ =>
    match ← r.slot c with
    | none => .ok none
    | some q => hGetGo h q 0 key

/-- trie.hpp:31-37, `Trie::Get`. -/
def hTrieGet (h : Heap α) (root : Nat) (key : Str) : Out (Option α) := do
  match ← hGetNode h root key with
  | none => .ok none
  | some p => do
    let n ← h.read p
    .ok n.val

/-- trie.cpp:171-197, the loop of `Trie::SearchNode` (with the payload read by trie.hpp:47-49). -/
def hSearchGo {σ : Type} (cb : σ → α → Bool → Out (σ × Bool)) (h : Heap α) : σ → Nat → Nat → Str → Out σ
  | s, now, pos, [] => do
    let n ← h.read now
    match n.val with
    | some v =>
      if pos = n.key.length then do
        let r ← cb s v true
        .ok r.1
      else .ok s
    | none => .ok s
  | s, now, pos, c :: cs => do
    let n ← h.read now
    if pos < n.key.length then
      if n.key[pos]? = some c then hSearchGo cb h s now (pos + 1) cs else .ok s
    else do
      let r ← match n.val with
        | some v => cb s v false
        | none => .ok (s, true)
      if !r.2 then .ok r.1
      else
        match ← n.slot c with
        | none => .ok r.1
        | some q => hSearchGo cb h r.1 q 1 cs

/-- trie.cpp:152-198, `Trie::SearchNode` (`Trie::Search`, trie.hpp:44-50).  The callback does not change the trie. -/
def hTrieSearch {σ : Type} (cb : σ → α → Bool → Out (σ × Bool)) (s : σ) (h : Heap α) (root : Nat) (key : Str) : Out σ := do
  let n ← h.read root
  let r ← match n.val with
    | some v => cb s v key.isEmpty
    | none => .ok (s, true)
  if !r.2 then .ok r.1
  else
    match key with
    | [] => .ok r.1
    | c :: _ =>
      match ← n.slot c with
      | none => .ok r.1
      | some q => hSearchGo cb h r.1 q 0 key

/-- The 128 slots of a node in the order of the loop in `CleanMemory` (trie.cpp:17). -/
def slots : List Byte := (List.range 128).map UInt8.ofNat

/-- trie.cpp:17-20, the loop over the slots of the node at `p`; `clean` is the recursive call. -/
def cleanSlots (clean : Heap α → Nat → Out (Heap α)) (p : Nat) : Heap α → List Byte → Out (Heap α)
  | h, [] => .ok h
  | h, c :: cs => do
    let n ← h.read p
    match n.next c with
    | none => cleanSlots clean p h cs
    | some q => do
      let h ← clean h q
      cleanSlots clean p h cs

/-- trie.cpp:12-23, `Trie::CleanMemory`; the first number bounds the depth of the recursion (`.diverge` when it is used up). -/
def cleanMemory : Nat → Heap α → Nat → Out (Heap α)
  | 0, _, _ => .error .diverge
  | k + 1, h, p => do
    let h ← cleanSlots (cleanMemory k) p h slots
    h.delete p

/-- A `Trie` object: its root (trie.hpp:86) on a heap. -/
structure HTrie (α : Type) where
  heap : Heap α
  root : Nat

/-- trie.cpp:5, the constructor. -/
def hTrieNew (h : Heap α) : HTrie α :=
  let (h, p) := h.new {}
  ⟨h, p⟩

/-- One call: trie.cpp:60-111 for `Set`, 26-29 for `Reset` (with a bound on the depth of its recursion). -/
def hTrieStep (k : Nat) (t : HTrie α) : TrieOp α → Out (HTrie α)
  | .set key v => do
    let h ← hTrieSet t.heap t.root key v
    .ok { t with heap := h }
  | .reset => do
    let h ← cleanMemory k t.heap t.root
    .ok (hTrieNew h)

/-- A sequence of calls on a new trie. trie.cpp:5 -/
def hTrieRun (k : Nat) (ops : List (TrieOp α)) : Out (HTrie α) := ops.foldlM (hTrieStep k) (hTrieNew {})

/-- trie.cpp:7-10, the destructor. -/
def hTrieDestroy (k : Nat) (t : HTrie α) : Out (Heap α) := cleanMemory k t.heap t.root

/-- A copy made by the implicitly declared copy constructor or assignment: neither is declared in trie.hpp:10-87, so `root_` (86) is
copied.  The result is the root of the copy; the heap is that of the original. -/
def hTrieCopy (t : HTrie α) : Nat := t.root

end Cppnet
