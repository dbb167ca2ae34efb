import Verif.Model.HttpServer
import Verif.Model.TrieHeap

/-!
# Handlers that register handlers

`Model/HttpServer` assumes that a handler does not change the routing table while a request is served.  Here it may: the trie lives on
the heap of `Model/TrieHeap`, and `HandleRead` walks through it with a pointer (`src/cppnet/utils/trie.cpp:152-198`) while the handlers
call `RegisterHandler` (`src/cppnet/http/server/http_server.cpp:54-67`).  A registration does not depend on the context, so a handler
yields the context and the registrations it made, in order.
-/

namespace Cppnet
variable {σ : Type}

/-- One call of `RegisterHandler` on the group with prefix `route`; callbacks are known by number (http_server.cpp:54-57). -/
structure Reg where
  route : Str := []
  path : Str
  cb : Nat
  exact : Bool := true
  filters : List Filter := []

/-- http_server.hpp:65-69, `HttpTrieData`. -/
structure REntry where
  cb : Nat
  exact : Bool := true
  filters : List Filter := []

/-- The callbacks of the program: what a callback makes of a context, and what it registers (http_server.hpp:63). -/
abbrev Prog (σ : Type) := Nat → Ctx σ → Out (Ctx σ × List Reg)

/-- http_server.hpp:240-242, with the nodes of the trie on a heap; the vectors by number as in `Model/HttpServer`. -/
structure RSrv where
  heap : Heap Nat
  root : Nat
  store : List (List REntry) := []

/-- http_server.cpp:54-67, `RegisterHandler`. -/
def rRegister (s : RSrv) (r : Reg) : Out RSrv := do
  match ← hTrieGet s.heap s.root r.path with
  | none => do
    let h ← hTrieSet s.heap s.root (r.route ++ r.path) s.store.length
    .ok { s with heap := h, store := s.store ++ [[{ cb := r.cb, exact := r.exact, filters := r.filters }]] }
  | some ref => .ok { s with store := s.store.modify ref (· ++ [{ cb := r.cb, exact := r.exact, filters := r.filters }]) }

/-- http_server.cpp:367-389: the loop over the entries of the vector `ref`, which had `n` elements when the loop began.  The shared
pointer keeps the vector alive.  A `push_back` invalidates at least the end iterator, so going on with the loop after the vector has
grown is undefined behaviour (370); leaving it at 384 is not. -/
def runNodeR (prog : Prog σ) (isEnd : Bool) (ref n : Nat) : List REntry → RSrv × Ctx σ → Out ((RSrv × Ctx σ) × Bool)
  | [], st => .ok (st, true)
  | e :: es, (s, ctx) =>
    if !isEnd && e.exact then runNodeR prog isEnd ref n es (s, ctx)
    else do
      if ← filtersMatch ctx.req e.filters then do
        let (ctx, regs) ← prog e.cb ctx
        let s ← regs.foldlM rRegister s
        if !ctx.running then .ok ((s, ctx), false)
        else if (s.store.getD ref []).length ≠ n then .error .ub
        else runNodeR prog isEnd ref n es (s, ctx)
      else runNodeR prog isEnd ref n es (s, ctx)

/-- The callback of `Search` (http_server.cpp:366-389) on the vector `ref`. -/
def visitR (prog : Prog σ) (isEnd : Bool) (ref : Nat) (st : RSrv × Ctx σ) : Out ((RSrv × Ctx σ) × Bool) :=
  runNodeR prog isEnd ref (st.1.store.getD ref []).length (st.1.store.getD ref []) st

/-- trie.cpp:171-197, the loop of `SearchNode` with the pointer `now`: the node is read again after the callback (188). -/
def rSearchGo (prog : Prog σ) : RSrv × Ctx σ → Nat → Nat → Str → Out (RSrv × Ctx σ)
  | st, now, pos, [] => do
    let n ← st.1.heap.read now
    match n.val with
    | some v =>
      if pos = n.key.length then do
        let r ← visitR prog true v st
        .ok r.1
      else .ok st
    | none => .ok st
  | st, now, pos, c :: cs => do
    let n ← st.1.heap.read now
    if pos < n.key.length then
      if n.key[pos]? = some c then rSearchGo prog st now (pos + 1) cs else .ok st
    else do
      let r ← match n.val with
        | some v => visitR prog false v st
        | none => .ok (st, true)
      if !r.2 then .ok r.1
      else do
        let n ← r.1.1.heap.read now
        match ← n.slot c with
        | none => .ok r.1
        | some q => rSearchGo prog r.1 q 1 cs

/-- http_server.cpp:364-389 with trie.cpp:152-169: step 2 of `HandleRead`. -/
def rDispatch (prog : Prog σ) (s : RSrv) (path : Str) (ctx : Ctx σ) : Out (RSrv × Ctx σ) := do
  let n ← s.heap.read s.root
  let r ← match n.val with
    | some v => visitR prog path.isEmpty v (s, ctx)
    | none => .ok ((s, ctx), true)
  if !r.2 then .ok r.1
  else
    match path with
    | [] => .ok r.1
    | c :: _ => do
      let n ← r.1.1.heap.read r.1.1.root
      match ← n.slot c with
      | none => .ok r.1
      | some q => rSearchGo prog r.1 q 0 path

/-- A server without routes (trie.cpp:5). -/
def rNew : RSrv := { heap := (hTrieNew {}).heap, root := (hTrieNew (α := Nat) {}).root }

end Cppnet
