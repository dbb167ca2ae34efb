import Verif.Model.Reentrant
import Verif.Proofs.TrieHeap

/-!
# What C166 says
-/

namespace Cppnet.Spec
variable {σ : Type}

/-- A routing table as a value: the trie, and its vectors. -/
abbrev Table := TNode Nat × List (List REntry)

/-- What the handlers of one node make of a context, and what they would like to register: `noted` grows by it, the routing table
stays. -/
def noteNode (prog : Prog σ) (isEnd : Bool) : List REntry → Ctx σ × List Reg → Out ((Ctx σ × List Reg) × Bool)
  | [], st => .ok (st, true)
  | e :: es, (ctx, noted) =>
    if !isEnd && e.exact then noteNode prog isEnd es (ctx, noted)
    else do
      if ← filtersMatch ctx.req e.filters then do
        let (ctx, regs) ← prog e.cb ctx
        if !ctx.running then .ok ((ctx, noted ++ regs), false)
        else noteNode prog isEnd es (ctx, noted ++ regs)
      else noteNode prog isEnd es (ctx, noted)

/-- A request is served by a routing table (the trie as a value, and its vectors) that does not change: the context at the end, and
all that the handlers registered, in order. -/
def serveThenRegister (prog : Prog σ) (t : Table) (path : Str) (ctx : Ctx σ) : Out (Ctx σ × List Reg) :=
  trieSearch (fun st ref isEnd => noteNode prog isEnd (t.2.getD ref []) st) (ctx, []) t.1 path

/-- A registration into a routing table that is a value: a path without handlers gets a vector, a path with handlers one entry more. -/
def addTo (t : Table) (r : Reg) : Out Table := do
  match ← trieGet t.1 r.path with
  | none => do
    let t' ← trieSet t.1 (r.route ++ r.path) t.2.length
    .ok (t', t.2 ++ [[{ cb := r.cb, exact := r.exact, filters := r.filters }]])
  | some ref => .ok (t.1, t.2.modify ref (· ++ [{ cb := r.cb, exact := r.exact, filters := r.filters }]))

/-- The pointers of the server represent this routing table, and no pointer leads into memory that is still to be handed out. -/
def Holds (s : RSrv) (t : Table) : Prop :=
  (∃ F, Rep s.heap.cell s.root t.1 F) ∧ (∀ x, s.heap.made ≤ x → s.heap.cell x = none) ∧ s.store = t.2

/-- No vector that was there has grown. -/
def NoneGrew (before after : List (List REntry)) : Prop := ∀ ref < before.length, after[ref]? = before[ref]?

/-- Only handlers that are registered for exact paths register others. -/
def ExactOnly (prog : Prog σ) (store : List (List REntry)) : Prop :=
  ∀ v ∈ store, ∀ e ∈ v, e.exact = false → ∀ ctx ctx' regs, prog e.cb ctx = .ok (ctx', regs) → regs = []

/-- The server of `Model/HttpServer` with these handlers, as long as none of them registers anything. -/
def asServer (prog : Prog σ) (t : Table) : Server σ :=
  { trie := t.1
    store := t.2.map fun v => v.map fun e =>
      { callback := some fun ctx => (prog e.cb ctx).map Prod.fst, exact := e.exact, filters := e.filters } }

end Cppnet.Spec
