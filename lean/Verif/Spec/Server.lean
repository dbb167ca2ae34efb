import Verif.Spec.Trie
import Verif.Spec.Http
import Verif.Model.HttpServer

/-!
# What routing means

Only the types of handlers, filters and contexts are taken from the model.
-/

namespace Cppnet.Spec
variable {σ : Type}

/-- One registration: the prefix of the group, the path given to it, and the entry. -/
structure Reg (σ : Type) where
  route : Str := []
  path : Str
  entry : Entry σ

/-- The full path a handler is registered on. -/
def Reg.full (r : Reg σ) : Str := r.route ++ r.path

/-- All paths are ASCII. -/
def AsciiRegs (regs : List (Reg σ)) : Prop := ∀ r ∈ regs, Ascii r.route ∧ Ascii r.path

instance (regs : List (Reg σ)) : Decidable (AsciiRegs regs) :=
  inferInstanceAs (Decidable (∀ r ∈ regs, _))

/-- The handlers that belong to a request path: those registered on the path itself, and the non-exact
ones registered on a prefix of it; shortest path first, in registration order on equal paths. -/
def candidates (regs : List (Reg σ)) (path : Str) : List (Entry σ) :=
  (List.range (path.length + 1)).flatMap fun i =>
    (regs.filter fun r => r.full = path.take i ∧ (r.entry.exact = true → i = path.length)).map (·.entry)

/-- Do all filters accept the request? -/
def accepts (req : HttpReq) : List Filter → Out Bool
  | [] => .ok true
  | f :: fs => do
    let b ← f req
    if b then accepts req fs else .ok false

/-- Call each handler whose filters accept the request as it is then, in order, until the server is
stopped. -/
def runInOrder : List (Entry σ) → Ctx σ → Out (Ctx σ)
  | [], ctx => .ok ctx
  | e :: es, ctx => do
    let b ← accepts ctx.req e.filters
    match b, e.callback with
    | true, some f => do
      let ctx ← f ctx
      if ctx.running then runInOrder es ctx else .ok ctx
    | _, _ => runInOrder es ctx

/-- A registration that does not collide with the earlier ones (`earlier`: their full paths): on the
server itself (empty prefix), a new path must not be a prefix of an earlier one; in a group, the full path
must be new and the path without the group's prefix must not be a prefix of an earlier one (for `Use`: the
server itself has no middleware yet). -/
def Separate (earlier : List Str) (r : Reg σ) : Prop :=
  if r.route = [] then r.path = [] ∨ r.path ∈ earlier ∨ ∀ q ∈ earlier, ¬ r.path <+: q
  else r.full ∉ earlier ∧ (if r.path = [] then [] ∉ earlier else ∀ q ∈ earlier, ¬ r.path <+: q)

/-- Every registration is separate from those before it. -/
def SeparateAll : List Str → List (Reg σ) → Prop
  | _, [] => True
  | earlier, r :: rs => Separate earlier r ∧ SeparateAll (earlier ++ [r.full]) rs

instance (earlier : List Str) (r : Reg σ) : Decidable (Separate earlier r) := by
  unfold Separate; infer_instance

instance SeparateAll.dec : (earlier : List Str) → (regs : List (Reg σ)) → Decidable (SeparateAll earlier regs)
  | _, [] => .isTrue trivial
  | earlier, r :: rs =>
    have := SeparateAll.dec (earlier ++ [r.full]) rs
    inferInstanceAs (Decidable (_ ∧ _))

/-- What a call is meant to register: `Use` and `StaticDir` register for a whole subtree, everything else
for one path; GET, POST, `StaticDir` and `StaticFile` add a filter for the method; lists of callbacks
register each of them in order. -/
def meant (c : ApiCall σ) : List (Reg σ) :=
  let on (path : Str) (cb : Option (Handler σ)) (exact : Bool) (filters : List Filter) : Reg σ :=
    { route := c.groups.flatten, path, entry := { callback := cb, exact, filters } }
  let only (m : HttpMethod) : Filter := fun req => .ok (decide (req.method = m))
  match c.fn with
  | .register path cb filters exact => [on path cb exact filters]
  | .registers path cbs filters exact => cbs.map fun cb => on path cb exact filters
  | .get path cb filters => [on path cb true (filters ++ [only .GET])]
  | .gets path cbs filters => cbs.map fun cb => on path cb true (filters ++ [only .GET])
  | .post path cb filters => [on path cb true (filters ++ [only .POST])]
  | .posts path cbs filters => cbs.map fun cb => on path cb true (filters ++ [only .POST])
  | .use cb filters => [on [] cb false filters]
  | .staticDir path dir filters => [on path (some (staticDirHandler c.g path dir)) false (filters ++ [only .GET])]
  | .staticFile path file filters => [on path (some (staticFileHandler c.g file)) true (filters ++ [only .GET])]

/-- Is this a call of GET or POST (which lose their method, C41)? -/
def byMethod (c : ApiCall σ) : Bool :=
  match c.fn with
  | .get .. | .gets .. | .post .. | .posts .. => true
  | _ => false

/-! ### The table the code really builds -/

/-- The entry the code appends to: for the empty path the one of the empty path, otherwise the least
registered extension of the path *without the group's prefix*. -/
def Finds (m : Str → Option (List (Entry σ))) (path p : Str) : Prop :=
  (path = [] ∧ p = [] ∧ (m []).isSome) ∨ (path ≠ [] ∧ LeastExtension m path p)

/-- The table after one registration: appended to the entry found, or else stored under the full path,
replacing what was there. -/
def TableStep (m : Str → Option (List (Entry σ))) (r : Reg σ) (m' : Str → Option (List (Entry σ))) : Prop :=
  (∃ p, Finds m r.path p ∧ m' = fun k => if k = p then (m k).map (· ++ [r.entry]) else m k) ∨
  ((¬ ∃ p, Finds m r.path p) ∧ m' = fun k => if k = r.full then some [r.entry] else m k)

/-- The table after a history. -/
inductive TableRun : List (Reg σ) → (Str → Option (List (Entry σ))) → Prop
  | nil : TableRun [] fun _ => none
  | snoc {regs m r m'} : TableRun regs m → TableStep m r m' → TableRun (regs ++ [r]) m'

/-- The handlers a table gives for a path. -/
def tableCandidates (m : Str → Option (List (Entry σ))) (path : Str) : List (Entry σ) :=
  (List.range (path.length + 1)).flatMap fun i =>
    ((m (path.take i)).getD []).filter fun e => e.exact = true → i = path.length

end Cppnet.Spec
