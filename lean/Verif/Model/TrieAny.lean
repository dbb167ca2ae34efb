import Verif.Model.Trie

/-!
# A trie with values of several types

`src/cppnet/utils/trie.hpp:23-50`: `Set`, `Get` and `Search` are templates; a node keeps a `std::any` (69) that holds a
`std::shared_ptr<T>`.
-/

namespace Cppnet

/-- A `std::any` that holds a `std::shared_ptr<T>`: the type and the pointer (trie.hpp:69). -/
structure AnyPtr (P : Type) where
  type : Nat
  ptr : P
  deriving DecidableEq, Repr

/-- What a call gives: a result, or the exception of `std::any_cast` (trie.hpp:36, 48). -/
inductive Cast (β : Type) where
  | value (b : β)
  | badAnyCast
  deriving DecidableEq, Repr

variable {P : Type}

/-- `std::any_cast<std::shared_ptr<T>>` (trie.hpp:36, 48). -/
def ptrCast (T : Nat) (a : AnyPtr P) : Cast P := if a.type = T then .value a.ptr else .badAnyCast

/-- trie.hpp:31-37, `Get<T>`: `none` is the null pointer. -/
def trieGetAs (T : Nat) (t : TNode (AnyPtr P)) (key : Str) : Out (Cast (Option P)) := do
  match ← trieGet t key with
  | none => .ok (.value none)
  | some a =>
    match ptrCast T a with
    | .value p => .ok (.value (some p))
    | .badAnyCast => .ok .badAnyCast

/-- trie.hpp:44-50, the callback that `Search<T>` hands to `SearchNode`: it casts and calls the user's callback.  The exception ends
the search: the state is what it was then. -/
def castCb {σ : Type} (T : Nat) (cb : σ → P → Bool → Out (σ × Bool)) (s : Cast σ × σ) (a : AnyPtr P) (last : Bool) :
    Out ((Cast σ × σ) × Bool) :=
  match ptrCast T a with
  | .badAnyCast => .ok ((.badAnyCast, s.2), false)
  | .value p => do
    let r ← cb s.2 p last
    .ok ((.value r.1, r.1), r.2)

/-- trie.hpp:44-50, `Search<T>`: whether it threw, and the state of the user's callback. -/
def trieSearchAs {σ : Type} (T : Nat) (cb : σ → P → Bool → Out (σ × Bool)) (s : σ) (t : TNode (AnyPtr P)) (key : Str) :
    Out (Cast σ × σ) := trieSearch (castCb T cb) (.value s, s) t key

end Cppnet
