import Verif.Cpp.Basic

/-!
# Model of `HttpContext::Get`, `HttpContext::Set` (`src/cppnet/http/server/http_server.hpp`)

The C++ types a program uses with `Get` and `Set` are any type `Ty` of names, each with its values and its default
value `T()`.  `std::any` itself is not among them and has its own calls, because the assignment in `Set` copies a
`std::any` instead of wrapping it.  Types whose copy or default constructor throws are not modelled.
-/

namespace Cppnet

/-- The C++ types in use (the `T` of http_server.hpp:38, 45). -/
structure CppTypes where
  Ty : Type
  [dec : DecidableEq Ty]
  Val : Ty → Type
  dflt : (t : Ty) → Val t

/-- `std::any`: empty, or a value with its type (http_server.hpp:60). -/
abbrev CppTypes.Any (U : CppTypes) : Type := Option (Σ t : U.Ty, U.Val t)

/-- http_server.hpp:60, `inline_data_`; `none`: the key is not in the map. -/
abbrev CtxData (U : CppTypes) := Str → Option U.Any

variable {U : CppTypes}

/-- `inline_data_[key]`: an absent key is inserted with an empty `std::any` (http_server.hpp:40, 46). -/
def ctxIndex (d : CtxData U) (key : Str) : CtxData U × U.Any :=
  match d key with
  | some a => (d, a)
  | none => (fun k => if k = key then some none else d k, none)

/-- `std::any_cast<T>`; `none`: throws `bad_any_cast` (http_server.hpp:40). -/
def anyCast (t : U.Ty) : U.Any → Option (U.Val t)
  | none => none
  | some ⟨t', v⟩ => match U.dec t' t with
    | .isTrue h => some (h ▸ v)
    | .isFalse _ => none

/-- http_server.hpp:38-44, `Get<T>`. -/
def ctxGet (d : CtxData U) (key : Str) (t : U.Ty) : CtxData U × U.Val t :=
  let (d, a) := ctxIndex d key
  (d, match anyCast t a with
    | some v => v
    | none => U.dflt t)

/-- http_server.hpp:45-47, `Set<T>`. -/
def ctxSet (d : CtxData U) (key : Str) (t : U.Ty) (v : U.Val t) : CtxData U :=
  let (d, _) := ctxIndex d key
  fun k => if k = key then some (some ⟨t, v⟩) else d k

/-- http_server.hpp:45-47, `Set<std::any>`: the assignment copies the argument. -/
def ctxSetAny (d : CtxData U) (key : Str) (a : U.Any) : CtxData U :=
  let (d, _) := ctxIndex d key
  fun k => if k = key then some a else d k

/-- http_server.hpp:38-44, `Get<std::any>`: nothing an `std::any` holds has the type `std::any`, so the cast
always throws and an empty one is returned. -/
def ctxGetAny (d : CtxData U) (key : Str) : CtxData U × U.Any := ((ctxIndex d key).1, none)

/-- A call on the context (http_server.hpp:38-47). -/
inductive CtxCall (U : CppTypes) where
  | get (key : Str) (t : U.Ty)
  | set (key : Str) (t : U.Ty) (v : U.Val t)
  | getAny (key : Str)
  | setAny (key : Str) (a : U.Any)

/-- A history of calls on a new context (http_server.hpp:38-47). -/
def ctxRun (calls : List (CtxCall U)) : CtxData U :=
  calls.foldl (fun d c => match c with
    | .get k t => (ctxGet d k t).1
    | .set k t v => ctxSet d k t v
    | .getAny k => (ctxGetAny d k).1
    | .setAny k a => ctxSetAny d k a) (fun _ => none)

end Cppnet
