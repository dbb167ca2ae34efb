import Verif.Spec.Http
import Verif.Model.HttpMsg

/-!
# What the calls that fill in headers, routes and requests are meant to store
-/

namespace Cppnet.Spec

/-- The calls after the last one that empties the object. -/
def sinceClear {α : Type} [DecidableEq α] (clear : α) (calls : List α) : List α :=
  (calls.reverse.takeWhile (fun c => c ≠ clear)).reverse

/-- The name of a content type; the custom type is the one registered for the empty suffix. -/
def typeText (registered : UMap) (t : ContentType) : Str :=
  match contentTable.find? (fun r => r.1 = t) with
  | some r => r.2.1
  | none => if t = .custom then registered.getD [] else b!"unknown"

/-- The field a call stores. -/
def HdrStores (registered : UMap) : HdrCall → Option (Str × Str)
  | .add k v => some (k, v)
  | .assign k v => some (k, v)
  | .index _ => none
  | .setHost v => some (b!"Host", v)
  | .setType t => some (b!"Content-Type", typeText registered t)
  | .setTypeStr v => some (b!"Content-Type", v)
  | .setLength n => some (b!"Content-Length", intToStr n)
  | .setLong b => some (b!"Connection", if b then b!"keep-alive" else b!"close")
  | .clear => none

/-- The value stored last under a name, if there is one. -/
def storedHeader (registered : UMap) (calls : List HdrCall) (k : Str) : Option Str :=
  lastFor k ((sinceClear .clear calls).filterMap (HdrStores registered))

/-- The parameter a call stores. -/
def RouteStores : RouteCall → Option (Str × Str)
  | .add k v => some (k, v)
  | .assign k v => some (k, v)
  | _ => none

/-- The value stored last under a name, if there is one. -/
def storedParam (calls : List RouteCall) (k : Str) : Option Str :=
  lastFor k ((sinceClear .clear calls).filterMap RouteStores)

/-- The path that was set last, empty if there is none. -/
def storedPath (calls : List RouteCall) : Str :=
  (((sinceClear .clear calls).filterMap (fun | .setPath p => some p | _ => none)).getLast?).getD []

/-- The text of a form: `name=value` items, separated by `&`. -/
def formText (fields : List (Str × Str)) : Str := joinWith b!"&" (fields.map (fun p => p.1 ++ b!"=" ++ p.2))

end Cppnet.Spec
