import Verif.Spec.Builders
import Verif.Model.RespCalls

/-!
# What a response is after several calls

Of the model, only the type of the calls is used.
-/

namespace Cppnet.Spec

/-- What the last call says that says anything. -/
def lastSaid {α β : Type} (said : α → Option β) (cs : List α) : Option β := cs.reverse.findSome? said

/-- The status a call asks for. -/
def saysStatus : RespCall → Option HttpStatus
  | .notFound => some .NOT_FOUND
  | .redirect _ forever => some (if forever then .MOVED_PERMANENTLY else .FOUND)
  | .binary _ | .json _ | .ok | .success _ _ => some .OK
  | .badRequest _ => some .BAD_REQUEST
  | .serverError _ => some .INTERNAL_SERVER_ERROR
  | .jsonWith st _ | .textWith st _ => some st
  | .clear => some .UNKNOWN
  | .field _ _ => none

/-- The body a call gives; `Success()`, and `Success(type)` without a body or with an empty one, give none. -/
def saysBody : RespCall → Option Str
  | .notFound => some b!"<html><body><h1>404 Not Found</h1></body></html>"
  | .redirect _ true => some b!"<html><body><h1>301 Moved Permanently</h1></body></html>"
  | .redirect _ false => some b!"<html><body><h1>302 Found</h1></body></html>"
  | .binary b | .json b | .badRequest b | .serverError b | .jsonWith _ b | .textWith _ b => some b
  | .ok | .field _ _ => none
  | .success _ b => if b = [] then none else some b
  | .clear => some []

/-- The content type a call gives; `none` inside: there is none any more. -/
def saysType (registered : UMap) : RespCall → Option (Option Str)
  | .notFound | .redirect _ _ | .badRequest _ | .serverError _ => some (some b!"text/html")
  | .binary _ => some (some b!"application/octet-stream")
  | .json _ | .jsonWith _ _ => some (some b!"application/json")
  | .textWith _ _ => some (some b!"text/plain")
  | .success t _ => some (some (typeText registered t))
  | .ok => none
  | .clear => some none
  | .field k v => if k = b!"Content-Type" then some (some v) else none

/-- What a call says about another header field. -/
def saysField (k : Str) : RespCall → Option (Option Str)
  | .redirect l _ => if k = b!"Location" then some (some l) else none
  | .clear => some none
  | .field k' v => if k' = k then some (some v) else none
  | _ => none

/-- A call that decides status, body and type. -/
def Decides : RespCall → Prop
  | .ok | .clear | .field _ _ => False
  | .success _ b => b ≠ []
  | _ => True

/-- A call that leaves nothing but status, body and type. -/
def NoOtherField : RespCall → Prop
  | .redirect _ _ | .field _ _ => False
  | _ => True

end Cppnet.Spec
