import Verif.Cpp.Map
import Verif.Cpp.Num
import Verif.Model.HttpCodes
import Verif.Model.StringUtil

/-!
# Model of `src/cppnet/http/req/route/http_route.cpp` (`err_msg_` is modelled in `Model/ErrText`)
-/

namespace Cppnet

/-- http_route.hpp:68-71, the members. -/
structure HttpRoute where
  path : Str := []
  params : UMap := UMap.empty
  deriving DecidableEq

/-- http_route.cpp:26-37, the loop of `HttpRoute::Parse` over the `&`-separated items. -/
def routeParams : UMap → List Str → Out UMap
  | m, [] => .ok m
  | m, it :: rest =>
    match find it b!"=" with
    | none => routeParams (m.set it []) rest
    | some pos => do
      let key ← substr it 0 pos
      let raw ← substrFrom it (pos + 1)
      routeParams (m.set key (UrlDecode raw)) rest

/-- http_route.cpp:8-41, `HttpRoute::Parse`.  `int param_start` (14) narrows the position; 15
compares it with `npos` after conversion back to `size_t`, which is true exactly for -1; `param_start
+ 1` (21) is signed. -/
def routeParse (r : HttpRoute) (s : Str) : Out (HttpRoute × Int) :=
  if s = [] then .ok (r, kLogicErr)
  else
    let start : Int := match find s b!"?" with
      | none => -1
      | some p => toInt32 p
    if start = -1 then .ok ({ r with path := s }, kSuccess)
    else if start = intMax then .error .ub
    else do
      let param ← substrFrom s (intToSize (start + 1))
      let items ← Split param b!"&" [] false
      let params ← routeParams r.params items
      let path ← substr s 0 (intToSize start)
      .ok ({ path, params }, kSuccess)

/-- http_route.cpp:43-49, `GetParam`. -/
def routeGetParam (r : HttpRoute) (k : Str) : Str :=
  match r.params.get k with
  | some v => v
  | none => []

/-- http_route.cpp:51-53, `AddParam`. -/
def routeAddParam (r : HttpRoute) (k v : Str) : HttpRoute := { r with params := r.params.set k v }

/-- http_route.hpp:53-55, `operator[]` when the reference is only read: a missing key is inserted with an empty
value. -/
def routeIndex (r : HttpRoute) (k : Str) : HttpRoute × Str :=
  match r.params.get k with
  | some v => (r, v)
  | none => ({ r with params := r.params.set k [] }, [])

/-- http_route.hpp:53-55, `route[k] = v`. -/
def routeAssign (r : HttpRoute) (k v : Str) : HttpRoute :=
  let r := (routeIndex r k).1
  { r with params := r.params.set k v }

/-- http_route.hpp:36, `SetPath`. -/
def routeSetPath (r : HttpRoute) (p : Str) : HttpRoute := { r with path := p }

/-- http_route.hpp:42, `GetPath`. -/
def routeGetPath (r : HttpRoute) : Str := r.path

/-- http_route.cpp:59-61, one parameter of `ToString`. -/
def paramText (p : Str × Str) : Str := p.1 ++ b!"=" ++ p.2 ++ b!"&"

/-- http_route.cpp:55-66, `ToString`. -/
def routeToString (o : HashOrder) (r : HttpRoute) : Str :=
  UrlEncode (r.path ++
    (if r.params.entries = [] then []
     else (b!"?" ++ ((o.order r.params).map paramText).flatten).dropLast))

/-- http_route.cpp:68-71, `Clear`. -/
def routeClear (_ : HttpRoute) : HttpRoute := {}

/-- The calls that change a route (http_route.hpp:23-65) except `Parse`. -/
inductive RouteCall where
  | add (k v : Str)
  | assign (k v : Str)
  | index (k : Str)
  | setPath (p : Str)
  | clear
  deriving DecidableEq, Repr

/-- One call (http_route.cpp:51-71). -/
def routeCall : HttpRoute → RouteCall → HttpRoute
  | r, .add k v => routeAddParam r k v
  | r, .assign k v => routeAssign r k v
  | r, .index k => (routeIndex r k).1
  | r, .setPath p => routeSetPath r p
  | r, .clear => routeClear r

/-- A route object (http_route.hpp:8-70) after a sequence of calls. -/
def routeCalls (calls : List RouteCall) : HttpRoute := calls.foldl routeCall {}

end Cppnet
