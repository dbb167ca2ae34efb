import Verif.Model.HttpMsg

/-!
# Several calls on one response

Every handler of a request gets the same response object (`http_server.hpp:52`, `resp()`), and each may call the helpers of
`src/cppnet/http/resp/http_resp.hpp:48-64`.
-/

namespace Cppnet

/-- A call on a response (http_resp.hpp:33-64): the helpers, `Clear()`, and `header()[k] = v`. -/
inductive RespCall where
  | notFound
  | redirect (location : Str) (forever : Bool)
  | binary (body : Str)
  | json (body : Str)
  | ok
  | success (t : ContentType) (body : Str)
  | badRequest (body : Str)
  | serverError (body : Str)
  | jsonWith (status : HttpStatus) (body : Str)
  | textWith (status : HttpStatus) (body : Str)
  | clear
  | field (k v : Str)

/-- What each call does (http_resp.cpp:92-159, http_resp.hpp:53; http_header.hpp:69 for a field); `g` is the global map of the custom
content types. -/
def RespCall.apply (s : HttpResp × UMap) : RespCall → HttpResp × UMap
  | .notFound => (respNotFound s.1, s.2)
  | .redirect l f => (respRedirect s.1 l f, s.2)
  | .binary b => (respSuccessWithBinary s.1 b, s.2)
  | .json b => (respSuccessWithJson s.1 b, s.2)
  | .ok => (respSuccess0 s.1, s.2)
  | .success t b => respSuccess s.2 s.1 t b
  | .badRequest b => (respBadRequest s.1 b, s.2)
  | .serverError b => (respInternalServerError s.1 b, s.2)
  | .jsonWith st b => (respJson s.1 st b, s.2)
  | .textWith st b => (respText s.1 st b, s.2)
  | .clear => (respClear s.1, s.2)
  | .field k v => ({ s.1 with header := s.1.header.set k v }, s.2)

/-- The response after the calls (http_server.cpp:321: each request has a new one). -/
def respAfter (g : UMap) (cs : List RespCall) : HttpResp := (cs.foldl RespCall.apply ({}, g)).1

end Cppnet
