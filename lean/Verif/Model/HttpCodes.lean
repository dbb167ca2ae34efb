import Verif.Cpp.Basic

/-!
# Return codes, methods, versions, status codes
-/

namespace Cppnet

/-- utils/const.hpp:7-12, `enum RC`. -/
def kSuccess : Int := 0
/-- const.hpp:9 -/
def kSysErr : Int := -1
/-- const.hpp:10 -/
def kLogicErr : Int := -2
/-- const.hpp:11 -/
def kNotSupport : Int := -3

/-- http_method.hpp, `enum class HttpMethod`. -/
inductive HttpMethod where
  | GET | POST | PUT | DELETE | HEAD | OPTIONS | PATCH | TRACE | CONNECT | UNKNOWN
  deriving DecidableEq, Repr

/-- http_method.cpp:5-28, `HttpMethodUtil::ConvertToStr`. -/
def methodToStr : HttpMethod → Str
  | .GET => b!"GET"
  | .POST => b!"POST"
  | .PUT => b!"PUT"
  | .DELETE => b!"DELETE"
  | .HEAD => b!"HEAD"
  | .OPTIONS => b!"OPTIONS"
  | .PATCH => b!"PATCH"
  | .TRACE => b!"TRACE"
  | .CONNECT => b!"CONNECT"
  | .UNKNOWN => b!"UNKNOWN"

/-- http_method.cpp:30-51, `HttpMethodUtil::ConvertToMethod`. -/
def methodOfStr (s : Str) : HttpMethod :=
  if s = b!"GET" then .GET
  else if s = b!"POST" then .POST
  else if s = b!"PUT" then .PUT
  else if s = b!"DELETE" then .DELETE
  else if s = b!"HEAD" then .HEAD
  else if s = b!"OPTIONS" then .OPTIONS
  else if s = b!"PATCH" then .PATCH
  else if s = b!"TRACE" then .TRACE
  else if s = b!"CONNECT" then .CONNECT
  else .UNKNOWN

/-- http_version.hpp, `enum class HttpVersion`. -/
inductive HttpVersion where
  | HTTP_1_0 | HTTP_1_1 | HTTP_2_0 | UNKNOWN
  deriving DecidableEq, Repr

/-- http_version.cpp:6-17, `HttpVersionUtil::ConvertToStr`. -/
def versionToStr : HttpVersion → Str
  | .HTTP_1_0 => b!"HTTP/1.0"
  | .HTTP_1_1 => b!"HTTP/1.1"
  | .HTTP_2_0 => b!"HTTP/2.0"
  | .UNKNOWN => b!"UNKNOWN"

/-- http_version.cpp:19-28, `HttpVersionUtil::ConvertToVersion`. -/
def versionOfStr (s : Str) : HttpVersion :=
  if s = b!"HTTP/1.0" then .HTTP_1_0
  else if s = b!"HTTP/1.1" then .HTTP_1_1
  else if s = b!"HTTP/2.0" then .HTTP_2_0
  else .UNKNOWN

/-- http_status_code.hpp, `enum class HttpStatusCode`. -/
inductive HttpStatus where
  | OK | CREATED | ACCEPTED | NO_CONTENT | PARTIAL_CONTENT | MOVED_PERMANENTLY | FOUND | BAD_REQUEST
  | UNAUTHORIZED | FORBIDDEN | NOT_FOUND | METHOD_NOT_ALLOWED | INTERNAL_SERVER_ERROR | UNKNOWN
  deriving DecidableEq, Repr

/-- http_status_code.hpp: the numeric value of the enumerator, `(int)code`. -/
def statusNum : HttpStatus → Int
  | .OK => 200
  | .CREATED => 201
  | .ACCEPTED => 202
  | .NO_CONTENT => 204
  | .PARTIAL_CONTENT => 206
  | .MOVED_PERMANENTLY => 301
  | .FOUND => 302
  | .BAD_REQUEST => 400
  | .UNAUTHORIZED => 401
  | .FORBIDDEN => 403
  | .NOT_FOUND => 404
  | .METHOD_NOT_ALLOWED => 405
  | .INTERNAL_SERVER_ERROR => 500
  | .UNKNOWN => -1

/-- http_status_code.cpp:5-36, `HttpStatusCodeUtil::ConvertToStr`. -/
def statusToStr : HttpStatus → Str
  | .OK => b!"OK"
  | .CREATED => b!"Created"
  | .ACCEPTED => b!"Accepted"
  | .NO_CONTENT => b!"No Content"
  | .PARTIAL_CONTENT => b!"Partial Content"
  | .BAD_REQUEST => b!"Bad Request"
  | .UNAUTHORIZED => b!"Unauthorized"
  | .FORBIDDEN => b!"Forbidden"
  | .NOT_FOUND => b!"Not Found"
  | .METHOD_NOT_ALLOWED => b!"Method Not Allowed"
  | .INTERNAL_SERVER_ERROR => b!"Internal Server Error"
  | .MOVED_PERMANENTLY => b!"Moved Permanently"
  | .FOUND => b!"Found"
  | .UNKNOWN => b!"Unknown"

/-- http_status_code.cpp:38-68, `HttpStatusCodeUtil::ConvertToCode(const std::string &)`. -/
def statusOfStr (s : Str) : HttpStatus :=
  if s = b!"OK" then .OK
  else if s = b!"Created" then .CREATED
  else if s = b!"Accepted" then .ACCEPTED
  else if s = b!"No Content" then .NO_CONTENT
  else if s = b!"Partial Content" then .PARTIAL_CONTENT
  else if s = b!"Bad Request" then .BAD_REQUEST
  else if s = b!"Unauthorized" then .UNAUTHORIZED
  else if s = b!"Forbidden" then .FORBIDDEN
  else if s = b!"Not Found" then .NOT_FOUND
  else if s = b!"Method Not Allowed" then .METHOD_NOT_ALLOWED
  else if s = b!"Internal Server Error" then .INTERNAL_SERVER_ERROR
  else if s = b!"Moved Permanently" then .MOVED_PERMANENTLY
  else if s = b!"Found" then .FOUND
  else .UNKNOWN

/-- http_status_code.cpp:70-101, `HttpStatusCodeUtil::ConvertToCode(int)`. -/
def statusOfInt (n : Int) : HttpStatus :=
  if n = 200 then .OK
  else if n = 201 then .CREATED
  else if n = 202 then .ACCEPTED
  else if n = 204 then .NO_CONTENT
  else if n = 206 then .PARTIAL_CONTENT
  else if n = 301 then .MOVED_PERMANENTLY
  else if n = 302 then .FOUND
  else if n = 400 then .BAD_REQUEST
  else if n = 401 then .UNAUTHORIZED
  else if n = 403 then .FORBIDDEN
  else if n = 404 then .NOT_FOUND
  else if n = 405 then .METHOD_NOT_ALLOWED
  else if n = 500 then .INTERNAL_SERVER_ERROR
  else .UNKNOWN

end Cppnet
