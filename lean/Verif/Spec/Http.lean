import Verif.Cpp.Map
import Verif.Spec.Strings
import Verif.Model.HttpHeader

/-!
# Specifications for the HTTP messages, independent of the model
-/

namespace Cppnet.Spec

/-- The length limit of every `std::string` (`max_size()` is below 2^63). -/
def Fits (s : Str) : Prop := s.length < 2 ^ 63

/-- The text before the first `c` (all of it if there is none). -/
def before (c : Byte) (s : Str) : Str := s.takeWhile (fun x => x != c)

/-- The text after the first `c` (empty if there is none). -/
def after (c : Byte) (s : Str) : Str := (s.dropWhile (fun x => x != c)).drop 1

/-- Remove leading spaces. -/
def trimLeft (s : Str) : Str := s.dropWhile (fun x => x == 32)

/-- Nothing but spaces. -/
def Blank (s : Str) : Prop := ∀ c ∈ s, c = 32

/-- `ps` are the pieces of `s` between the (leftmost) occurrences of `d`. -/
def Pieces (d s : Str) (ps : List Str) : Prop := joinWith d ps = s ∧ LeftmostCuts d ps

/-- Name and value of a header line: cut at the first colon, leading spaces of the value removed. -/
def headerField (line : Str) : Str × Str := (before 58 line, trimLeft (after 58 line))

/-- The value of the last pair with key `k`. -/
def lastFor (k : Str) (fields : List (Str × Str)) : Option Str :=
  (fields.filter (fun p => p.1 = k)).getLast?.map Prod.snd

/-- Two maps with the same contents. -/
def SameMap (m m' : UMap) : Prop := ∀ k, m.get k = m'.get k

/-- A header that survives the wire: no colon in the name, no CR in name and value, the value is not
empty and does not start with a space. -/
def WireField (k v : Str) : Prop := 58 ∉ k ∧ 13 ∉ k ∧ 13 ∉ v ∧ ∃ c t, v = c :: t ∧ c ≠ 32

/-- All headers of the map survive the wire. -/
def WireHeaders (h : UMap) : Prop := ∀ k v, h.get k = some v → WireField k v

/-- A path and parameters that survive the wire: the path is not empty and, like the parameter names,
made of bytes that need no escaping; the path has no `?`, the names have no `=` and `&`, the values have
no `&`. -/
def WireRoute (path : Str) (params : UMap) : Prop :=
  path ≠ [] ∧ path.length < 2 ^ 31 - 1 ∧ (∀ c ∈ path, Plain c ∧ c ≠ 63) ∧
  ∀ k v, params.get k = some v → (∀ c ∈ k, Plain c ∧ c ≠ 61 ∧ c ≠ 38) ∧ 38 ∉ v

/-- The shape of a message: first line, header lines, a blank line, body.  The first line and the
header lines have no CRLF inside, the header lines are not empty. -/
def MessageText (s line : Str) (hdrs : List Str) (body : Str) : Prop :=
  s = line ++ crlf ++ (hdrs.map (· ++ crlf)).flatten ++ crlf ++ body ∧ ¬ Occurs crlf line ∧
  ∀ h ∈ hdrs, h ≠ [] ∧ ¬ Occurs crlf h

/-- `line` is `m t v`: three tokens without spaces, separated by single spaces. -/
def ThreeTokens (line m t v : Str) : Prop :=
  line = m ++ b!" " ++ t ++ b!" " ++ v ∧ 32 ∉ m ∧ 32 ∉ t ∧ 32 ∉ v

/-- A status line: version, numeric code, reason phrase. -/
def StatusLine (line v code phrase : Str) : Prop :=
  line = v ++ b!" " ++ code ++ b!" " ++ phrase ∧ 32 ∉ v ∧ 32 ∉ code

/-- Is the byte a decimal digit? -/
def DecDigit (c : Byte) : Prop := 48 ≤ c ∧ c ≤ 57

/-- The number a string of decimal digits denotes. -/
def decimal : Str → Nat
  | [] => 0
  | c :: cs => (c.toNat - 48) * 10 ^ cs.length + decimal cs

/-- White space: tab, line feed, vertical tab, form feed, carriage return, space. -/
def WhiteSpace (c : Byte) : Prop := c ∈ ([9, 10, 11, 12, 13, 32] : List UInt8)

/-- `s` begins with a decimal numeral of value `v` (after white space, with an optional sign); the
digits are taken as far as they go. -/
def LeadingNumeral (s : Str) (v : Int) : Prop :=
  ∃ ws sign ds rest, s = ws ++ sign ++ ds ++ rest ∧ (∀ c ∈ ws, WhiteSpace c) ∧
    ds ≠ [] ∧ (∀ c ∈ ds, DecDigit c) ∧ (∀ c t, rest = c :: t → ¬ DecDigit c) ∧
    ((sign = b!"-" ∧ v = -(decimal ds : Int)) ∨ ((sign = b!"+" ∨ sign = []) ∧ v = decimal ds))

/-- The method names of RFC 9110 (and PATCH, RFC 5789). -/
def methodTable : List (HttpMethod × Str) :=
  [(.GET, b!"GET"), (.HEAD, b!"HEAD"), (.POST, b!"POST"), (.PUT, b!"PUT"), (.DELETE, b!"DELETE"),
   (.CONNECT, b!"CONNECT"), (.OPTIONS, b!"OPTIONS"), (.TRACE, b!"TRACE"), (.PATCH, b!"PATCH")]

/-- The version names. -/
def versionTable : List (HttpVersion × Str) :=
  [(.HTTP_1_0, b!"HTTP/1.0"), (.HTTP_1_1, b!"HTTP/1.1"), (.HTTP_2_0, b!"HTTP/2.0")]

/-- The status codes and reason phrases of RFC 9110 that the library knows. -/
def statusTable : List (HttpStatus × Int × Str) :=
  [(.OK, 200, b!"OK"), (.CREATED, 201, b!"Created"), (.ACCEPTED, 202, b!"Accepted"),
   (.NO_CONTENT, 204, b!"No Content"), (.PARTIAL_CONTENT, 206, b!"Partial Content"),
   (.MOVED_PERMANENTLY, 301, b!"Moved Permanently"), (.FOUND, 302, b!"Found"),
   (.BAD_REQUEST, 400, b!"Bad Request"), (.UNAUTHORIZED, 401, b!"Unauthorized"),
   (.FORBIDDEN, 403, b!"Forbidden"), (.NOT_FOUND, 404, b!"Not Found"),
   (.METHOD_NOT_ALLOWED, 405, b!"Method Not Allowed"),
   (.INTERNAL_SERVER_ERROR, 500, b!"Internal Server Error")]

/-- The built-in content types, their names, and the file suffixes they belong to. -/
def contentTable : List (ContentType × Str × List Str) :=
  [(.textHtml, b!"text/html", [b!"html", b!"htm"]),
   (.textPlain, b!"text/plain", [b!"txt"]),
   (.textCss, b!"text/css", [b!"css", b!"less"]),
   (.textJavascript, b!"text/javascript", [b!"js", b!"mjs"]),
   (.applicationJson, b!"application/json", [b!"json"]),
   (.imagePng, b!"image/png", [b!"png"]),
   (.imageJpeg, b!"image/jpeg", [b!"jpg", b!"jpeg"]),
   (.imageGif, b!"image/gif", [b!"gif"]),
   (.imageWebp, b!"image/webp", [b!"webp"]),
   (.applicationOctetStream, b!"application/octet-stream", [])]

/-- The suffixes that have a built-in type. -/
def builtinSuffixes : List Str := (contentTable.map (fun r => r.2.2)).flatten

end Cppnet.Spec
