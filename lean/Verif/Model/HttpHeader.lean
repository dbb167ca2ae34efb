import Verif.Cpp.Map
import Verif.Cpp.Num
import Verif.Model.HttpCodes
import Verif.Model.StringUtil

/-!
# Model of `src/cppnet/http/header/http_header.cpp`

A header is its map; `err_msg_` is modelled in `Model/ErrText`.
-/

namespace Cppnet

/-- http_header.hpp:110, `headers_`. -/
abbrev HttpHeader := UMap

/-- http_header.cpp:18-28, the loop of `HttpHeader::Parse` over the lines.  If the value is empty or
all spaces, `find_first_not_of` is `npos` and `pos + 1 + npos` wraps to `pos`. -/
def headerParseLines : HttpHeader → List Str → Out (HttpHeader × Int)
  | h, [] => .ok (h, kSuccess)
  | h, it :: rest =>
    match find it b!":" with
    | none => .ok (h, kLogicErr)
    | some pos => do
      let key ← substr it 0 pos
      let tail ← substrFrom it (pos + 1)
      let value ← substrFrom it (szAdd (szAdd pos 1) (posOrNpos (findFirstNotOf 32 tail)))
      headerParseLines (h.set key value) rest

/-- http_header.cpp:8-30, `HttpHeader::Parse`: the new header and the return code. -/
def headerParse (h : HttpHeader) (s : Str) : Out (HttpHeader × Int) :=
  if s = [] then .ok (h, kLogicErr)
  else do
    let lines ← Split s crlf [] false
    headerParseLines h lines

/-- http_header.cpp:32-34, `HttpHeader::Add`. -/
def headerAdd (h : HttpHeader) (k v : Str) : HttpHeader := h.set k v

/-- http_header.cpp:36-42, `HttpHeader::Get`. -/
def headerGet (h : HttpHeader) (k : Str) : Str :=
  match h.get k with
  | some v => v
  | none => []

/-- http_header.cpp:53-55, `operator[]` when the reference is only read: a missing key is inserted with an empty
value. -/
def headerIndex (h : HttpHeader) (k : Str) : HttpHeader × Str :=
  match h.get k with
  | some v => (h, v)
  | none => (h.set k [], [])

/-- http_header.cpp:53-55, `header[k] = v`: an assignment through the reference. -/
def headerAssign (h : HttpHeader) (k v : Str) : HttpHeader := (headerIndex h k).1.set k v

/-- http_header.cpp:57, `Clear`. -/
def headerClear (_ : HttpHeader) : HttpHeader := UMap.empty

/-- http_header.cpp:46-48, one entry of `ToString`. -/
def headerLine (p : Str × Str) : Str := p.1 ++ b!": " ++ p.2 ++ crlf

/-- http_header.cpp:44-51, `HttpHeader::ToString`. -/
def headerToString (o : HashOrder) (h : HttpHeader) : Str :=
  ((o.order h).map headerLine).flatten ++ crlf

/-- http_header.hpp:13-26, `enum class ContentType`. -/
inductive ContentType where
  | textPlain | textHtml | textCss | textJavascript | applicationJson | applicationOctetStream
  | imagePng | imageJpeg | imageGif | imageWebp | custom | unknown
  deriving DecidableEq, Repr

/-- http_header.cpp:59-83, `ConvertToContentType`. -/
def contentTypeOfStr (s : Str) : ContentType :=
  if s = b!"text/html" then .textHtml
  else if s = b!"text/plain" then .textPlain
  else if s = b!"text/css" then .textCss
  else if s = b!"text/javascript" then .textJavascript
  else if s = b!"application/octet-stream" then .applicationOctetStream
  else if s = b!"application/json" then .applicationJson
  else if s = b!"image/png" then .imagePng
  else if s = b!"image/jpeg" then .imageJpeg
  else if s = b!"image/gif" then .imageGif
  else if s = b!"image/webp" then .imageWebp
  else .unknown

/-- http_header.cpp:85-110, `ConvertFileType`; `g` is the global `custom_content_type_`. -/
def contentTypeOfFile (g : UMap) (s : Str) : ContentType :=
  if s = b!"html" ∨ s = b!"htm" then .textHtml
  else if s = b!"txt" then .textPlain
  else if s = b!"css" ∨ s = b!"less" then .textCss
  else if s = b!"js" ∨ s = b!"mjs" then .textJavascript
  else if s = b!"json" then .applicationJson
  else if s = b!"png" then .imagePng
  else if s = b!"jpg" ∨ s = b!"jpeg" then .imageJpeg
  else if s = b!"gif" then .imageGif
  else if s = b!"webp" then .imageWebp
  else if (g.get s).isSome then .custom
  else .applicationOctetStream

/-- http_header.cpp:112-141, `ConvertToStr`: the string, and the global map afterwards (137 uses
`operator[]`, which inserts an empty entry for a missing key). -/
def contentTypeToStr (g : UMap) (t : ContentType) (fileType : Str) : Str × UMap :=
  match t with
  | .textPlain => (b!"text/plain", g)
  | .textHtml => (b!"text/html", g)
  | .textCss => (b!"text/css", g)
  | .textJavascript => (b!"text/javascript", g)
  | .applicationJson => (b!"application/json", g)
  | .applicationOctetStream => (b!"application/octet-stream", g)
  | .imagePng => (b!"image/png", g)
  | .imageJpeg => (b!"image/jpeg", g)
  | .imageGif => (b!"image/gif", g)
  | .imageWebp => (b!"image/webp", g)
  | .custom =>
    match g.get fileType with
    | some v => (v, g)
    | none => ([], g.set fileType [])
  | .unknown => (b!"unknown", g)

/-- http_header.cpp:143-150, `GetContentType`. -/
def headerGetContentType (h : HttpHeader) : ContentType :=
  match h.get b!"Content-Type" with
  | none => .unknown
  | some v => contentTypeOfStr v

/-- http_header.cpp:152-155, `SetCustomContentType`. -/
def setCustomContentType (g : UMap) (fileType ct : Str) : UMap := g.set fileType ct

/-- http_header.cpp:159-171, `GetContentLength` (the exceptions of `stoi` are caught). -/
def headerGetContentLength (h : HttpHeader) : Int :=
  match h.get b!"Content-Length" with
  | none => -1
  | some v =>
    match stoi v with
    | .ok n => n
    | .error _ => -1

/-- http_header.cpp:173-180, `GetHost`. -/
def headerGetHost (h : HttpHeader) : Str :=
  match h.get b!"Host" with
  | none => []
  | some v => v

/-- http_header.cpp:182-184, `SetContentLength(int)`. -/
def headerSetContentLength (h : HttpHeader) (n : Int) : HttpHeader :=
  h.set b!"Content-Length" (intToStr n)

/-- http_header.cpp:186-188, `SetContentType(ContentType)`: header and global map afterwards. -/
def headerSetContentType (g : UMap) (h : HttpHeader) (t : ContentType) : HttpHeader × UMap :=
  let r := contentTypeToStr g t []
  (h.set b!"Content-Type" r.1, r.2)

/-- http_header.cpp:190-192, `SetContentType(const std::string &)`. -/
def headerSetContentTypeStr (h : HttpHeader) (s : Str) : HttpHeader := h.set b!"Content-Type" s

/-- http_header.cpp:194, `SetHost`. -/
def headerSetHost (h : HttpHeader) (s : Str) : HttpHeader := h.set b!"Host" s

/-- http_header.cpp:196-202, `SetLongConnection`. -/
def headerSetLongConnection (h : HttpHeader) (b : Bool) : HttpHeader :=
  h.set b!"Connection" (if b then b!"keep-alive" else b!"close")

/-- http_header.hpp:97-105, `struct Cookie`. -/
structure Cookie where
  key : Str
  value : Str
  expires : Str := []
  path : Str := []
  domain : Str := []
  secure : Bool := false
  httpOnly : Bool := false

/-- http_header.cpp:205-220, the text of one cookie. -/
def cookieText (c : Cookie) : Str :=
  c.key ++ b!"=" ++ c.value ++
  (if c.expires = [] then [] else b!"; expires=" ++ c.expires) ++
  (if c.path = [] then [] else b!"; path=" ++ c.path) ++
  (if c.domain = [] then [] else b!"; domain=" ++ c.domain) ++
  (if c.secure then b!"; secure" else []) ++
  (if c.httpOnly then b!"; HttpOnly" else [])

/-- http_header.cpp:204-226, `SetCookie`. -/
def headerSetCookie (h : HttpHeader) (c : Cookie) : HttpHeader :=
  match h.get b!"Set-Cookie" with
  | none => h.set b!"Set-Cookie" (cookieText c)
  | some v => h.set b!"Set-Cookie" (v ++ b!"; " ++ cookieText c)

/-- http_header.cpp:235-246, the loop of `GetCookieVal`.  An item with a `=` has a non-space
byte, so `find_first_not_of` does not return `npos`. -/
def cookieLoop (key : Str) : List Str → Out Str
  | [] => .ok []
  | cookie :: rest =>
    match find cookie b!"=" with
    | none => cookieLoop key rest
    | some pos => do
      let off := posOrNpos (findFirstNotOf 32 cookie)
      let cookieKey ← substr cookie off (szSub pos off)
      let cookieVal ← substrFrom cookie (pos + 1)
      if cookieKey = key then .ok cookieVal else cookieLoop key rest

/-- http_header.cpp:228-248, `GetCookieVal`. -/
def headerGetCookieVal (h : HttpHeader) (key : Str) : Out Str :=
  match h.get b!"Cookie" with
  | none => .ok []
  | some v => do
    let cookies ← Split v b!";" [] false
    cookieLoop key cookies

/-- The calls that change a header (http_header.hpp:49-107); `SetCookie` and `Parse` are not among them. -/
inductive HdrCall where
  | add (k v : Str)
  | assign (k v : Str)
  | index (k : Str)
  | setHost (v : Str)
  | setType (t : ContentType)
  | setTypeStr (v : Str)
  | setLength (n : Int)
  | setLong (b : Bool)
  | clear
  deriving DecidableEq, Repr

/-- One call (http_header.cpp:32-202); the state is the header and the global `custom_content_type_`. -/
def hdrCall : HttpHeader × UMap → HdrCall → HttpHeader × UMap
  | (h, g), .add k v => (headerAdd h k v, g)
  | (h, g), .assign k v => (headerAssign h k v, g)
  | (h, g), .index k => ((headerIndex h k).1, g)
  | (h, g), .setHost v => (headerSetHost h v, g)
  | (h, g), .setType t => headerSetContentType g h t
  | (h, g), .setTypeStr v => (headerSetContentTypeStr h v, g)
  | (h, g), .setLength n => (headerSetContentLength h n, g)
  | (h, g), .setLong b => (headerSetLongConnection h b, g)
  | (h, g), .clear => (headerClear h, g)

/-- A header object (http_header.hpp:35) after a sequence of calls; `g` is the global map at the start. -/
def hdrCalls (g : UMap) (calls : List HdrCall) : HttpHeader × UMap := calls.foldl hdrCall (UMap.empty, g)

end Cppnet
