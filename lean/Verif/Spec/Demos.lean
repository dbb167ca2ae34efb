import Verif.Spec.Conversation
import Verif.Spec.Server

/-!
# What the example programs are to answer
-/

namespace Cppnet.Spec

/-- `text` is one complete request, as in `CompleteRequest`, and `q` is what the handlers see of it (of the body, up to the first
NUL byte, C35). -/
def RequestIs (q : HttpReq) (text : Str) : Prop :=
  ∃ head body q0, text = head ++ crlf2 ++ body ∧ ¬ Occurs crlf2 (head ++ crlf2.dropLast) ∧
    reqParse {} (head ++ crlf2) = .ok (q0, kSuccess) ∧ q = { q0 with body := cString body } ∧
    (body.length : Int) = max 0 (headerGetContentLength q0.header) ∧ body.length ≤ maxRw ∧ (head ++ crlf2).length < 2 ^ 31

/-- `text` is one complete request for this path. -/
def RequestFor (path text : Str) : Prop := ∃ q, RequestIs q text ∧ q.route.path = path

/-- `text` is an answer with this status, these header lines in some order, and this body. -/
def Answer (status : Str) (fields : List Str) (body text : Str) : Prop :=
  ∃ lines : List Str, lines.Perm fields ∧
    text = b!"HTTP/1.1 " ++ status ++ b!"\r\n" ++ (lines.map (· ++ b!"\r\n")).flatten ++ b!"\r\n" ++ body

/-- `f` is a file with this content. -/
def HasFile (fs : FileSys) (f content : Str) : Prop := fs (cString f) = .file (some content)

/-- There is no file `f`. -/
def NoFile (fs : FileSys) (f : Str) : Prop := fs (cString f) = .missing ∨ fs (cString f) = .other

/-- The page of the hello-world program on the wire: the two header lines may come in either order. -/
def HelloAnswer (text : Str) : Prop :=
  text = b!"HTTP/1.1 200 OK\r\nContent-Type: text/html\r\nContent-Length: 22\r\n\r\n<h1>Hello, World!</h1>" ∨
  text = b!"HTTP/1.1 200 OK\r\nContent-Length: 22\r\nContent-Type: text/html\r\n\r\n<h1>Hello, World!</h1>"

/-- The answer for a page that does not exist. -/
def MissingAnswer (text : Str) : Prop :=
  text = b!"HTTP/1.1 404 Not Found\r\nContent-Type: text/html\r\nContent-Length: 48\r\n\r\n<html><body><h1>404 Not Found</h1></body></html>" ∨
  text = b!"HTTP/1.1 404 Not Found\r\nContent-Length: 48\r\nContent-Type: text/html\r\n\r\n<html><body><h1>404 Not Found</h1></body></html>"

/-- The answer of the hello-world program to a request for a path. -/
def HelloFor (path answer : Str) : Prop :=
  (path = b!"/" → HelloAnswer answer) ∧ (path ≠ b!"/" → MissingAnswer answer)

/-- The answers of `simple-http-server` to a request: the index page, the two pages of the program, and the files of the
directory. -/
structure SimpleFor (fs : FileSys) (q : HttpReq) (answer : Str) : Prop where
  index : q.method = .GET → q.route.path = b!"/" → NoFile fs b!"../asset/blog-home//" →
    ∀ c, HasFile fs b!"../asset/index.html" c → c.length < 2 ^ 31 →
    Answer b!"200 OK" [b!"Connection: keep-alive", b!"Content-Type: text/html", b!"Content-Length: " ++ intToStr c.length] c answer
  noIndex : q.method = .GET → q.route.path = b!"/" → NoFile fs b!"../asset/blog-home//" → NoFile fs b!"../asset/index.html" →
    MissingAnswer answer
  hello : q.route.path = b!"/hello" → q.method ≠ .GET ∨ NoFile fs b!"../asset/blog-home//hello" →
    Answer b!"200 OK" [b!"Content-Type: text/plain", b!"Content-Length: 11"] b!"hello world" answer
  world : q.route.path = b!"/world" → q.method ≠ .GET ∨ NoFile fs b!"../asset/blog-home//world" →
    Answer b!"302 Found" [b!"Content-Type: text/html", b!"Location: https://chenxuanweb.top", b!"Content-Length: 44"]
      b!"<html><body><h1>302 Found</h1></body></html>" answer
  file : ∀ name, q.method = .GET → q.route.path = b!"/" ++ name → name ≠ [] → name ≠ b!"hello" → name ≠ b!"world" →
    ¬ Occurs b!".." name → ∀ c, HasFile fs (b!"../asset/blog-home//" ++ name) c → c.length < 2 ^ 31 →
    ∃ type, Answer b!"200 OK" [b!"Connection: keep-alive", b!"Content-Type: " ++ type, b!"Content-Length: " ++ intToStr c.length] c answer
  missing : q.route.path ∉ [b!"/hello", b!"/world"] →
    (q.method ≠ .GET ∨ ¬ b!"/" <+: q.route.path ∨ ∃ name, q.route.path = b!"/" ++ name ∧ name ≠ [] ∧
      (Occurs b!".." name ∨ NoFile fs (b!"../asset/blog-home//" ++ name))) → MissingAnswer answer

/-- The picture is one of 28 rows of 28 numbers each. -/
def Picture (data : List (List Int)) : Prop := data.length = 28 ∧ ∀ row ∈ data, row.length = 28

end Cppnet.Spec
