import Verif.Spec.Http
import Verif.Cpp.Num

/-!
# How HTTP/1.1 delimits a message body (RFC 9112, section 6), and how header names are compared (RFC 9110, 5.1)
-/

namespace Cppnet.Spec

/-- Lower case (ASCII). -/
def lower (s : Str) : Str := s.map fun c => if 65 ≤ c ∧ c ≤ 90 then c + 32 else c

/-- The header line has this name, in whatever case. -/
def Named (name line : Str) : Prop := 58 ∈ line ∧ lower (before 58 line) = lower name

/-- A number in hexadecimal. -/
def hexText (n : Nat) : Str := (Nat.toDigits 16 n).map fun c => c.toNat.toUInt8

/-- The chunked transfer coding: each chunk with its length, then an empty one. -/
def chunked (chunks : List Str) : Str :=
  (chunks.map fun c => hexText c.length ++ crlf ++ c ++ crlf).flatten ++ b!"0" ++ crlf ++ crlf

/-- `wire` is a way HTTP/1.1 allows to transmit `body` behind these header lines (in a request, and in a response on a
connection that stays open). -/
inductive Framed (hdrs : List Str) (body : Str) : Str → Prop
  | length {line} : line ∈ hdrs → Named b!"Content-Length" line → (headerField line).2 = intToStr body.length → Framed hdrs body body
  | chunks {line} (cs : List Str) : line ∈ hdrs → Named b!"Transfer-Encoding" line → (headerField line).2 = b!"chunked" →
      (∀ c ∈ cs, c ≠ []) → cs.flatten = body → Framed hdrs body (chunked cs)

/-- The same for a response, which may also end with the connection if it names no length. -/
def FramedResponse (hdrs : List Str) (body wire : Str) : Prop :=
  Framed hdrs body wire ∨
  (wire = body ∧ ∀ l ∈ hdrs, ¬ Named b!"Content-Length" l ∧ ¬ Named b!"Transfer-Encoding" l)

end Cppnet.Spec
