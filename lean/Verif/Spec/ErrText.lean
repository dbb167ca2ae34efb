import Verif.Spec.Http

/-!
# Why a message cannot be parsed
-/

namespace Cppnet.Spec

/-- What is wrong with the request `s`, and the text that says so. -/
inductive ReqReason (s : Str) : Str → Prop
  | empty : s = [] → ReqReason s b!"[logicerr]:empty http request"
  | unfinished : s ≠ [] → ¬ Occurs crlf2 s → ReqReason s b!"[logicerr]:can't find endof header"
  | tokens {line hdrs body} : MessageText s line hdrs body → (∀ m t v, ¬ ThreeTokens line m t v) →
      ReqReason s b!"[logicerr]:invalid http request"
  | method {line hdrs body m t v} : MessageText s line hdrs body → ThreeTokens line m t v →
      (∀ me, (me, m) ∉ methodTable) → ReqReason s b!"[logicerr]:invalid http method"
  | path {line hdrs body me m v} : MessageText s line hdrs body → ThreeTokens line m [] v →
      (me, m) ∈ methodTable → ReqReason s b!"path is empty"
  | version {line hdrs body me m t v} : MessageText s line hdrs body → ThreeTokens line m t v →
      (me, m) ∈ methodTable → t ≠ [] → (∀ ve, (ve, v) ∉ versionTable) → ReqReason s b!"[logicerr]:invalid http version"

/-- `line` is the first line of `s`. -/
def FirstLine (s line : Str) : Prop := ∃ rest, s = line ++ crlf ++ rest ∧ ¬ Occurs crlf line

/-- What is wrong with the response `s`, and the text that says so. -/
inductive RespReason (s : Str) : Str → Prop
  | empty : s = [] → RespReason s b!"empty http response"
  | noLine : s ≠ [] → ¬ Occurs crlf s → RespReason s b!"header format error"
  | tokens {line} : FirstLine s line → (∀ v code phrase, ¬ StatusLine line v code phrase) → RespReason s b!"first line format error"
  | code {line v code phrase} : FirstLine s line → StatusLine line v code phrase →
      (∀ n, intMin ≤ n → n ≤ intMax → ¬ LeadingNumeral code n) → RespReason s b!"status code format error"
  | noHeader {line} : s = line ++ crlf → ¬ Occurs crlf line → RespReason s b!"header is empty\n"
  /-- A header line has no colon. -/
  | header {line hdrs body} : MessageText s line hdrs body → (∃ h ∈ hdrs, 58 ∉ h) →
      RespReason s (b!"header format error\n" ++ joinWith crlf hdrs)
  /-- The response has no header lines, or the header block is not finished, and a line after the first has no colon. -/
  | rest {line rest pieces} : s = line ++ crlf ++ rest → ¬ Occurs crlf line → rest ≠ [] →
      (∀ hdrs body, hdrs ≠ [] → ¬ MessageText s line hdrs body) → Pieces crlf rest pieces → (∃ p ∈ pieces, 58 ∉ p) →
      RespReason s (b!"header format error\n" ++ rest)

end Cppnet.Spec
