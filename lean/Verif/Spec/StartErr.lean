import Verif.Spec.ErrText
import Verif.Model.StartErr

/-!
# Why a server cannot start and a client cannot connect or send
-/

namespace Cppnet.Spec

/-- The first thing that goes wrong when a server starts on `addr`, and the text that says so. -/
inductive StartReason (addr : Address) (a : InitAns) (x : ErrnoText) : Str → Prop
  | socket : a.socket < 0 → StartReason addr a x (b!"[syserr]:" ++ x .socket)
  | reuse : 0 ≤ a.socket → a.reuse < 0 → StartReason addr a x (b!"[syserr]:" ++ x .setReuse)
  | address : 0 ≤ a.socket → 0 ≤ a.reuse → addressPort addr = 0 → StartReason addr a x b!"[logicerr]:ip or port is invalid"
  | bind : 0 ≤ a.socket → 0 ≤ a.reuse → addressPort addr ≠ 0 → a.bind < 0 → StartReason addr a x (b!"[syserr]:" ++ x .bind)
  | listen : 0 ≤ a.socket → 0 ≤ a.reuse → addressPort addr ≠ 0 → 0 ≤ a.bind → a.listen < 0 →
      StartReason addr a x (b!"[syserr]:" ++ x .listen)
  | epoll : 0 ≤ a.socket → 0 ≤ a.reuse → addressPort addr ≠ 0 → 0 ≤ a.bind → 0 ≤ a.listen → a.epoll < 0 →
      StartReason addr a x (b!"[syserr]:[syserr]:" ++ x .epollCreate)
  | watch : 0 ≤ a.socket → 0 ≤ a.reuse → addressPort addr ≠ 0 → 0 ≤ a.bind → 0 ≤ a.listen → 0 ≤ a.epoll → a.add < 0 →
      StartReason addr a x (b!"[syserr]:[syserr]:" ++ x .ctlAdd)

/-- What went wrong when a request was sent on a connection, and the text that says so. -/
inductive SendReason (req : HttpReq) (input : Str) : Str → Prop
  | request : req.method = .UNKNOWN ∨ req.version = .UNKNOWN → SendReason req input b!"[req.Build]:[logicerr]:invalid http request"
  | nothing : input = [] → SendReason req input b!"[logicerr]:empty http response"
  | response {head why} : head <+: input → RespReason head why → SendReason req input (b!"[resp.Parse]:" ++ why)
  | body {head rest} : input = head ++ crlf2 ++ rest →
      (∃ resp q, respParse resp (head ++ crlf2) = .ok (q, kSuccess) ∧ (rest.length : Int) < headerGetContentLength q.header) →
      SendReason req input b!"[logicerr]:invalid http response"

end Cppnet.Spec
