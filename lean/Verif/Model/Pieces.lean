import Verif.Model.Socket

/-!
# A server whose callback reads in pieces

The TCP server of the README (README.md:129-160): at each report the callback calls `fd.Read(buf, len)` once; and the variant that reads
until nothing is left, which is for `Epoll::kEdgeTrigger` (where the sockets do not block, epoll.cpp:22-27).  One connection, in the
mode without threads, on Linux.
-/

namespace Cppnet

/-- What happens to the connection: the peer sends, the peer closes, a wait of the loop returns (`chunks`: how many bytes each `recv` of
this round gives, at least one) (epoll.cpp:49-69). -/
inductive FeedEv where
  | send (s : Str)
  | shut
  | round (chunks : Nat → Nat)

/-- The connection as the server's system sees it: the bytes that were not read yet, whether some came since the last report, whether the
peer has closed, and whether the server has closed (epoll.cpp:28-32, 60-68). -/
structure Feed where
  unread : Str := []
  fresh : Bool := false
  fin : Bool := false
  gone : Bool := false
  deriving DecidableEq, Repr

/-- What the callback sees: the result and the text of a `Read`, or the leave event (README.md:147-155). -/
inductive FeedCall where
  | read (rc : Int) (text : Str)
  | leave
  deriving DecidableEq, Repr

/-- At most `n` reads of `len` bytes, as long as there is something to read (README.md:149-151, socket.cpp:113-135). -/
def readPieces (len : Nat) : Nat → (Nat → Nat) → Str → List FeedCall × Str
  | 0, _, u => ([], u)
  | n + 1, ch, u =>
    if u = [] then ([], u)
    else
      let (rc, text, c) := sockRead ⟨u, -1⟩ len false (ch 0)
      let (cs, u') := readPieces len n (fun i => ch (i + 1)) c.input
      (.read rc text :: cs, u')

/-- One event.  A round reports a leave first (epoll.cpp:60-61; the server closes the connection, tcp_server.cpp:104-109); otherwise data,
level-triggered whenever there is some, edge-triggered if some came since the last report (epoll.cpp:28-32, 66-67).  The callback reads
once, or (`drain`) until nothing is left. -/
def feedStep (edge drain : Bool) (len : Nat) (f : Feed) : FeedEv → Feed × List FeedCall
  | .send s => if f.fin || f.gone then (f, []) else ({ f with unread := f.unread ++ s, fresh := f.fresh || s != [] }, [])
  | .shut => ({ f with fin := true }, [])
  | .round ch =>
    if f.gone then (f, [])
    else if f.fin then ({ f with gone := true }, [.leave])
    else if f.unread != [] && (!edge || f.fresh) then
      let (cs, u) := readPieces len (if drain then f.unread.length else 1) ch f.unread
      ({ f with unread := u, fresh := false }, cs)
    else (f, [])

/-- All events (epoll.cpp:49-70). -/
def feed (edge drain : Bool) (len : Nat) : Feed → List FeedEv → Feed × List FeedCall
  | f, [] => (f, [])
  | f, e :: es =>
    let (f, c) := feedStep edge drain len f e
    let (f', cs) := feed edge drain len f es
    (f', c ++ cs)

end Cppnet
