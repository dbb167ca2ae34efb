import Verif.Model.AccessLog
import Verif.Model.Address

/-!
# What a server logs about a connection from its beginning to its end

`src/cppnet/http/server/http_server.cpp:228-275` (`HandleError`, `HandleAccept`, `HandleLeave`) around the messages of `HandleRead`
(`Model/AccessLog`), as `src/cppnet/server/tcp_server.cpp:69-192` calls them for one plain connection.

What is simplified: TLS, and the messages of the handlers, are left out.
-/

namespace Cppnet
variable {σ : Type}

/-- What `getpeername` answers: its result and, if that is 0, the address (socket.cpp:249-254, address.cpp:66-69). -/
structure PeerAns where
  rc : Int
  addr : Address
  deriving DecidableEq

/-- http_server.cpp:232-243, `HandleAccept`: the message, and whether the connection is kept.  `sys` is `strerror`'s text. -/
def acceptLog (fd : Int) (p : PeerAns) (sys : Str) : List (Level × Str) × Bool :=
  if p.rc ≠ kSuccess then ([(.error, b!"[event_soc.GetAddr]:" ++ sys)], false)
  else ([(.info, b!"accept from " ++ addressToString p.addr ++ b!" soc: " ++ intToStr fd)], true)

/-- http_server.cpp:265-269, `HandleLeave`: the result of `GetAddr` is not looked at; when it fails the address is the one that the
constructor made (address.cpp:13-17). -/
def leaveLog (fd : Int) (p : PeerAns) : List (Level × Str) :=
  [(.info, b!"leave from " ++ addressToString (if p.rc = kSuccess then p.addr else {}) ++ b!" soc: " ++ intToStr fd)]

/-- What is reported about a connection: it is readable (with what the system answers `HandleRead`), its peer has left, or it has
failed (epoll.cpp:60-68). -/
inductive ConnReport where
  | read (timedOut : Bool) (sys : Str) (env : Env)
  | leave (p : PeerAns)
  | error

/-- The messages about the reports of a connection in the I/O multiplexing mode (tcp_server.cpp:99-116, 135-155).  A connection that
`HandleRead` closed, or that has left or failed, is not reported any more.  `srvErr` is the server's `err_msg()`
(http_server.cpp:229). -/
def reportsLog (s : Server σ) (fd : Int) (srvErr : Str) : List ConnReport → Conn → σ → Out (List (Level × Str))
  | [], _, _ => .ok []
  | .read timedOut sys env :: rs, c, u => do
    let l ← handleReadLog fd timedOut sys env s c u
    let r ← handleRead env s c u
    if r.closed then .ok l
    else do
      let l' ← reportsLog s fd srvErr rs r.conn r.user
      .ok (l ++ l')
  | .leave p :: _, _, _ => .ok (leaveLog fd p)
  | .error :: _, _, _ => .ok [(.error, srvErr)]

/-- The messages about a connection in the I/O multiplexing mode (tcp_server.cpp:69-116). -/
def connLog (s : Server σ) (fd : Int) (p : PeerAns) (sys srvErr : Str) (rs : List ConnReport) (c : Conn) (u : σ) :
    Out (List (Level × Str)) :=
  match acceptLog fd p sys with
  | (l, false) => .ok l
  | (l, true) => do
    let l' ← reportsLog s fd srvErr rs c u
    .ok (l ++ l')

/-- The messages about a connection that was accepted in the multi-thread mode: `reads` are the rounds in which `ReadPeek` finds a
byte.  After a `HandleRead` that closed the connection `ReadPeek` fails (its number may be another connection's by then, see
C150; this is left out here); the task ends with `HandleLeave` in any case (tcp_server.cpp:167-175). -/
def taskReads (s : Server σ) (fd : Int) : List (Bool × Str × Env) → Conn → σ → Out (List (Level × Str))
  | [], _, _ => .ok []
  | (timedOut, sys, env) :: rs, c, u => do
    let l ← handleReadLog fd timedOut sys env s c u
    let r ← handleRead env s c u
    if r.closed then .ok l
    else do
      let l' ← taskReads s fd rs r.conn r.user
      .ok (l ++ l')

/-- The messages about a connection in the multi-thread mode; `q` is what `getpeername` answers in the end (tcp_server.cpp:167-175). -/
def taskLog (s : Server σ) (fd : Int) (p q : PeerAns) (sys : Str) (reads : List (Bool × Str × Env)) (c : Conn) (u : σ) :
    Out (List (Level × Str)) :=
  match acceptLog fd p sys with
  | (l, false) => .ok (l ++ leaveLog fd q)
  | (l, true) => do
    let l' ← taskReads s fd reads c u
    .ok (l ++ l' ++ leaveLog fd q)

end Cppnet
