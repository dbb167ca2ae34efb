import Verif.Model.Conversation

/-!
# Peers that hang up: what `send` does then

`src/cppnet/socket/socket.hpp:207-213` sends with flags 0, without `MSG_NOSIGNAL`, and nothing in `src/cppnet` changes the
disposition of `SIGPIPE` (only the tests' main, `src/test/main.cpp:25`, ignores it).
-/

namespace Cppnet
variable {σ : Type}

/-- A connection as seen from this end: the peer is there; it has closed (a FIN was received); it has broken the
connection off while it was established (`send` gives `ECONNRESET` once); it is gone (`send` gives `EPIPE`)
(seen by socket.hpp:209). -/
inductive Peer where
  | here | closed | reset | gone
  deriving DecidableEq, Repr

/-- What can come from the peer: it closes, or an RST arrives (because it broke the connection off, or because it got
data after it had closed) (seen by socket.hpp:209). -/
inductive PeerEv where
  | fin | rst
  deriving DecidableEq, Repr

/-- Linux's `tcp_fin` and `tcp_reset`: an RST after a FIN leaves the error `EPIPE`, otherwise `ECONNRESET`
(seen by socket.hpp:209). -/
def Peer.on : Peer → PeerEv → Peer
  | .here, .fin => .closed
  | .here, .rst => .reset
  | .closed, .rst => .gone
  | p, _ => p

/-- socket.hpp:207-213, `Socket::IOWrite` = `::send(fd, buf, len, 0)`, on Linux: to a peer that has closed it succeeds;
`EPIPE` comes with the signal `SIGPIPE`, which ends the process unless it is ignored (`ignored`).  Simplification: a
write that succeeds is complete (short writes are in C75). -/
def Peer.send (ignored : Bool) (len : Nat) : Peer → Out (Int × Peer)
  | .here => .ok (len, .here)
  | .closed => .ok (len, .closed)
  | .reset => .ok (-1, .gone)
  | .gone => if ignored then .ok (-1, .gone) else .error .terminate

/-- Several writes; before each of them some events arrive.  The result is that of the last write (0: none)
(socket.cpp:193-202; several calls are made by handlers and http_server.cpp:401). -/
def writeAll (ignored : Bool) : Peer → Int → List Str → List (List PeerEv) → Out (Int × Peer)
  | p, rc, [], _ => .ok (rc, p)
  | p, _, text :: texts, evs => do
    let (rc, p) ← ((evs.headD []).foldl Peer.on p).send ignored text.length
    writeAll ignored p rc texts evs.tail

/-- http_server.cpp:279-411, `HandleRead`, called once per report as in `serveReads`, for a client that may hang up:
with each report come the events that arrive before each write.  Line 401 to 407: a failed write closes the connection. -/
def hangReads (ignored : Bool) (s : Server σ) : List (Env × List (List PeerEv)) → Conn → σ → UMap → Peer →
    Out (List (Served σ))
  | [], _, _, _, _ => .ok []
  | (env, evs) :: rest, c, u, t, p => do
    let r ← handleRead { env with types := t, writeRc := 0 } s c u
    let (rc, p) ← writeAll ignored p 0 r.sent evs
    if r.closed || decide (rc < 0) then .ok [{ r with closed := true }]
    else do
      let rs ← hangReads ignored s rest r.conn r.user r.types p
      .ok (r :: rs)

/-- http_client.cpp:22-66, `HttpClient::Send` to a server that may have hung up; the client that gets no answer sees
the end of the stream. -/
def clientHang (ignored : Bool) (o : HashOrder) (req : HttpReq) (c : Conn) (evs : List PeerEv) (p : Peer) :
    Out (Sent × Peer) := do
  if (reqBuild o req []).2.2 ≠ kSuccess then .ok (← clientSend o req {} 0 c, p)
  else
  let (rc, p) ← (evs.foldl Peer.on p).send ignored (reqBuild o req []).2.1.length
  let sent ← clientSend o req {} rc c
  .ok (sent, p)

end Cppnet
