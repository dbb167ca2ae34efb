import Verif.Model.HttpServer
import Verif.Model.HttpClient

/-!
# Several requests: one connection, several connections, a client and a server

How `HttpServer::HandleRead` (`src/cppnet/http/server/http_server.cpp:279-411`) is called by the event loop
(`src/cppnet/server/tcp_server.cpp:99-102, 118-158`, I/O multiplexing): once for each report of a readable connection.
-/

namespace Cppnet
variable {σ : Type}

/-- http_server.cpp:279-411, called once per report for one connection (tcp_server.cpp:141-147, level-triggered: a
connection with unread bytes is reported again) until it is closed.  `envs`: what the environment decides in each call;
the custom content types are what the previous call left. -/
def serveReads (s : Server σ) : List Env → Conn → σ → UMap → Out (List (Served σ) × Conn × σ × UMap)
  | [], c, u, t => .ok ([], c, u, t)
  | env :: envs, c, u, t => do
    let r ← handleRead { env with types := t } s c u
    if r.closed then .ok ([r], r.conn, r.user, r.types)
    else do
      let (rs, c, u, t) ← serveReads s envs r.conn r.user r.types
      .ok (r :: rs, c, u, t)

/-- The connections of a server, and what they share (http_server.hpp:177-245). -/
structure World (σ : Type) where
  conns : Nat → Conn
  closed : Nat → Bool := fun _ => false
  user : σ
  types : UMap := UMap.empty

/-- http_server.cpp:279-411 for one report of connection `i` (tcp_server.cpp:141-147); a connection that the server has
closed is not reported any more. -/
def worldStep (s : Server σ) (w : World σ) (i : Nat) (env : Env) : Out (World σ × Option (Served σ)) :=
  if w.closed i then .ok (w, none)
  else (handleRead { env with types := w.types } s (w.conns i) w.user).map fun r =>
    ({ conns := fun j => if j = i then r.conn else w.conns j,
       closed := fun j => if j = i then r.closed else w.closed j, user := r.user, types := r.types }, some r)

/-- A sequence of reports: the world afterwards, and what was written, closed and left unread for each report that was
handled (tcp_server.cpp:118-158). -/
def worldRun (s : Server σ) : List (Nat × Env) → World σ → Out (World σ × List (Nat × Served σ))
  | [], w => .ok (w, [])
  | (i, env) :: evs, w => do
    let (w, r) ← worldStep s w i env
    let (w, rs) ← worldRun s evs w
    .ok (w, r.toList.map (fun r => (i, r)) ++ rs)

/-- One `HttpClient::Send` (http_client.cpp:22-66) to a server that answers it with one `HandleRead`: what the client
writes is appended to the server's stream (`sc`), what the server writes is appended to the client's (`cc`). -/
def exchange (o : HashOrder) (env : Env) (s : Server σ) (req : HttpReq) (resp : HttpResp) (sc cc : Conn) (u : σ) :
    Out (Sent × Served σ) := do
  let text := (reqBuild o req []).2.1
  let served ← handleRead env s { sc with input := sc.input ++ text } u
  let sent ← clientSend o req resp text.length { cc with input := cc.input ++ served.sent.flatten }
  .ok (sent, served)

/-- Several `Send`s, one after the other, on one connection; each gets a new response object (http_client.cpp:22-66). -/
def converse (o : HashOrder) (s : Server σ) : List (Env × HttpReq) → Conn → Conn → σ → Out (List Sent × Conn × Conn × σ)
  | [], sc, cc, u => .ok ([], sc, cc, u)
  | (env, req) :: rest, sc, cc, u => do
    let (sent, served) ← exchange o env s req {} sc cc u
    let (sents, sc, cc, u) ← converse o s rest served.conn sent.conn served.user
    .ok (sent :: sents, sc, cc, u)

end Cppnet
