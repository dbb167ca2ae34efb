import Verif.Model.Conversation

/-!
# Model of a `HttpClient` whose reads can time out (`src/cppnet/http/client/http_client.cpp`)

`client.socket().SetReadTimeout(…)` (http_client.hpp:55, socket.hpp:154) lets a `Send` give up before the answer is there.
-/

namespace Cppnet

variable {σ : Type}

/-- What the user of a client does: a `Send` whose answer comes in time, a `Send` whose answer comes after the read has
timed out, or `Close` and `Init` (http_client.cpp:7-20, 22-66, 68-80). -/
inductive CliAct where
  | send (env : Env) (req : HttpReq)
  | late (env : Env) (req : HttpReq)
  | again

/-- http_client.cpp:22-66: one action, with a new response object.  `sc`, `cc`: the streams of the server and of the
client.  A request that cannot be built reaches nobody (29-33).  A late answer is what `Send` would have read (42-46): it is
in the stream afterwards.  A new connection starts with empty streams. -/
def cliAct (o : HashOrder) (s : Server σ) (fs fc : Int) : CliAct → Conn → Conn → σ → Out (Option Sent × Conn × Conn × σ)
  | .send env req, sc, cc, u =>
    if (reqBuild o req []).2.2 ≠ kSuccess then do
      let sent ← clientSend o req {} 0 cc
      .ok (some sent, sc, sent.conn, u)
    else do
      let (sent, served) ← exchange o env s req {} sc cc u
      .ok (some sent, served.conn, sent.conn, served.user)
  | .late env req, sc, cc, u =>
    if (reqBuild o req []).2.2 ≠ kSuccess then do
      let sent ← clientSend o req {} 0 cc
      .ok (some sent, sc, sent.conn, u)
    else do
      let text := (reqBuild o req []).2.1
      let sent ← clientSend o req {} text.length cc
      let served ← handleRead env s { sc with input := sc.input ++ text } u
      .ok (some sent, served.conn, { sent.conn with input := sent.conn.input ++ served.sent.flatten }, served.user)
  | .again, _, _, u => .ok (none, ⟨[], fs⟩, ⟨[], fc⟩, u)

/-- Any number of actions, one after the other (http_client.cpp:22-66). -/
def cliActs (o : HashOrder) (s : Server σ) (fs fc : Int) : List CliAct → Conn → Conn → σ → Out (List (Option Sent))
  | [], _, _, _ => .ok []
  | a :: as, sc, cc, u => do
    let (r, sc, cc, u) ← cliAct o s fs fc a sc cc u
    let rs ← cliActs o s fs fc as sc cc u
    .ok (r :: rs)

end Cppnet
