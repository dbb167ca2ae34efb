import Verif.Model.TcpServer
import Verif.Model.Timer

/-!
# The project's own unit tests, run on the model: sockets and servers

These are tests of the model, not proofs of properties: for the tests of `src/test/socket/socket_test.hpp`,
`src/test/server/tcp_server_test.hpp` and `src/test/timer/timer_test.hpp` one possible course of events is evaluated by
the kernel, with the answers the system gives when everything works.
-/

namespace Cppnet

/-! ### src/test/socket/socket_test.hpp -/

/-- socket_test.hpp:9-43, `TEST(Socket, UDP)`. -/
example : (let (rc, q) := sockWriteUdp b!"hello world" 8081 ([] : List (Dgram Nat))
    (rc, (sockReadUdpRaw 1024 q).map fun r => (r.1, r.2.1))) = (11, some (11, b!"hello world")) := by decide +kernel

/-- socket_test.hpp:45-112, `TEST(Socket, CompleteRead)`: the two writes arrive as one stream. -/
example : (let (rc, s, c) := sockRead ⟨b!"hello" ++ b!" world", 0⟩ 11 true 4; (rc, s, c.input)) = (11, b!"hello world", []) := by
  decide +kernel

/-- socket_test.hpp:156-215, `TEST(Socket, ReadUntil)`. -/
example : (sockReadUntil ⟨b!"hello world,cpp", 0⟩ [] b!"world").map (fun r => (r.1, r.2.1, r.2.2.input)) =
    .ok (11, b!"hello world", b!",cpp") := by decide +kernel

/-- The results of a history of calls on a socket object. -/
def sockResults (ops : List SockOp) : List Int × SockStatus :=
  let (s, log) := ({} : Sock).run ops
  (log.map (·.2.1), s.status)

/-- socket_test.hpp:117-154, `TEST(Socket, ReadTimeout)`: nobody connects, `accept` gives -1 after the timeout, and the socket that
`Accept` returns is not initialised. -/
example : sockResults [.init 3, .setSockOpt 0, .setSockOpt 0, .bind 0, .listen 0, .accept (-1), .close 0] =
      ([0, 0, 0, 0, 0, -1, 0], .closed) ∧ (Sock.ofFd (-1)).status ≠ .init := by decide +kernel

/-! ### src/test/server/tcp_server_test.hpp -/

/-- tcp_server_test.hpp:10-11: the server of the tests. -/
def testServer : TcpSrv := { addr := (addressInit b!"127.0.0.1" 8080).1 }

/-- The answers when everything works: the listening socket is 3, the epoll instance is 4. -/
def goodAns : InitAns := { socket := 3, epoll := 4 }

/-- The callbacks that were called, in order. -/
def callsOf (t : List NetEv) : List (SrvEvent × Int) :=
  t.filterMap fun
    | .call _ ev fd => some (ev, fd)
    | _ => none

/-- The descriptors that were opened and not closed. -/
def leftOpen (t : List NetEv) : List Int :=
  t.foldl (fun l e => match e with
    | .socket fd | .epollCreate fd | .accept _ fd => l ++ [fd]
    | .close fd => l.filter (· ≠ fd)
    | _ => l) []

/-- tcp_server_test.hpp:13-73, `TEST(TcpServer, SigleClient)`: the client is accepted, sends, and leaves; the callback stops the
server when it leaves; nothing stays open. -/
example : (testServer.history [.init goodAns, .register 1,
      .eventLoop [⟨.events [(3, { inn := true }, { accept := 5 })], false⟩, ⟨.events [(5, { inn := true }, {})], false⟩,
        ⟨.events [(5, { inn := true, rdhup := true }, { acts := fun _ _ => [.stop] })], false⟩, ⟨.fail, false⟩] [],
      .clean]).map (fun r => (callsOf r.2, leftOpen r.2)) =
    .ok ([(.accept, 5), (.read, 5), (.leave, 5)], []) := by decide +kernel

/-- tcp_server_test.hpp:75-194, `TEST(TcpServer, MultiClient)`, with two clients and the setting of the trigger
type (line 92) on the server of the first test. -/
example : (testServer.history [.init goodAns, .clean, .setTrigger false, .init goodAns, .register 1,
      .eventLoop [⟨.events [(3, { inn := true }, { accept := 5 })], false⟩,
        ⟨.events [(5, { inn := true }, {}), (3, { inn := true }, { accept := 6 })], false⟩,
        ⟨.events [(6, { inn := true }, {}), (5, { inn := true, rdhup := true }, {})], false⟩,
        ⟨.events [(6, { inn := true, rdhup := true }, { acts := fun _ _ => [.stop] })], false⟩] [],
      .clean]).map (fun r => (callsOf r.2, leftOpen r.2)) =
    .ok ([(.accept, 5), (.read, 5), (.accept, 6), (.read, 6), (.leave, 5), (.leave, 6)], []) := by decide +kernel

/-- tcp_server_test.hpp:196-284, `TEST(TcpServer, MultiThread)`: the connection is given to the pool; its task calls the
callbacks; `Stop` and `WakeUp` end the loop, which returns 0. -/
example : (do
    let (s, rc, _) := tcpInit { testServer with mode := .multiThread } goodAns
    let s := { s with cb := .user 1 }
    let (_, t1, o) ← eventLoop s [] [⟨some 5, false, []⟩, ⟨some 6, true, []⟩]
    let (_, t2) ← connTask s 5 0 [] [[.close 5, .stop]] []
    .ok (rc, o, t1, callsOf t2) : Out (Int × LoopEnd × List NetEv × List (SrvEvent × Int))) =
    .ok (0, .returned 0, [.accept 3 5, .addTask 5, .accept 3 6, .poolStop], [(.accept, 5), (.read, 5), (.leave, 5)]) := by
  decide +kernel

/-- tcp_server_test.hpp:286-397, `TEST(TcpServer, MixMode)`: accepting and leaving happen in the loop, reading in the pool. -/
example : ((do
    let (s, rc, _) := tcpInit { testServer with mode := .mixed } goodAns
    let (_, t, o) ← eventLoop { s with cb := .user 1 } [⟨.events [(3, { inn := true }, { accept := 5 })], false⟩,
      ⟨.events [(5, { inn := true }, {}), (3, { inn := true }, { accept := 6 })], false⟩,
      ⟨.events [(6, { inn := true }, {}), (5, { inn := true, rdhup := true }, {})], false⟩,
      ⟨.events [(6, { inn := true, rdhup := true }, { acts := fun _ _ => [.stop] })], false⟩] []
    .ok (rc, o, callsOf t, t.contains (.addTask 5), t.contains (.addTask 6)) : Out (Int × LoopEnd × List (SrvEvent × Int) × Bool × Bool)).map
      fun r => (r.1, r.2.1, r.2.2.1, r.2.2.2)) =
    .ok (0, .returned 0, [(.accept, 5), (.accept, 6), (.leave, 5), (.leave, 6)], true, true) := by decide +kernel

/-! ### src/test/timer/timer_test.hpp -/

/-- `n` reads of 8 bytes, one every `period` nanoseconds: how many expirations they report. -/
def timerCount (period : Nat) : Nat → TimerObj → Nat → Nat
  | 0, _, _ => 0
  | n + 1, o, t =>
    match o.read t 8 with
    | (o, .got count _, _) => count + timerCount period n o (t + period)
    | _ => 0

/-- timer_test.hpp:9-66, `TEST(Timer, CreateTimer)`: a period of 0.1 ms, read for 10 ms: 100 expirations (between 90 and 110). -/
example : ((({} : TimerObj).init 0 7 0 100000).2.1, (({} : TimerObj).init 0 7 0 100000).1.sock.status,
    timerCount 100000 100 (({} : TimerObj).init 0 7 0 100000).1 0) = (0, .init, 100) := by decide +kernel

end Cppnet
