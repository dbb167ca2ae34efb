import Verif.Model.HttpLife
import Verif.Spec.Tcp

/-!
# What the properties of the life of an `HttpServer` speak about

Only the calls that were made, with their results, and the list of what `HandleAccept` does.
-/

namespace Cppnet.Spec

/-- The calls made so far, in order, each with what it did and how it ended. -/
abbrev HttpLog := List (HttpOp × List NetEv × LoopEnd)

/-- One more call: a start (`Init`, `InitSSL`) that succeeds starts the server, one that the system makes fail leaves it
stopped, one that is refused changes nothing; `Stop` stops it. -/
def startedStep (b : Bool) (x : HttpOp × List NetEv × LoopEnd) : Bool :=
  match x.1 with
  | .init .. | .initSSL .. =>
    if x.2.2 = .returned kSuccess then true else if x.2.2 = .returned kSysErr then false else b
  | .stop .. => false
  | _ => b

/-- Whether the server has been started and not been stopped since. -/
def started (log : HttpLog) : Bool := log.foldl startedStep false

/-- The context of the last `InitSSL` that succeeded. -/
def lastContext (log : HttpLog) : Option Nat :=
  log.foldl (fun c x => match x.1 with
    | .initSSL _ (some n) _ => if x.2.2 = .returned kSuccess then some n else c
    | _ => c) none

/-- The last timeouts that were set. -/
def lastReadTimeout (log : HttpLog) : Nat × Nat :=
  log.foldl (fun c x => match x.1 with | .setReadTimeout s u => (s, u) | _ => c) (0, 0)

/-- See `lastReadTimeout`. -/
def lastWriteTimeout (log : HttpLog) : Nat × Nat :=
  log.foldl (fun c x => match x.1 with | .setWriteTimeout s u => (s, u) | _ => c) (0, 0)

/-- Everything that happened. -/
def allEvents (log : HttpLog) : List NetEv := log.flatMap (·.2.1)

/-! ### Timeouts -/

/-- How long a blocking call waits: for ever, not at all, or so many microseconds. -/
inductive Patience where
  | forever | notAtAll | micros (n : Nat)
  deriving DecidableEq, Repr

/-- What `setsockopt` with `SO_RCVTIMEO` or `SO_SNDTIMEO` makes of a socket's patience on Linux (net/core/sock.c,
`sock_set_timeout`): microseconds that are not less than a million are refused, negative seconds mean not to wait, zero
means for ever.  (The rounding to clock ticks is left out.) -/
def setTimeo (p : Patience) (sec usec : Int) : Patience :=
  if usec < 0 ∨ 1000000 ≤ usec then p
  else if sec < 0 then .notAtAll
  else if sec = 0 ∧ usec = 0 then .forever
  else .micros (sec * 1000000 + usec).toNat

/-- The patience of a new connection's reads after what was done with it. -/
def recvPatience (l : List AccEv) : Patience :=
  l.foldl (fun p e => match e with | .setRecv _ s u => setTimeo p s u | _ => p) .forever

/-- The patience of its writes. -/
def sendPatience (l : List AccEv) : Patience :=
  l.foldl (fun p e => match e with | .setSend _ s u => setTimeo p s u | _ => p) .forever

/-- What the documentation of `SetReadTimeout` says ("0 stand for block until end"). -/
def wanted (t : Nat × Nat) : Patience :=
  if t = (0, 0) then .forever else .micros (t.1 * 1000000 + t.2)

/-! ### Callbacks -/

/-- The callbacks of a loop neither register another callback nor, without epoll, call `AddSoc`.  (Those of
`HttpServer` do not: `httpActs`.) -/
def OwnActs (rounds : List Round) (mt : List MtRound) : Prop :=
  (∀ r ∈ rounds, ∀ evs, r.res = .events evs → ∀ x ∈ evs, ∀ ev fd n, .register n ∉ x.2.2.acts ev fd) ∧
  (∀ r ∈ mt, ∀ n, .register n ∉ r.acts) ∧ NoAddSoc rounds mt

/-- A call that does not change the mode, and whose callbacks are of this kind. -/
def SameMode : HttpOp → Prop
  | .setMode _ => False
  | .run rounds mt => OwnActs rounds mt
  | _ => True

/-- Not a start. -/
def NoStart : HttpOp → Prop
  | .init .. | .initSSL .. => False
  | _ => True

end Cppnet.Spec
