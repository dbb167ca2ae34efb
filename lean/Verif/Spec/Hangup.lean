import Verif.Model.Hangup
import Verif.Model.AccessLog
import Verif.Spec.Conversation

/-! # Specification: peers that hang up, and the log -/

namespace Cppnet.Spec
open Cppnet
variable {σ : Type}

/-- The peer's state when the `i`-th of a series of writes is made. -/
def peerAt (p : Peer) (evs : List (List PeerEv)) : Nat → Peer
  | 0 => (evs.headD []).foldl Peer.on p
  | i + 1 =>
    let now := (evs.headD []).foldl Peer.on p
    peerAt (if now = .reset then .gone else now) evs.tail i

/-- The same reports for a client that stays: no events, and every write succeeds. -/
def staying (jobs : List (Env × List (List PeerEv))) : List Env := jobs.map fun j => { j.1 with writeRc := 0 }

/-- The text on the console: what `StdLogger` at level debug prints for these messages. -/
def console (msgs : List (Level × Str)) : List Str :=
  (msgs.flatMap fun m => stdLog .debug m.1 m.2).map fun o =>
    match o with
    | .cout t => t
    | .cerr t => t
    | .sink _ _ t => t

end Cppnet.Spec
