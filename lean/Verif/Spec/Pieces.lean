import Verif.Model.Pieces

/-!
# Specification for C180: a server that reads in pieces
-/

namespace Cppnet.Spec

/-- What the peer sends. -/
def sentBytes (es : List FeedEv) : Str := (es.map fun e => match e with | .send s => s | _ => []).flatten

/-- The texts that the callback reads, one after the other. -/
def texts (cs : List FeedCall) : Str := (cs.map fun c => match c with | .read _ t => t | .leave => []).flatten

/-- The results of the reads, added up. -/
def results (cs : List FeedCall) : Int := (cs.map fun c => match c with | .read rc _ => rc | .leave => 0).sum

/-- The peer does not close. -/
def StaysOpen (es : List FeedEv) : Prop := ∀ e ∈ es, e ≠ .shut

end Cppnet.Spec
