import Verif.Model.TcpServer

/-!
# What the server properties speak about

The operating system's bookkeeping of descriptors, derived from the list of what happened.  Only the
types of the model are used.
-/

namespace Cppnet.Spec

/-- The descriptors that are open, and those among them that the server's epoll watches. -/
structure Kern where
  opn : Int → Bool := fun _ => false
  mon : Int → Bool := fun _ => false

/-- A successful `socket`, `accept` or `epoll_create` opens its result; `close` closes the descriptor (and
ends its being watched); `epoll_ctl` adds to and removes from the watched ones. -/
def Kern.step (k : Kern) : NetEv → Kern
  | .socket r | .epollCreate r | .accept _ r => if r < 0 then k else { k with opn := fun i => i == r || k.opn i }
  | .close fd => { opn := fun i => i != fd && k.opn i, mon := fun i => i != fd && k.mon i }
  | .ctlAdd _ fd r _ => if r < 0 then k else { k with mon := fun i => i == fd || k.mon i }
  | .ctlDel _ fd _ => { k with mon := fun i => i != fd && k.mon i }
  | _ => k

/-- The bookkeeping after a list of events. -/
def Kern.run (k : Kern) (tr : List NetEv) : Kern := tr.foldl Kern.step k

/-- `P` holds of every event of the list, with the bookkeeping at the moment it happens. -/
def Throughout (P : Kern → NetEv → Prop) : Kern → List NetEv → Prop
  | _, [] => True
  | k, e :: es => P k e ∧ Throughout P (k.step e) es

/-- What an operating system guarantees: a new descriptor is not one that is open, and `epoll_wait` reports
each watched descriptor at most once and no others. -/
def Kern.allows (k : Kern) : NetEv → Prop
  | .socket r | .epollCreate r | .accept _ r => 0 ≤ r → k.opn r = false
  | .wait _ ready => (ready.map (·.1)).Nodup ∧ ∀ x ∈ ready, k.mon x.1 = true
  | _ => True

/-- The events can happen in this order. -/
def Possible (k : Kern) (tr : List NetEv) : Prop := Throughout Kern.allows k tr

/-- No descriptor is closed that is not open. -/
def ClosesOnlyOpen (k : Kern) (tr : List NetEv) : Prop :=
  Throughout (fun k e => ∀ fd, e = .close fd → k.opn fd = true) k tr

/-- Every leave callback is followed at once by the end of watching the descriptor and its close. -/
def ClosedOnLeave (tr : List NetEv) : Prop :=
  ∀ pre c fd post, tr = pre ++ .call c .leave fd :: post → ∃ ep r post', post = .ctlDel ep fd r :: .close fd :: post'

/-- Every error callback for a descriptor is followed by the close of it, directly or after the end of
watching it. -/
def ClosedOnError (tr : List NetEv) : Prop :=
  ∀ pre c fd post, 0 ≤ fd → tr = pre ++ .call c .error fd :: post →
    ∃ post', post = .close fd :: post' ∨ ∃ ep r, post = .ctlDel ep fd r :: .close fd :: post'

/-- How often a descriptor number was opened, and closed. -/
def opens (fd : Int) (tr : List NetEv) : Nat :=
  (tr.filter fun e => e = .socket fd || e = .epollCreate fd || (match e with | .accept _ r => decide (r = fd) | _ => false)).length

/-- See `opens`. -/
def closes (fd : Int) (tr : List NetEv) : Nat := tr.count (.close fd)

/-- A callback that leaves the closing to the server, or drops the connection it is called for (ends its
watching and closes it) when it is accepted or readable. -/
def Polite (acts : SrvEvent → Int → List CbAct) : Prop :=
  ∀ ev fd, acts ev fd = [] ∨ ((ev = .accept ∨ ev = .read) ∧ ∃ r, acts ev fd = [.remove fd r, .close fd])

/-- The callback is polite throughout a loop. -/
def PoliteRounds (rounds : List Round) : Prop :=
  ∀ r ∈ rounds, ∀ evs, r.res = .events evs → ∀ x ∈ evs, Polite x.2.2.acts

end Cppnet.Spec

namespace Cppnet.Spec

/-! ### One connection, as its peer sees it (C60) -/

/-- What happens on one connection, in order: the peer sends, the peer closes its side, the server's
`epoll_wait` returns if there is anything to report. -/
inductive Peer where
  | send (data : Str) | shut | wait
  deriving DecidableEq

/-- What the operating system reports for a connection with unread bytes, resp. one closed by its peer
(level-triggered). -/
def connBits (unread : Str) (closed : Bool) : EpBits := { inn := !unread.isEmpty || closed, rdhup := closed }

/-- What the user of the server sees of the connection: the bytes available at each read callback (which
reads them all), and the leave callback. -/
inductive Seen where
  | read (data : Str) | leave
  deriving DecidableEq

/-- Play a story on connection `fd` of the server `s`, up to the leave callback. -/
def play (s : TcpSrv) (fd : Int) (unread : Str) (closed : Bool) : List Peer → Out (List Seen)
  | [] => .ok []
  | .send d :: rest => play s fd (unread ++ d) closed rest
  | .shut :: rest => play s fd unread true rest
  | .wait :: rest =>
    if unread = [] ∧ closed = false then play s fd unread closed rest
    else do
      let (_, tr, _) ← ioLoop s [{ res := .events [(fd, connBits unread closed, {})] }]
      if tr.any (fun e => e = .call s.cb .leave fd) then .ok [.leave]
      else if tr.any (fun e => e = .call s.cb .read fd) then do
        let seen ← play s fd [] closed rest
        .ok (.read unread :: seen)
      else play s fd unread closed rest

/-- The bytes delivered. -/
def delivered (seen : List Seen) : Str := seen.flatMap fun | .read d => d | .leave => []

/-- The bytes sent. -/
def sent (story : List Peer) : Str := story.flatMap fun | .send d => d | _ => []

/-- The part of a story up to its last wait. -/
def upToLastWait (story : List Peer) : List Peer := (story.reverse.dropWhile (fun x => x ≠ .wait)).reverse

/-! ### The mixed mode -/

/-- The descriptors of the tasks given to the pool, in order. -/
def tasks (tr : List NetEv) : List Int := tr.filterMap fun | .addTask fd => some fd | _ => none

/-- All that `epoll_wait` reported, in order. -/
def waitsOf (tr : List NetEv) : List (Int × EpBits) := tr.flatMap fun | .wait _ ready => ready | _ => []

/-- The reported connections with something to read that are neither closed by the peer nor in error. -/
def onlyReadable (listening : Int) (ready : List (Int × EpBits)) : List Int :=
  (ready.filter fun x => x.1 ≠ listening && x.2.inn && !x.2.rdhup && !x.2.err).map (·.1)

/-! ### Histories -/

/-- Callbacks of a loop that do not call `Register`. -/
def KeepsCallback (op : SrvOp) : Prop :=
  match op with
  | .init _ | .register _ => False
  | .eventLoop rounds mt =>
    (∀ r ∈ rounds, ∀ evs, r.res = .events evs → ∀ x ∈ evs, ∀ ev fd n, .register n ∉ x.2.2.acts ev fd) ∧
    (∀ r ∈ mt, ∀ n, .register n ∉ r.acts)
  | _ => True

/-- The callbacks of a loop do not call `AddSoc`. -/
def NoAddSoc (rounds : List Round) (mt : List MtRound) : Prop :=
  (∀ r ∈ rounds, ∀ evs, r.res = .events evs → ∀ x ∈ evs, ∀ ev fd f nb res, .add f nb res ∉ x.2.2.acts ev fd) ∧
  (∀ r ∈ mt, ∀ f nb res, .add f nb res ∉ r.acts)

/-- A use of a server in mode `m` that respects the mode: the mode is not changed, and epoll is not used
directly when the mode has none. -/
def Orderly (m : SrvMode) (op : SrvOp) : Prop :=
  match op with
  | .setMode _ => False
  | .addSoc .. | .setTrigger _ => m ≠ .multiThread
  | .eventLoop rounds mt => m = .multiThread → NoAddSoc rounds mt
  | _ => True

end Cppnet.Spec
