import Verif.Model.Logger

/-!
# Loggers in several threads: what they share

`StdLogger` writes to the program's `std::cout` and `std::cerr` (`src/cppnet/log/std_logger.hpp:11-38`); every `FileLogger` makes
its time stamps in one static array (`src/cppnet/log/file_logger.cpp:138-144`).
-/

namespace Cppnet

/-! ### `StdLogger` -/

/-- One output operation: is it `std::cerr`, and the text (std_logger.hpp:15, 21, 27, 33, 36). -/
structure OutOp where
  err : Bool
  text : Str
  deriving DecidableEq

/-- std_logger.hpp:11-38: the output operations of one call, one for each `<<`.  (The standard promises less, namely that
single characters may mix, too.) -/
def stdOps (level lvl : Level) (msg : Str) : List OutOp :=
  match lvl with
  | .debug => if level.val > Level.debug.val then [] else [⟨false, b!"[DEBUG]:"⟩, ⟨false, msg⟩, ⟨false, b!"\n"⟩]
  | .info => if level.val > Level.info.val then [] else [⟨false, b!"[INFO]:"⟩, ⟨false, msg⟩, ⟨false, b!"\n"⟩]
  | .warn => if level.val > Level.warn.val then [] else [⟨false, b!"[WARN]:"⟩, ⟨false, msg⟩, ⟨false, b!"\n"⟩]
  | .error => if level.val > Level.error.val then [] else [⟨true, b!"[ERROR]:"⟩, ⟨true, msg⟩, ⟨true, b!"\n"⟩]
  | .fatal => [⟨true, b!"[FATAL]:"⟩, ⟨true, msg⟩, ⟨true, b!"\n"⟩]

/-- The operations of a thread that makes these calls on loggers of the given levels (std_logger.hpp:11-38). -/
def threadOps (calls : List (Level × Level × Str)) : List OutOp := calls.flatMap fun x => stdOps x.1 x.2.1 x.2.2

/-- The operations of several threads in the order in which the streams get them (std_logger.hpp:11-38): each time some
thread does its next one. -/
inductive Interleaved {β : Type} : List (List β) → List β → Prop where
  | done {ts} (h : ∀ t ∈ ts, t = []) : Interleaved ts []
  | step {ts out x rest} (i : Nat) (h : ts[i]? = some (x :: rest)) (h' : Interleaved (ts.set i rest) out) :
      Interleaved ts (x :: out)

/-- What one of the streams shows (std_logger.hpp:15, 33). -/
def onConsole (err : Bool) (out : List OutOp) : Str := ((out.filter fun o => o.err == err).map (·.text)).flatten

/-! ### The time stamps of `FileLogger` -/

/-- Where a thread is in `GetNowTime` (file_logger.cpp:138-144).  `localtime` fills the six fields year, month, day, hour,
minute and second of its static `tm` one by one; `strftime` prints each of them into `buf`; `std::string(buf)` copies what
is there.  Simplification: the characters of one field are printed and copied at once. -/
inductive StampPc (τ : Type) where
  | idle
  /-- file_logger.cpp:141, fields done -/
  | fill (now : τ) (k : Nat)
  /-- file_logger.cpp:142, fields done -/
  | print (k : Nat)
  /-- file_logger.cpp:143, fields copied -/
  | copy (got : List Nat)

/-- What all threads share: the `tm` of `localtime` and `buf` (file_logger.cpp:139, 141); and where each of them is. -/
structure Stamps (τ : Type) where
  tm : Nat → Nat := fun _ => 0
  buf : Nat → Nat := fun _ => 0
  pcs : Nat → StampPc τ := fun _ => .idle

/-- What a step shows (file_logger.cpp:138-144): thread `i` calls `GetNowTime` and the clock says `now`; it returns; or
nothing. -/
inductive StampEv (τ : Type) where
  | call (i : Nat) (now : τ)
  | ret (i : Nat) (stamp : List Nat)
  | tau (i : Nat)

/-- file_logger.cpp:138-144: thread `i` goes on to `p`. -/
def Stamps.at {τ : Type} (s : Stamps τ) (i : Nat) (p : StampPc τ) : Stamps τ := { s with pcs := fun j => if j = i then p else s.pcs j }

/-- One step of one thread (file_logger.cpp:138-144).  `local` is the time zone: the six fields of a time. -/
inductive StampStep {τ : Type} (loc : τ → Nat → Nat) : Stamps τ → StampEv τ → Stamps τ → Prop where
  /-- file_logger.cpp:140 -/
  | call {s i} (now : τ) (h : s.pcs i = .idle) : StampStep loc s (.call i now) (s.at i (.fill now 0))
  /-- file_logger.cpp:141 -/
  | fill {s i now k} (h : s.pcs i = .fill now k) (hk : k < 6) :
      StampStep loc s (.tau i) ({ s with tm := fun j => if j = k then loc now k else s.tm j }.at i (.fill now (k + 1)))
  | filled {s i now k} (h : s.pcs i = .fill now k) (hk : ¬ k < 6) : StampStep loc s (.tau i) (s.at i (.print 0))
  /-- file_logger.cpp:142 -/
  | print {s i k} (h : s.pcs i = .print k) (hk : k < 6) :
      StampStep loc s (.tau i) ({ s with buf := fun j => if j = k then s.tm k else s.buf j }.at i (.print (k + 1)))
  | printed {s i k} (h : s.pcs i = .print k) (hk : ¬ k < 6) : StampStep loc s (.tau i) (s.at i (.copy []))
  /-- file_logger.cpp:143 -/
  | copy {s i got} (h : s.pcs i = .copy got) (hk : got.length < 6) :
      StampStep loc s (.tau i) (s.at i (.copy (got ++ [s.buf got.length])))
  | ret {s i got} (h : s.pcs i = .copy got) (hk : ¬ got.length < 6) : StampStep loc s (.ret i got) (s.at i .idle)

/-- A run of the threads, from the start of the program (file_logger.cpp:138-144). -/
inductive StampRun {τ : Type} (loc : τ → Nat → Nat) : List (StampEv τ) → Stamps τ → Prop where
  | start : StampRun loc [] {}
  | step {tr s e s'} (h : StampRun loc tr s) (h' : StampStep loc s e s') : StampRun loc (tr ++ [e]) s'

end Cppnet
