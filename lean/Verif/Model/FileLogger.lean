import Verif.Model.ThreadPool
import Verif.Model.Logger
import Verif.Cpp.Num

/-!
# Model of `src/cppnet/log/file_logger.cpp` and `file_logger.hpp`

A labelled transition system built on the model of `ThreadPool`: the logger's own pool (one worker) takes its
steps as defined there; its tasks are the numbers of the buffers to flush.  One thread uses the logger (the class
is documented as not thread-safe); it is client 0 of the pool.

Simplifications.  The cyclic list of `Buffer`s is a list of buffer numbers (`ring`, `buffers_list_` first), whose
last element is followed by its first; `cur` is the position of `cur_buffer_`.  The clock is arbitrary, so the test of
`last_flush_time` may come out either way and the times are not stored.  `buf_num_` does not overflow.  One
`File::Append` is one step.  Executions are sequentially consistent (`last_flush_time` is in fact a data race
between `FlushBuffer` and `CheckFlush`, see `C137_time_refuted`).
-/

namespace Cppnet

/-- file_logger.hpp:54-59.  `lines`: the lines appended since the buffer was last cleared; `data` is their
concatenation. -/
structure Buf where
  lines : List Str := []
  /-- `need_flush` -/
  need : Bool := false
  deriving DecidableEq

/-- `Buffer::data`, file_logger.hpp:55 -/
def Buf.data (b : Buf) : Str := b.lines.flatten

/-- Where the thread that uses the logger is (file_logger.cpp:7-122). -/
inductive LPc where
  | idle
  /-- file_logger.cpp:99-101, start of `CheckFlush` -/
  | check
  /-- file_logger.cpp:105, `need_flush` of `b` has been set -/
  | next (b : Nat)
  /-- file_logger.cpp:119-120 -/
  | add (b : Nat)
  /-- file_logger.cpp:120, inside `AddTask` -/
  | adding (b : Nat)
  /-- file_logger.cpp:9, inside `thread_pool_.Stop()`; `d`: called by the destructor -/
  | stopping (d : Bool)
  /-- file_logger.cpp:17-22, the loop of `Stop` -/
  | flush (d : Bool) (i : Nat)
  /-- file_logger.cpp:26, the end of `Stop` -/
  | fin (d : Bool)
  /-- file_logger.hpp:24, the destructors of the members -/
  | destroying
  /-- the logger has been destroyed -/
  | gone
  /-- file_logger.cpp:40, inside `thread_pool_.Init(1)` -/
  | initing
  deriving DecidableEq

/-- Where the worker is in `FlushBuffer`, file_logger.cpp:124-136. -/
inductive FlushPc where
  | none
  /-- file_logger.cpp:126 -/
  | start (b : Nat)
  /-- file_logger.cpp:133, `File::Append` has returned `kSuccess` -/
  | written (b : Nat)
  /-- file_logger.cpp:134 -/
  | cleared (b : Nat)
  /-- file_logger.cpp:135 -/
  | unmarked (b : Nat)
  /-- file_logger.cpp:136 -/
  | ended (b : Nat)
  deriving DecidableEq

/-- The logger's members (file_logger.hpp:67-73), the file, and a history. -/
structure FLog where
  pool : Pool Nat := {}
  /-- the `Buffer` objects, by number -/
  bufs : Nat → Buf := fun _ => {}
  /-- `buffers_list_` and the buffers that follow it -/
  ring : List Nat := []
  /-- `cur_buffer_` -/
  cur : Option Nat := none
  /-- how many `Buffer`s were created -/
  made : Nat := 0
  /-- `buf_num_` -/
  num : Int := 4
  /-- `buf_size_` -/
  size : Int := 1024
  /-- `level_` -/
  level : Level := .debug
  pc : LPc := .idle
  fl : FlushPc := .none
  /-- the content of the file -/
  file : Str := []

/-- What a step shows (file_logger.hpp:19-41). -/
inductive LLabel where
  | tau
  /-- `Init` is called and starts the pool -/
  | init
  /-- `Init` reached its end and returned 0 -/
  | inited
  /-- a logging call whose line goes to a buffer -/
  | log (line : Str)
  /-- a logging call that does nothing: level too low, or the logger is not initialised -/
  | ignored (lvl : Level) (msg : Str)
  /-- `Stop` is called (`d`: by the destructor) -/
  | stop (d : Bool)
  /-- `Stop` returns -/
  | stopped
  /-- the destructor returns -/
  | destroyed
  /-- `set_buf_num(n)`; `running`: while the logger is initialised -/
  | setNum (n : Int) (running : Bool)
  /-- the worker could not open the file -/
  | openFailed
  /-- `Stop` could not open the file -/
  | stopOpenFailed
  /-- the operating system did not take all of the data (disk full, say); `File::Append` does not notice -/
  | cut
  | spurious
  deriving DecidableEq

namespace FLog

/-- "[DEBUG]" and so on, file_logger.cpp:62-94 -/
def tag : Level → Str
  | .debug => b!"[DEBUG]"
  | .info => b!"[INFO]"
  | .warn => b!"[WARN]"
  | .error => b!"[ERROR]"
  | .fatal => b!"[FATAL]"

/-- file_logger.cpp:62 and the same in the other four methods; `time` is the result of `GetNowTime`
(file_logger.cpp:138-144). -/
def line (lvl : Level) (time msg : Str) : Str := tag lvl ++ time ++ b!"|" ++ msg ++ b!"\n"

/-- file_logger.hpp:54-59: one buffer is replaced -/
def setBuf (s : FLog) (b : Nat) (x : Buf) : FLog := { s with bufs := fun i => if i = b then x else s.bufs i }

/-- `cur_buffer_->next` is the buffer at this position (file_logger.hpp:58). -/
def nextPos (s : FLog) (c : Nat) : Nat := (c + 1) % s.ring.length

/-- One step of the logger, its pool, or its pool's worker (file_logger.cpp:7-136). -/
inductive Step : FLog → LLabel → FLog → Prop where
  /-- The pool takes a step that neither starts nor finishes a task. -/
  | pool {s p} (h : Pool.Act s.pool .tau p) (h1 : p.started = s.pool.started) (h2 : p.finished = s.pool.finished) :
      Step s .tau { s with pool := p }
  | spurious {s p} (h : Pool.Act s.pool .spurious p) : Step s .spurious { s with pool := p }
  /-- file_logger.cpp:119: the worker calls the task.  (The pool has one worker that is not finished, so `fl` is `none`.) -/
  | flushStart {s p b} (h : Pool.Act s.pool .tau p) (h1 : p.started = s.pool.started ++ [b])
      (h2 : p.finished = s.pool.finished) (hf : s.fl = .none) : Step s .tau { s with pool := p, fl := .start b }
  /-- file_logger.cpp:126-128 -/
  | flushEmpty {s b} (hf : s.fl = .start b) (h : (s.bufs b).data = []) : Step s .tau { s with fl := .ended b }
  /-- file_logger.cpp:129-132; file.cpp:78-80 -/
  | flushFailed {s b} (hf : s.fl = .start b) (h : (s.bufs b).data ≠ []) : Step s .openFailed { s with fl := .ended b }
  /-- file_logger.cpp:129; file.cpp:81-83 -/
  | flushWritten {s b} (hf : s.fl = .start b) (h : (s.bufs b).data ≠ []) :
      Step s .tau { s with fl := .written b, file := s.file ++ (s.bufs b).data }
  /-- file_logger.cpp:129; file.cpp:81-83: the result of `ofs << data` is not looked at -/
  | flushCut {s b k} (hf : s.fl = .start b) (h : k < (s.bufs b).data.length) :
      Step s .cut { s with fl := .written b, file := s.file ++ (s.bufs b).data.take k }
  /-- file_logger.cpp:133 -/
  | flushClear {s b} (hf : s.fl = .written b) :
      Step s .tau { s.setBuf b { s.bufs b with lines := [] } with fl := .cleared b }
  /-- file_logger.cpp:134 -/
  | flushUnmark {s b} (hf : s.fl = .cleared b) :
      Step s .tau { s.setBuf b { s.bufs b with need := false } with fl := .unmarked b }
  /-- file_logger.cpp:135 -/
  | flushTimed {s b} (hf : s.fl = .unmarked b) : Step s .tau { s with fl := .ended b }
  /-- the task returns to the worker -/
  | flushDone {s p b} (h : Pool.Act s.pool .tau p) (h1 : p.started = s.pool.started)
      (h2 : p.finished = s.pool.finished ++ [b]) (hf : s.fl = .ended b) :
      Step s .tau { s with pool := p, fl := .none }
  /-- file_logger.hpp:36-51, logger.hpp:17 -/
  | setNum {s n} (hpc : s.pc = .idle) : Step s (.setNum n s.cur.isSome) { s with num := n }
  | setSize {s n} (hpc : s.pc = .idle) : Step s .tau { s with size := n }
  | setLevel {s v} (hpc : s.pc = .idle) : Step s .tau { s with level := v }
  /-- file_logger.cpp:28-40, when the checks before 40 have succeeded (`fileLoggerInit`) -/
  | init {s p} (hpc : s.pc = .idle) (h : Pool.Act s.pool (.call (.client 0) (.init 1)) p) :
      Step s .init { s with pool := p, pc := .initing }
  /-- file_logger.cpp:41-55; a negative `buf_size_` makes `reserve` throw, which is not modelled -/
  | inited {s p} (hpc : s.pc = .initing) (h : Pool.Act s.pool (.ret (.client 0) .inited) p) (hs : 0 ≤ s.size) :
      Step s .inited { s with
        pool := p, pc := .idle, cur := some 0, ring := List.range' s.made (max 1 s.num.toNat),
        made := s.made + max 1 s.num.toNat,
        bufs := fun i => if s.made ≤ i ∧ i < s.made + max 1 s.num.toNat then {} else s.bufs i }
  /-- file_logger.cpp:58-96 -/
  | log {s lvl time msg c b} (hpc : s.pc = .idle) (hl : ¬ s.level.val > lvl.val) (hc : s.cur = some c)
      (hb : s.ring[c]? = some b) :
      Step s (.log (line lvl time msg))
        { s.setBuf b { s.bufs b with lines := (s.bufs b).lines ++ [line lvl time msg] } with pc := .check }
  | ignored {s lvl msg} (hpc : s.pc = .idle) (h : s.level.val > lvl.val ∨ s.cur = none) :
      Step s (.ignored lvl msg) s
  /-- file_logger.cpp:99-101, the test fails: neither too large nor, by the clock, too old -/
  | noFlush {s c b} (hpc : s.pc = .check) (hc : s.cur = some c) (hb : s.ring[c]? = some b)
      (h : ¬ (s.bufs b).data.length > intToSize s.size) : Step s .tau { s with pc := .idle }
  /-- file_logger.cpp:99-103, the test succeeds: too large, or too old and not empty -/
  | mark {s c b} (hpc : s.pc = .check) (hc : s.cur = some c) (hb : s.ring[c]? = some b)
      (h : (s.bufs b).data.length > intToSize s.size ∨ (s.bufs b).data ≠ []) :
      Step s .tau { s.setBuf b { s.bufs b with need := true } with pc := .next b }
  /-- file_logger.cpp:105-113 -/
  | nextFull {s b c n} (hpc : s.pc = .next b) (hc : s.cur = some c) (hn : s.ring[s.nextPos c]? = some n)
      (h : (s.bufs n).need = true) :
      Step s .tau { s.setBuf s.made {} with
        pc := .add b, cur := some (c + 1), ring := s.ring.take (c + 1) ++ s.made :: s.ring.drop (c + 1),
        made := s.made + 1, num := s.num + 1 }
  /-- file_logger.cpp:114-116 -/
  | nextFree {s b c n} (hpc : s.pc = .next b) (hc : s.cur = some c) (hn : s.ring[s.nextPos c]? = some n)
      (h : (s.bufs n).need = false) : Step s .tau { s with pc := .add b, cur := some (s.nextPos c) }
  /-- file_logger.cpp:119-120 -/
  | add {s p b} (hpc : s.pc = .add b) (h : Pool.Act s.pool (.call (.client 0) (.add b)) p) :
      Step s .tau { s with pool := p, pc := .adding b }
  /-- file_logger.cpp:120-122, whatever `AddTask` returned -/
  | added {s p b rc} (hpc : s.pc = .adding b) (h : Pool.Act s.pool (.ret (.client 0) (.added rc)) p) :
      Step s .tau { s with pool := p, pc := .idle }
  /-- file_logger.cpp:7-9; file_logger.hpp:24 -/
  | stop {s p d} (hpc : s.pc = .idle) (h : Pool.Act s.pool (.call (.client 0) .stop) p) :
      Step s (.stop d) { s with pool := p, pc := .stopping d }
  /-- file_logger.cpp:9-13 -/
  | stopNull {s p d} (hpc : s.pc = .stopping d) (h : Pool.Act s.pool (.ret (.client 0) .stopped) p)
      (hc : s.cur = none) : Step s .tau { s with pool := p, pc := .fin d }
  /-- file_logger.cpp:9-16 -/
  | stopJoined {s p d c} (hpc : s.pc = .stopping d) (h : Pool.Act s.pool (.ret (.client 0) .stopped) p)
      (hc : s.cur = some c) : Step s .tau { s with pool := p, pc := .flush d 0 }
  /-- file_logger.cpp:18, 21: nothing in this buffer -/
  | stopSkip {s d b} {i : Nat} (hpc : s.pc = .flush d i) (hi : (i : Int) < s.num) (hb : s.ring[i % s.ring.length]? = some b)
      (h : (s.bufs b).data = []) : Step s .tau { s with pc := .flush d (i + 1) }
  /-- file_logger.cpp:19, 124-136 -/
  | stopWrite {s d b} {i : Nat} (hpc : s.pc = .flush d i) (hi : (i : Int) < s.num) (hb : s.ring[i % s.ring.length]? = some b)
      (h : (s.bufs b).data ≠ []) :
      Step s .tau { s.setBuf b {} with pc := .flush d (i + 1), file := s.file ++ (s.bufs b).data }
  /-- file_logger.cpp:19, 129-132 -/
  | stopFailed {s d b} {i : Nat} (hpc : s.pc = .flush d i) (hi : (i : Int) < s.num)
      (hb : s.ring[i % s.ring.length]? = some b) (h : (s.bufs b).data ≠ []) :
      Step s .stopOpenFailed { s with pc := .flush d (i + 1) }
  /-- file_logger.cpp:19, 129; file.cpp:81-83 -/
  | stopCut {s d b k} {i : Nat} (hpc : s.pc = .flush d i) (hi : (i : Int) < s.num) (hb : s.ring[i % s.ring.length]? = some b)
      (h : k < (s.bufs b).data.length) :
      Step s .cut { s.setBuf b {} with pc := .flush d (i + 1), file := s.file ++ (s.bufs b).data.take k }
  /-- file_logger.cpp:17, 23-25 -/
  | stopEnd {s d} {i : Nat} (hpc : s.pc = .flush d i) (hi : ¬ (i : Int) < s.num) :
      Step s .tau { s with pc := .fin d, cur := none, ring := [] }
  /-- file_logger.cpp:26 -/
  | stopped {s} (hpc : s.pc = .fin false) : Step s .stopped { s with pc := .idle }
  /-- file_logger.hpp:24, threadpool.hpp:29 -/
  | destroy {s p} (hpc : s.pc = .fin true) (h : Pool.Act s.pool (.call (.client 0) .destroy) p) :
      Step s .tau { s with pool := p, pc := .destroying }
  | destroyed {s p} (hpc : s.pc = .destroying) (h : Pool.Act s.pool (.ret (.client 0) .destroyed) p) :
      Step s .destroyed { s with pool := p, pc := .gone }

end FLog

/-- file_logger.cpp:28-40, the part of `Init` before the pool is started.  `created`: what `File::Create` returns or
throws; `canWrite`: what `File::CanWrite` returns or throws.  `inr ()`: goes on to start the pool. -/
def fileLoggerInit (created : Out Int) (canWrite : Out Bool) : Out (Int ⊕ Unit) := do
  let rc ← created
  if rc ≠ 0 then .ok (.inl rc)
  else
    let w ← canWrite
    let rc : Int := if w then 1 else 0
    if rc = 0 then .ok (.inl rc) else .ok (.inr ())

end Cppnet
