import Verif.Model.FileLogger

/-!
# Model of the clock in `FileLogger` (`src/cppnet/log/file_logger.cpp`)

`Model/FileLogger` interleaves the single steps of the logger and its worker but knows no time: a buffer may be found too old or not
at any call.  Here are the times.  Simplifications: a logging call is one step, and so is a task of the worker; each reads the clock
once; the pool is a queue (C51); the file can be opened (else C57); `Stop` is not called; the settings do not change after `Init`.
-/

namespace Cppnet

/-- file_logger.hpp:54-59; each line with the time at which it was logged. -/
structure ABuf where
  lines : List (Int × Str) := []
  /-- `need_flush` -/
  need : Bool := false
  /-- `last_flush_time` -/
  last : Int := 0
  deriving DecidableEq

/-- `Buffer::data.size()` (file_logger.hpp:55). -/
def ABuf.size (b : ABuf) : Nat := (b.lines.map (·.2.length)).sum

/-- The logger (file_logger.hpp:67-73), the tasks of its worker, and the file. -/
structure ALog where
  bufs : Nat → ABuf := fun _ => {}
  /-- `buffers_list_` and the buffers that follow it -/
  ring : List Nat := []
  /-- the position of `cur_buffer_` -/
  cur : Nat := 0
  /-- how many buffers there are -/
  made : Nat := 0
  /-- `buf_size_` -/
  size : Int := 1024
  /-- `flush_interval_sec_` -/
  interval : Int := 3
  /-- the tasks of the worker, first one first -/
  queue : List Nat := []
  /-- the lines in the file -/
  file : List (Int × Str) := []

/-- file_logger.hpp:54-59: one buffer is replaced. -/
def ALog.setBuf (s : ALog) (b : Nat) (x : ABuf) : ALog := { s with bufs := fun i => if i = b then x else s.bufs i }

/-- file_logger.cpp:41-56, the end of `Init`. -/
def ageInit (num size interval now : Int) : ALog :=
  { bufs := fun _ => { last := now }, ring := List.range (max 1 num.toNat), made := max 1 num.toNat, size := size, interval := interval }

/-- `cur_buffer_` (file_logger.hpp:73). -/
def ALog.curBuf (s : ALog) : Nat := s.ring.getD s.cur 0

/-- file_logger.cpp:98-122, `CheckFlush`. -/
def ageCheck (s : ALog) (now : Int) : ALog :=
  let b := s.curBuf
  if (s.bufs b).size > intToSize s.size ∨ ((s.bufs b).last + s.interval < now ∧ (s.bufs b).size ≠ 0) then
    let s := s.setBuf b { s.bufs b with need := true }
    let n := s.ring.getD ((s.cur + 1) % s.ring.length) 0
    let s :=
      if (s.bufs n).need then
        { s.setBuf s.made { last := now } with
          ring := s.ring.take (s.cur + 1) ++ s.made :: s.ring.drop (s.cur + 1), cur := s.cur + 1, made := s.made + 1 }
      else { s with cur := (s.cur + 1) % s.ring.length }
    { s with queue := s.queue ++ [b] }
  else s

/-- file_logger.cpp:58-96: a call that logs `line`. -/
def ageLog (s : ALog) (now : Int) (line : Str) : ALog :=
  let b := s.curBuf
  ageCheck (s.setBuf b { s.bufs b with lines := (s.bufs b).lines ++ [(now, line)] }) now

/-- file_logger.cpp:119, 124-136: the worker does its next task, if there is one. -/
def ageFlush (s : ALog) (now : Int) : ALog :=
  match s.queue with
  | [] => s
  | b :: queue =>
    let s := { s with queue := queue }
    if (s.bufs b).size = 0 then s
    else { s.setBuf b { last := now } with file := s.file ++ (s.bufs b).lines }

/-- What happens, and when: a line is logged, or the worker does a task (file_logger.cpp:58-136). -/
inductive AgeEv where
  | log (now : Int) (line : Str)
  | flush (now : Int)
  deriving DecidableEq

/-- The time of an event (file_logger.cpp:100, 135). -/
def AgeEv.time : AgeEv → Int
  | .log t _ => t
  | .flush t => t

/-- A history (file_logger.cpp:58-136). -/
def ageRun : ALog → List AgeEv → ALog
  | s, [] => s
  | s, .log t l :: evs => ageRun (ageLog s t l) evs
  | s, .flush t :: evs => ageRun (ageFlush s t) evs

end Cppnet
