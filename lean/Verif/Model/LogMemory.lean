import Verif.Model.FileLogger

/-!
# Model of `src/cppnet/log/file_logger.cpp` when memory runs out in a logging call

`Model/FileLogger` and four more steps: the places of a logging call at which an allocation may throw.  The exception ends the call;
the program catches it and goes on.
-/

namespace Cppnet

/-- The places of a logging call at which memory may run out (file_logger.cpp:58-122). -/
inductive Throws where
  /-- file_logger.cpp:62, 70, 78, 86, 94: the line cannot be made or appended (`+=` then leaves the text as it was) -/
  | line
  /-- file_logger.cpp:107: no memory for another `Buffer` -/
  | buffer
  /-- file_logger.cpp:111: no memory for the text of the new `Buffer`, which is in the ring and is the current one already -/
  | room
  /-- file_logger.cpp:119-120: no memory for the task -/
  | task
  deriving DecidableEq

namespace FLog

/-- The call throws; `none` if it is not at that place (file_logger.cpp:58-122). -/
def throwStep (s : FLog) : Throws → Option FLog
  | .line => if s.pc = .idle ∧ s.cur ≠ none then some s else none
  | .buffer =>
    match s.pc, s.cur with
    | .next _, some c =>
      match s.ring[s.nextPos c]? with
      | some n => if (s.bufs n).need then some { s with pc := .idle } else none
      | none => none
    | _, _ => none
  | .room =>
    match s.pc, s.cur with
    | .next _, some c =>
      match s.ring[s.nextPos c]? with
      | some n =>
        if (s.bufs n).need then
          some { s.setBuf s.made {} with
            pc := .idle, cur := some (c + 1), ring := s.ring.take (c + 1) ++ s.made :: s.ring.drop (c + 1), made := s.made + 1 }
        else none
      | none => none
    | _, _ => none
  | .task =>
    match s.pc with
    | .add _ => some { s with pc := .idle }
    | _ => none

end FLog

/-- A step of the logger, or a logging call that throws (file_logger.cpp:7-136). -/
inductive MLabel where
  | step (l : LLabel)
  | threw (k : Throws)
  deriving DecidableEq

/-- One step (file_logger.cpp:7-136). -/
inductive MStep : FLog → MLabel → FLog → Prop where
  | step {s l s'} (h : FLog.Step s l s') : MStep s (.step l) s'
  | threw {s k s'} (h : s.throwStep k = some s') : MStep s (.threw k) s'

end Cppnet
