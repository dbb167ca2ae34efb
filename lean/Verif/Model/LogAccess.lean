import Verif.Model.FileLogger

/-!
# Which plain variables of the file logger each action reads and writes

`need_flush` (`src/cppnet/log/file_logger.hpp:56`) is `std::atomic`, and the pool has its own synchronisation
(`Model/PoolAccess`).  The pool's worker touches, outside the pool, only what `FlushBuffer` and the task that calls it touch;
the members `buf_num_`, `buf_size_`, `flush_interval_sec_`, `buffers_list_`, `cur_buffer_` and `level_` are used by the
logger's own thread alone and are left out.
-/

namespace Cppnet

/-- The plain variables that both threads use (file_logger.hpp:55, 57, 67). -/
inductive LogVar where
  /-- `Buffer::data` of a buffer -/
  | data (b : Nat)
  /-- `Buffer::last_flush_time` of a buffer -/
  | time (b : Nat)
  /-- `file_path_` -/
  | path
  deriving DecidableEq

/-- A read or a write of one of them (file_logger.hpp:55-67). -/
inductive LogAccess where
  | read (v : LogVar)
  | write (v : LogVar)
  deriving DecidableEq

namespace FLog

/-- The number of the buffer that `cur_buffer_` points to (file_logger.hpp:73). -/
def curBuf (s : FLog) : Option Nat :=
  match s.cur with
  | some c => s.ring[c]?
  | none => none

/-- What a logging call first accesses (file_logger.cpp:62, 70, 78, 86, 94). -/
def logAccesses (s : FLog) : List LogAccess :=
  match s.curBuf with
  | some b => [.read (.data b), .write (.data b)]
  | none => []

/-- What `Init` first accesses (file_logger.cpp:29, 32). -/
def initAccesses : List LogAccess := [.read .path, .write .path]

/-- What the next action of the logger's thread inside a call accesses: `CheckFlush` (file_logger.cpp:99-101, where the time
is read if the data is not too long already; 107-112), the loop of `Stop` and the end of the buffers' lives after it
(17-25), the creation of the buffers in `Init` (42-52). -/
def callAccesses (s : FLog) : List LogAccess :=
  match s.pc with
  | .check =>
    match s.curBuf with
    | some b => if (s.bufs b).data.length > intToSize s.size then [.read (.data b)] else [.read (.data b), .read (.time b)]
    | none => []
  | .next _ => [.write (.data s.made), .write (.time s.made)]
  | .flush _ i =>
    if (i : Int) < s.num then
      match s.ring[i % s.ring.length]? with
      | some b => [.read .path, .read (.data b), .write (.data b), .write (.time b)]
      | none => []
    else s.ring.flatMap fun b => [.write (.data b), .write (.time b)]
  | .initing => (List.range' s.made (max 1 s.num.toNat)).flatMap fun b => [.write (.data b), .write (.time b)]
  | _ => []

/-- What the logger's thread may access next: between two calls (file_logger.cpp:28-96) the caller chooses the call. -/
def userAccesses (s : FLog) : List LogAccess :=
  match s.pc with
  | .idle => s.logAccesses ++ initAccesses
  | _ => s.callAccesses

/-- What the next action of the worker in the task or in `FlushBuffer` accesses (file_logger.cpp:119, 126-135).  The data is
read up to the end of `File::Append`, which is one step of the model. -/
def flushAccesses (s : FLog) : List LogAccess :=
  match s.fl with
  | .start b => [.read .path, .read (.data b)]
  | .written b => [.write (.data b)]
  | .unmarked b => [.write (.time b)]
  | _ => []

end FLog
end Cppnet
