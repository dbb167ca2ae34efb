import Verif.Model.FileLogger

/-!
# Model of `FileLogger::Init` with its file name (`src/cppnet/log/file_logger.cpp`)

The logger of `Model/FileLogger` with `file_path_` and several files.  Simplifications: nobody else changes the files; the name is
read when the file is opened (in fact it is copied just before, file_logger.cpp:119).
-/

namespace Cppnet

/-- What is at a name, as `File::Create`, `CanWrite` and `Append` find it (file.cpp:50-90). -/
inductive FileAt where
  /-- a file that the process may write -/
  | text (s : Str)
  /-- nothing yet, but it can be created -/
  | absent
  /-- a file that its owner may not write, nor does the process -/
  | locked (s : Str)
  /-- nothing, and it cannot be created -/
  | shut
  /-- something that its owner may write but that this process cannot open for writing: a directory, another user's file -/
  | foreign
  deriving DecidableEq

/-- file.cpp:76-84, `File::Append`; `none`: the file cannot be opened. -/
def FileAt.append : FileAt → Str → Option FileAt
  | .text s, d => some (.text (s ++ d))
  | .absent, d => some (.text d)
  | .locked _, _ => none
  | .shut, _ => none
  | .foreign, _ => none

/-- file.cpp:50-67, `File::Create` (`kSysErr` = -1; creating the directories may throw instead, which is `Init`'s failure too), and
what is there afterwards. -/
def FileAt.create : FileAt → Out Int × FileAt
  | .absent => (.ok 0, .text [])
  | .shut => (.ok (-1), .shut)
  | f => (.ok 0, f)

/-- file.cpp:86-90, `File::CanWrite`: the bit of the owner. -/
def FileAt.canWrite : FileAt → Bool
  | .locked _ => false
  | _ => true

/-- file_logger.cpp:30-39: the checks of `Init`, and what is at the name afterwards. -/
def FileAt.initChecks (f : FileAt) : Out (Int ⊕ Unit) × FileAt :=
  (fileLoggerInit f.create.1 (.ok f.create.2.canWrite), f.create.2)

/-- The logger, `file_path_` (file_logger.hpp:67) and the files. -/
structure PLog where
  log : FLog
  path : Str
  files : Str → FileAt

/-- file.cpp:50-84: the file at `p` is now `f`. -/
def putFile (files : Str → FileAt) (p : Str) (f : FileAt) : Str → FileAt := fun q => if q = p then f else files q

/-- What a step shows: `Init(p)` that passes its checks and starts the thread; `Init(p)` that returns `rc` before that;
or what `Model/FileLogger` shows (file_logger.cpp:7-136). -/
inductive PLabel where
  | init (p : Str)
  | initFailed (p : Str) (rc : Int)
  | log (l : LLabel)
  deriving DecidableEq

/-- One step (file_logger.cpp:7-136). -/
inductive PStep : PLog → PLabel → PLog → Prop where
  /-- file_logger.cpp:29-40: the name is stored first -/
  | init {s p log' f} (hc : (s.files p).initChecks = (.ok (.inr ()), f)) (h : FLog.Step s.log .init log') :
      PStep s (.init p) ⟨log', p, putFile s.files p f⟩
  /-- file_logger.cpp:29-39: the name is stored first -/
  | initFailed {s p rc f} (hpc : s.log.pc = .idle) (hc : (s.files p).initChecks = (.ok (.inl rc), f)) :
      PStep s (.initFailed p rc) ⟨s.log, p, putFile s.files p f⟩
  /-- a step that appends nothing; one that cannot open the file does so because it cannot be opened -/
  | quiet {s l log'} (hl : l ≠ .init) (h : FLog.Step s.log l log') (hd : log'.file = s.log.file)
      (hf : l = .openFailed ∨ l = .stopOpenFailed → ∀ d, (s.files s.path).append d = none) :
      PStep s (.log l) ⟨log', s.path, s.files⟩
  /-- file_logger.cpp:119, 129: what is appended goes to the file that `file_path_` names now -/
  | append {s l log' d f} (hl : l ≠ .init) (h : FLog.Step s.log l log') (hd : log'.file = s.log.file ++ d) (hn : d ≠ [])
      (hf : (s.files s.path).append d = some f) : PStep s (.log l) ⟨log', s.path, putFile s.files s.path f⟩

/-! ### The buffers of an `Init` that runs out of memory -/

/-- The list of buffers when `reserve` or `make_shared` has thrown in `Init` (file_logger.cpp:42-53), `made` buffers having been
linked: each is followed by the next one, the last one by nothing; `cur_buffer_` and `buffers_list_` are not null. -/
def brokenNext (made : Nat) (b : Nat) : Option Nat := if b + 1 < made then some (b + 1) else none

/-- file_logger.cpp:17-22: the loop of `Stop` over the buffers, of which none has data; `none` is the null pointer. -/
def stopWalk (next : Nat → Option Nat) : Nat → Option Nat → Out (Option Nat)
  | 0, cur => .ok cur
  | _ + 1, none => .error .ub
  | n + 1, some b => stopWalk next n (next b)

end Cppnet
