import Verif.Cpp.Basic

/-!
# Model of `src/cppnet/log/logger.hpp`, `std_logger.hpp`, `multi_logger.cpp`
-/

namespace Cppnet

/-- logger.hpp:8 -/
inductive Level where
  | debug
  | info
  | warn
  | error
  | fatal
  deriving DecidableEq, Repr

/-- logger.hpp:8, the enumerators' values; `level_ > Level::kX` compares them. -/
def Level.val : Level → Nat
  | .debug => 0
  | .info => 1
  | .warn => 2
  | .error => 3
  | .fatal => 4

/-- A logger object.  `base`: the class `Logger` itself.  `std`: a `StdLogger`.  `sink n`: a logger class of the
user's own that records every call (number `n` tells such loggers apart).  `multi`: a `MultiLogger` with its
vector of `shared_ptr`s, `none` being a null pointer.  `level` is `level_`, logger.hpp:20.  (Loggers that are shared, and a `MultiLogger` that
contains itself: `Model/LogGraph`.  `FileLogger` has its own model.) -/
inductive Logger where
  | base (level : Level)
  | std (level : Level)
  | sink (n : Nat)
  | multi (level : Level) (loggers : List (Option Logger))

/-- What a logging call does: text on `std::cout` or `std::cerr`, or a call that reaches a user's logger
(std_logger.hpp:11-38). -/
inductive LogOut where
  | cout (text : Str)
  | cerr (text : Str)
  | sink (n : Nat) (lvl : Level) (msg : Str)
  deriving DecidableEq

/-- std_logger.hpp:11-38: the five methods. -/
def stdLog (level lvl : Level) (msg : Str) : List LogOut :=
  match lvl with
  | .debug => if level.val > Level.debug.val then [] else [.cout (b!"[DEBUG]:" ++ msg ++ b!"\n")]
  | .info => if level.val > Level.info.val then [] else [.cout (b!"[INFO]:" ++ msg ++ b!"\n")]
  | .warn => if level.val > Level.warn.val then [] else [.cout (b!"[WARN]:" ++ msg ++ b!"\n")]
  | .error => if level.val > Level.error.val then [] else [.cerr (b!"[ERROR]:" ++ msg ++ b!"\n")]
  | .fatal => [.cerr (b!"[FATAL]:" ++ msg ++ b!"\n")]

mutual
/-- logger.hpp:12-16, std_logger.hpp:11-38, multi_logger.cpp:11-39: the virtual method for `lvl`. -/
def Logger.log : Logger → Level → Str → Out (List LogOut)
  | .base _, _, _ => .ok []
  | .std level, lvl, msg => .ok (stdLog level lvl msg)
  | .sink n, lvl, msg => .ok [.sink n lvl msg]
  | .multi _ loggers, lvl, msg => Logger.logAll loggers lvl msg

/-- multi_logger.cpp:12-14 (and the same loop in the other four): the loop over `loggers_`. -/
def Logger.logAll : List (Option Logger) → Level → Str → Out (List LogOut)
  | [], _, _ => .ok []
  | none :: _, _, _ => .error .ub
  | some l :: ls, lvl, msg => do
    let a ← Logger.log l lvl msg
    let b ← Logger.logAll ls lvl msg
    .ok (a ++ b)
end

/-- logger.hpp:17, `set_level`. -/
def Logger.setLevel : Logger → Level → Logger
  | .base _, v => .base v
  | .std _, v => .std v
  | .sink n, _ => .sink n
  | .multi _ ls, v => .multi v ls

/-- multi_logger.cpp:5-9, `MultiLogger::Init` (for another class of logger: no such method, nothing happens). -/
def Logger.init : Logger → List (Option Logger) → Logger
  | .multi level ls, more => .multi level (ls ++ more)
  | l, _ => l

end Cppnet
