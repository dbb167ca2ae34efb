import Verif.Cpp.Num
import Verif.Spec.Calendar

/-!
# Model of `FileLogger::GetNowTime` (`src/cppnet/log/file_logger.cpp`)

One thread logs (for several, see `Model/LogThreads`).  `localtime` is the calendar of `Spec/Calendar` in the given time zone;
what it does when the year does not fit an `int` is not modelled.
-/

namespace Cppnet
open Spec

/-- `strftime`, "%m", "%d", "%H", "%M" and "%S" (file_logger.cpp:142): two digits. -/
def twoDigits (n : Nat) : Str := [UInt8.ofNat (48 + n / 10), UInt8.ofNat (48 + n % 10)]

/-- file_logger.cpp:142: `strftime(buf, sizeof(buf), "%Y-%m-%d %H:%M:%S", tm_now)`.  (The 64 bytes of `buf` suffice for every
year that is an `int`.) -/
def strftimeStamp (w : WallTime) : Str :=
  natToStr w.date.year ++ b!"-" ++ twoDigits w.date.month ++ b!"-" ++ twoDigits w.date.day ++ b!" " ++
    twoDigits w.hour ++ b!":" ++ twoDigits w.min ++ b!":" ++ twoDigits w.sec

/-- file_logger.cpp:138-144: `GetNowTime` in the time zone `z` when `time(nullptr)` is `now`. -/
def getNowTime (z : Zone) (now : Nat) : Str := strftimeStamp (z.shows now)

end Cppnet
