import Verif.Model.WebServer

/-!
# Model of `demo/web-server/main.cpp` as a process with an exit status

The process is followed that goes on to serve.  (If the configuration wants the background the process that was started exits with 0 at once,
process_ctrl.cpp:8-11, whatever comes of the other.)
-/

namespace Cppnet
variable {φ σ : Type}

/-- What the process did (main.cpp:183-196): whether it only printed a text, whom it signalled, how far `RunWithConfig` got if it was
called, and the exit status (`none`: killed by `abort`). -/
structure WebProc (σ : Type) where
  printed : Bool := false
  kills : List (Int × Int) := []
  served : Option (WebEnd σ) := none
  status : Option Int

/-- main.cpp:183-196, `main` after the options are declared, with argc_deal.cpp:35-46: `Run` returns what `_main` returns, and `_main`
returns 0 after `RunWithConfig` (main.cpp:179-180).  The system keeps 8 bits of a status. -/
def webProgram (o : HashOrder) (res : Str → FsKey) (fs : FsTree) (a : MainAns) (wa : WebAns) (self : Int) (d : ArgcDeal φ) : WebProc σ :=
  match argcRun o d with
  | .printed _ => { printed := true, status := some 0 }
  | .program _ =>
    match webMain res fs a d with
    | { kills, stop := .exit c } => { kills, status := some (c % 256) }
    | { kills, stop := .threw } => { kills, status := none }
    | { kills, stop := .run c } => { kills, served := some (runWithConfig res fs wa self c).2, status := some 0 }

end Cppnet
