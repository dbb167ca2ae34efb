import Verif.Cpp.Num

/-!
# Model of `demo/util/process_ctrl.cpp` (not Windows)

The guardian: a process that starts the program in a child and starts it again when the child has ended.  `fork`,
`waitpid` and the answers of the exit code handler are given by the environment, round by round.
-/

namespace Cppnet

/-- How a child ended, as `waitpid` reports it: by `exit`, or by a signal, possibly with a core
dump (process_ctrl.cpp:26). -/
inductive ChildEnd where
  | exited (code : Nat)
  | signaled (sig : Nat) (core : Bool)
  deriving DecidableEq

/-- The number `waitpid` stores (Linux; process_ctrl.cpp:26). -/
def ChildEnd.status : ChildEnd → Nat
  | .exited code => code % 256 * 256
  | .signaled sig core => sig % 128 + if core then 128 else 0

/-- `WEXITSTATUS` (process_ctrl.cpp:28). -/
def wexitstatus (status : Nat) : Int := (status / 256 % 256 : Nat)

/-- `WIFEXITED` (process_ctrl.cpp:29). -/
def wifexited (status : Nat) : Bool := status % 128 == 0

/-- One round of the loop: the pid of the new child (`none`: `fork` fails), how `waitpid` ends (`none`: it fails and
`status` stays 0), and what the handler would answer (process_ctrl.cpp:22-34). -/
structure GuardRound where
  fork : Option Nat
  wait : Option ChildEnd
  verdict : Int → Bool → Bool := fun _ _ => true

/-- What the guardian does (process_ctrl.cpp:21-38).  `forked pid inherited`: a child is started; its own copy of
`child_pid_` is `inherited`, and it returns from `Guard`. -/
inductive GuardEvent where
  | forked (pid : Nat) (inherited : Int)
  | asked (code : Int) (normal : Bool)
  | slept (seconds : Nat)
  deriving DecidableEq

/-- The guardian: its `child_pid_`, what it did, and whether it has returned from `Guard` (process_ctrl.hpp:53). -/
structure Guardian where
  childPid : Int := 0
  done : List GuardEvent := []
  returned : Bool := false

/-- process_ctrl.cpp:22-38, one round; `handler`: was an exit code handler given?  (`fork` gives -1 when it fails, and
the guardian goes on as if it had a child.) -/
def guardRound (handler : Bool) (seconds : Nat) (g : Guardian) (r : GuardRound) : Guardian :=
  let started := match r.fork with
    | some pid => [GuardEvent.forked pid g.childPid]
    | none => []
  let childPid : Int := match r.fork with
    | some pid => pid
    | none => -1
  let status := match r.wait with
    | some e => e.status
    | none => 0
  if handler then
    let code := wexitstatus status
    let normal := wifexited status
    if r.verdict code normal then
      { childPid, done := g.done ++ started ++ [.asked code normal, .slept seconds], returned := false }
    else { childPid, done := g.done ++ started ++ [.asked code normal], returned := true }
  else { childPid, done := g.done ++ started ++ [.slept seconds], returned := false }

/-- process_ctrl.cpp:16-40, `Guard`, as far as the rounds go. -/
def guardLoop (handler : Bool) (seconds : Nat) : Guardian → List GuardRound → Guardian
  | g, [] => g
  | g, r :: rs =>
    let g := guardRound handler seconds g r
    if g.returned then g else guardLoop handler seconds g rs

/-- process_ctrl.cpp:42-48, `EndGuard`, the handler of SIGINT, SIGQUIT and SIGTERM in the guardian and in its children:
the `kill`s it makes (pid and signal) before it exits. -/
def endGuard (childPid : Int) : List (Int × Int) := if childPid ≠ 0 then [(childPid, 2)] else []

/-- demo/web-server/main.cpp:29-40, the exit code handler of the web server: go on after a crash. -/
def webVerdict (_code : Int) (normal : Bool) : Bool := !normal

end Cppnet
