import Verif.Model.Socket

/-!
# Several `Socket` variables and the descriptors behind them

`src/cppnet/socket/socket.hpp:14-218`: a `Socket` is copied like a number (no member forbids it), and its destructor closes
nothing.  Here are the variables of a program, what it calls on them, and the table of the process's open descriptors.

What is simplified: what is sent and received is left out; only which descriptor a system call reaches is kept.
-/

namespace Cppnet

/-- The variables of a program and the open descriptors.  Each successful `socket`, `accept` or other opening has a number of
its own (`next` counts them); `table` says which opening a descriptor number stands for now.  `held` is for the reader only: the
opening whose descriptor a variable was given (socket.hpp:216-217). -/
structure SockVars where
  var : Nat → Sock := fun _ => {}
  held : Nat → Option Nat := fun _ => none
  table : Int → Option Nat := fun _ => none
  next : Nat := 0

/-- What a program does: a member function of a variable, `into = v.Accept(addr)`, an assignment `dst = src` (or a copy for a
callback), and the opening of some other descriptor, a file say (socket.hpp:31-178). -/
inductive VarOp where
  | call (v : Nat) (op : SockOp)
  | accept (v into : Nat) (res : Int)
  | copy (src dst : Nat)
  | elsewhere (fd : Int)
  deriving DecidableEq, Repr

/-- The descriptor a system call is applied to (socket.cpp:12-254). -/
def Syscall.fd? : Syscall → Option Int
  | .socket => none
  | .accept fd | .listen fd | .bind fd | .connect fd | .close fd | .recv fd | .send fd | .recvfrom fd | .sendto fd
  | .fcntl fd | .setsockopt fd | .getpeername fd => some fd

/-- A system call made through a variable: the variable, whether it is `close`, the opening the variable was given, and the
opening the call reaches (`none`: no descriptor of that number is open, the call fails) (socket.cpp:12-254). -/
structure Reach where
  v : Nat
  close : Bool
  own : Option Nat
  hit : Option Nat
  deriving DecidableEq, Repr

/-- The reaches of some system calls made through `v` (socket.cpp:12-254). -/
def SockVars.reaches (w : SockVars) (v : Nat) (calls : List Syscall) : List Reach :=
  calls.filterMap fun c => c.fd?.map fun fd => ⟨v, match c with | .close _ => true | _ => false, w.held v, w.table fd⟩

/-- A function changed at one place. -/
def upd {α β : Type} [DecidableEq α] (f : α → β) (a : α) (b : β) : α → β := fun x => if x = a then b else f x

/-- A descriptor is opened (`socket`, `accept`, `open`; socket.cpp:20, 29, 41). -/
def SockVars.opens (w : SockVars) (fd : Int) : SockVars :=
  { w with table := upd w.table fd (some w.next), next := w.next + 1 }

/-- The descriptors that `close` takes out of the table (socket.cpp:72; Linux frees the number whatever it answers). -/
def SockVars.closes (w : SockVars) : List Syscall → SockVars
  | .close fd :: _ => { w with table := upd w.table fd none }
  | _ => w

/-- One step (socket.cpp:12-254; socket.hpp:14-218 for the copies). -/
def SockVars.step (w : SockVars) : VarOp → SockVars × List Reach
  | .call v op =>
    let (s, _, calls) := (w.var v).apply op
    let w' := (w.closes calls)
    let w' := { w' with var := upd w.var v s }
    match op with
    | .init res | .initUdp res =>
      (if res < 0 then { w' with held := upd w.held v none }
        else { w'.opens res with held := upd w.held v (some w.next) }, w.reaches v calls)
    | .accept res => (if calls = [] ∨ res < 0 then w' else w'.opens res, w.reaches v calls)
    | _ => (w', w.reaches v calls)
  | .accept v into res =>
    let (s, r, calls) := (w.var v).apply (.accept res)
    let w' := { w with var := upd (upd w.var v s) into (Sock.ofFd r) }
    (if calls = [] ∨ res < 0 then { w' with held := upd w.held into none }
      else { w'.opens res with held := upd w.held into (some w.next) }, w.reaches v calls)
  | .copy src dst => ({ w with var := upd w.var dst (w.var src), held := upd w.held dst (w.held src) }, [])
  | .elsewhere fd => (w.opens fd, [])

/-- What the system may answer: a new descriptor has a number that is not in use (`socket(2)`, `accept(2)`, `open(2)`). -/
def SockVars.Answers (w : SockVars) : VarOp → Prop
  | .call _ (.init res) | .call _ (.initUdp res) | .call _ (.accept res) | .accept _ _ res => 0 ≤ res → w.table res = none
  | .elsewhere fd => 0 ≤ fd ∧ w.table fd = none
  | _ => True

/-- A history from the start of the program, with what each system call reached (socket.hpp:31-178). -/
inductive SockRun : SockVars → List Reach → Prop
  | start : SockRun {} []
  | step {w log op} : SockRun w log → w.Answers op → SockRun (w.step op).1 (log ++ (w.step op).2)

/-- What a list of steps does, whether or not the answers in it are possible (socket.hpp:31-178). -/
def SockVars.play (w : SockVars) (ops : List VarOp) : SockVars × List Reach :=
  ops.foldl (fun x op => ((x.1.step op).1, x.2 ++ (x.1.step op).2)) (w, [])

end Cppnet
