import Verif.Cpp.Map
import Verif.Model.Socket

/-!
# Model of `demo/util/argc_deal.cpp`

The command line of the demo programs.  The program to run (`app.pfunc`) is an opaque `φ`; what it does is not
modelled here.  `printf` is modelled for the formats used.
-/

namespace Cppnet

/-- `std::unordered_map::insert`: an existing value stays (argc_deal.cpp:12, 16, 28, 75). -/
def umapInsert (m : UMap) (k v : Str) : UMap :=
  match m.get k with
  | none => m.set k v
  | some _ => m

/-- argc_deal.cpp:7-17, the body of the loop of the constructor for one C string. -/
def argStep (m : UMap) (arg : Str) : Out UMap :=
  let now := (cString arg).dropWhile (· == 45)
  match find now b!"=" with
  | none => .ok (umapInsert m now [])
  | some pos => do
    let key ← substr now 0 pos
    let value ← substrFrom now (pos + 1)
    .ok (umapInsert m key value)

/-- argc_deal.hpp:11-38: `app` (name, version, usage, the program), `arg_all_`, `message_`.  `argv_` and `argc_` are
never read again. -/
structure ArgcDeal (φ : Type) where
  name : Str := []
  version : Str := []
  usage : List Str := []
  pfunc : Option φ := none
  argAll : UMap := UMap.empty
  message : UMap := UMap.empty

variable {φ : Type}

/-- argc_deal.cpp:5-19, the constructor; `argv` with the name of the program. -/
def argcDeal (argv : List Str) : Out (ArgcDeal φ) := do
  let m ← (argv.drop 1).foldlM argStep UMap.empty
  .ok { argAll := m }

/-- argc_deal.cpp:21-23, `GetOption`. -/
def argcGetOption (d : ArgcDeal φ) (name : Str) : Bool := (d.argAll.get name).isSome

/-- argc_deal.cpp:64-70, `GetVar`. -/
def argcGetVar (d : ArgcDeal φ) (key : Str) : Str :=
  match d.argAll.get key with
  | none => []
  | some v => v

/-- argc_deal.cpp:25-33, `SetOption`. -/
def argcSetOption (d : ArgcDeal φ) (option usage : Str) (must : Bool) : ArgcDeal φ :=
  let temp := if must then b!",must" else b!",no must"
  let d := { d with message := umapInsert d.message option (usage ++ temp) }
  if must && (d.argAll.get option).isNone then { d with pfunc := none } else d

/-- argc_deal.cpp:72-80, `SetVar`. -/
def argcSetVar (d : ArgcDeal φ) (var usage : Str) (must : Bool) : ArgcDeal φ :=
  let temp := if must then b!",must" else b!",no must"
  let d := { d with message := umapInsert d.message (var ++ b!"=(variable)") (usage ++ temp) }
  if must && (d.argAll.get var).isNone then { d with pfunc := none } else d

/-- `%-32s`: the C string, filled up with blanks on the right (argc_deal.cpp:57, 59, 60). -/
def padRight (s : Str) : Str := cString s ++ List.replicate (32 - (cString s).length) 32

/-- One line of the list of options (argc_deal.cpp:57, 59, 60). -/
def optionLine (name text : Str) : Str := b!"\t--" ++ padRight name ++ b!" " ++ padRight text ++ b!"\n"

/-- argc_deal.cpp:48-62, `MsgPrint`: what is printed. -/
def argcMsg (o : HashOrder) (d : ArgcDeal φ) : Str :=
  b!"app name:\n" ++ (b!"\t" ++ cString d.name ++ b!"  " ++ cString d.version ++ b!"\n") ++ b!"usage:\n" ++
    (d.usage.map fun u => b!"\t" ++ cString u ++ b!"\n").flatten ++ b!"options:\n" ++
    ((o.order d.message).map fun p => optionLine p.1 p.2).flatten ++
    optionLine b!"help,-h" b!"get help of app,no must" ++ optionLine b!"version,-v" b!"get version of app,no must"

/-- What `Run` does: print a text and return 0, or call the program (argc_deal.cpp:35-46). -/
inductive ArgcRun (φ : Type) where
  | printed (text : Str)
  | program (f : φ)
  deriving DecidableEq

/-- argc_deal.cpp:35-46, `Run`. -/
def argcRun (o : HashOrder) (d : ArgcDeal φ) : ArgcRun φ :=
  match d.pfunc with
  | none => .printed (argcMsg o d)
  | some f =>
    if (d.argAll.get b!"h").isSome || (d.argAll.get b!"help").isSome then .printed (argcMsg o d)
    else if (d.argAll.get b!"v").isSome || (d.argAll.get b!"version").isSome then
      .printed (b!"app version:\t" ++ cString d.version ++ b!"\n")
    else .program f

/-- What a program does with its `ArgcDeal` before `Run`: it assigns the members of `app` and declares options and
variables (argc_deal.hpp:11-30). -/
inductive ArgcCall (φ : Type) where
  | setName (name : Str)
  | setVersion (version : Str)
  | setUsage (usage : List Str)
  | setProgram (f : φ)
  | setOption (option usage : Str) (must : Bool)
  | setVar (var usage : Str) (must : Bool)

/-- One of them (argc_deal.hpp:11-30). -/
def argcCall (d : ArgcDeal φ) : ArgcCall φ → ArgcDeal φ
  | .setName n => { d with name := n }
  | .setVersion v => { d with version := v }
  | .setUsage u => { d with usage := u }
  | .setProgram f => { d with pfunc := some f }
  | .setOption n u m => argcSetOption d n u m
  | .setVar n u m => argcSetVar d n u m

/-- A history (argc_deal.hpp:11-30). -/
def argcCalls (d : ArgcDeal φ) (cs : List (ArgcCall φ)) : ArgcDeal φ := cs.foldl argcCall d

end Cppnet
