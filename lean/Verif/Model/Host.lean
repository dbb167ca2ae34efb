import Verif.Model.Address

/-!
# Model of `src/cppnet/utils/host.cpp` and `src/cppnet/utils/version.cpp`
-/

namespace Cppnet

/-- What the machine answers: its name (`none`: `gethostname` fails), without NUL bytes, and the IPv4 addresses that `gethostbyname` finds for a
name (`none`: a null pointer) (host.cpp:15, 21-22). -/
structure Machine where
  name : Option Str
  lookup : Str → Option (List Ip)

/-- host.cpp:14-16, 20-21: the text in a buffer of 512 zero bytes after `gethostname(buf, 512)`; glibc copies as much of the name as fits, so that a
name of 512 bytes or more is not terminated and reading it as a C string runs out of the buffer. -/
def hostBuffer (m : Machine) : Out Str :=
  match m.name with
  | none => .ok []
  | some n => if n.length < 512 then .ok n else .error .ub

/-- host.cpp:13-17, `GetLocalName`. -/
def getLocalName (m : Machine) : Out Str := hostBuffer m

/-- host.cpp:19-27, `GetLocalIP`; an empty list of addresses would be read beyond its end. -/
def getLocalIP (m : Machine) : Out Str := do
  let name ← hostBuffer m
  match m.lookup name with
  | none => pure []
  | some [] => .error .ub
  | some (ip :: _) => pure (inetNtoa ip)

/-- version.cpp:5-11, `GetStr`; the argument is the macro `CPPNET_VERSION`, if it is defined. -/
def versionStr (v : Option Str) : Str := v.getD b!"unknown"

/-- version.cpp:13-19, `GetDate`; the argument is the macro `CPPNET_VERSION_DATE`, if it is defined. -/
def versionDate (v : Option Str) : Str := v.getD b!"0000-00-00"

end Cppnet
