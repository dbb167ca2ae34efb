import Verif.Cpp.Num
import Verif.Model.HttpCodes

/-!
# Model of `src/cppnet/socket/socket.cpp`, `socket.hpp` (POSIX branch) and the read path of
`src/cppnet/ssl/ssl_socket.cpp`

Two views of one object: the byte stream it reads (`Conn`), and the system calls a history of calls
makes (`Sock`, `SockOp`).
-/

namespace Cppnet

/-- The receiving half of a blocking connection, up to its first failure: the bytes that will still
arrive, and what `recv` returns when they are used up (0: the peer closed, -1: error or timeout).
Simplification: what happens after the first failure is not described; every modelled call stops
there (read at socket.hpp:201). -/
structure Conn where
  input : Str
  fin : Int
  deriving DecidableEq

/-- The flag argument of `IORead` (the code uses 0, `MSG_WAITALL` and `MSG_PEEK`)
(socket.hpp:199, ssl_socket.cpp:64). -/
inductive RecvFlag where
  | none | waitall | peek
  deriving DecidableEq

/-- Linux's `MAX_RW_COUNT`: no `recv` or `send` moves more bytes (bounds socket.hpp:201). -/
def maxRw : Nat := 0x7ffff000

/-- How many bytes a `recv` of `len` bytes delivers when `avail` are to come: with `MSG_WAITALL` as many
as possible, otherwise any positive number (`chunk` is the environment's choice) (called at socket.hpp:201). -/
def recvCount (len avail chunk : Nat) : RecvFlag → Nat
  | .waitall => min (min len maxRw) avail
  | _ => min (min (min len maxRw) avail) (chunk + 1)

/-- socket.hpp:199-205, `Socket::IORead` = `::recv`: result, bytes received, connection afterwards. -/
def ioRead (c : Conn) (len : Nat) (flag : RecvFlag) (chunk : Nat) : Int × Str × Conn :=
  if len = 0 then (0, [], c)
  else if c.input = [] then (c.fin, [], c)
  else
    let n := recvCount len c.input.length chunk flag
    (n, c.input.take n, if flag = .peek then c else { c with input := c.input.drop n })

/-- Assignment of a `char *` to a `std::string` (the text up to the first NUL) (socket.cpp:119, 143, 174). -/
def cString (data : Str) : Str := data.takeWhile (fun c => c != 0)

/-- socket.cpp:113-123, `Socket::Read(std::string &, …)` on an open socket: the bytes go to a zeroed
array of `len + 1` chars, which is assigned to `buf` as a C string.  (What happens when the
array cannot be made is in `Model/Memory`.) -/
def sockRead (c : Conn) (len : Nat) (complete : Bool) (chunk : Nat) : Int × Str × Conn :=
  let (rc, bytes, c') := ioRead c len (if complete then .waitall else .none) chunk
  (rc, cString (bytes ++ List.replicate (len + 1 - bytes.length) 0), c')

/-- socket.cpp:137-147, `Socket::ReadPeek` on an open socket. -/
def sockReadPeek (c : Conn) (len : Nat) (chunk : Nat) : Int × Str × Conn :=
  let (rc, bytes, c') := ioRead c len .peek chunk
  (rc, cString (bytes ++ List.replicate (len + 1 - bytes.length) 0), c')

/-- socket.cpp:154-163, the loop of `Socket::ReadUntil` on an open socket: the condition is tested
first (`buf.size() - delim.size()` wraps), then one byte is read.  `last` is `delim[delim_len - 1]`. -/
def readUntilLoop (delim : Str) (last : Byte) (fin : Int) (ch : Byte) (buf : Str) :
    Str → Out (Int × Str × Conn)
  | [] =>
    if ch = last then
      match substrFrom buf (szSub buf.length delim.length) with
      | .error e => .error e
      | .ok t => if t = delim then .ok (toInt32 buf.length, buf, ⟨[], fin⟩) else .ok (fin, buf, ⟨[], fin⟩)
    else .ok (fin, buf, ⟨[], fin⟩)
  | c :: cs =>
    if ch = last then
      match substrFrom buf (szSub buf.length delim.length) with
      | .error e => .error e
      | .ok t =>
        if t = delim then .ok (toInt32 buf.length, buf, ⟨c :: cs, fin⟩)
        else readUntilLoop delim last fin c (buf ++ [c]) cs
    else readUntilLoop delim last fin c (buf ++ [c]) cs

/-- socket.cpp:149-164, `Socket::ReadUntil` on an open socket. -/
def sockReadUntil (c : Conn) (buf delim : Str) : Out (Int × Str × Conn) :=
  match delim.getLast? with
  | none => .ok (-1, buf, c)
  | some last => readUntilLoop delim last c.fin 0 buf c.input

/-! ### The SSL variant -/

/-- `SSL_read(ssl, buf, num)` with `int num`: a non-positive `num` fails; otherwise some positive number
of bytes (at most what the current record holds: `chunk` is the environment's choice), or the
connection's end (`fin ≤ 0`) (called at ssl_socket.cpp:68, 78). -/
def sslRead (c : Conn) (num : Int) (chunk : Nat) : Int × Str × Conn :=
  if num ≤ 0 then (-1, [], c)
  else if c.input = [] then (c.fin, [], c)
  else
    let n := min (min num.toNat c.input.length) (chunk + 1)
    (n, c.input.take n, { c with input := c.input.drop n })

/-- ssl_socket.cpp:67-75, the loop of `SSLSocket::IORead` with `MSG_WAITALL`.  `total_len` is an `int`
(its conversion to `size_t` in 67 is exact while it is not negative); `len - total_len` is narrowed to
`int` by the call.  `chunks` gives the record sizes; each round consumes one.  The list of chunk
sizes is infinite in reality: `fuel` rounds always suffice when `fuel > len`. -/
def sslReadAll (len : Nat) : Nat → Conn → Str → (Nat → Nat) → Out (Int × Str × Conn)
  | 0, _, _, _ => .error .diverge
  | fuel + 1, c, got, chunks =>
    if got.length < len then
      let (rc, bytes, c') := sslRead c (toInt32 (len - got.length)) (chunks 0)
      if rc ≤ 0 then .ok (kSysErr, got, c')
      else sslReadAll len fuel c' (got ++ bytes) (fun i => chunks (i + 1))
    else .ok (toInt32 got.length, got, c)

/-- ssl_socket.cpp:63-80, `SSLSocket::IORead`: `MSG_PEEK` is ignored. -/
def sslIoRead (c : Conn) (len : Nat) (flag : RecvFlag) (chunks : Nat → Nat) : Out (Int × Str × Conn) :=
  if flag = .waitall then sslReadAll len (len + 1) c [] chunks
  else .ok (sslRead c (toInt32 len) (chunks 0))

/-! ### Status and system calls -/

/-- socket.hpp:17-21. -/
inductive SockStatus where
  | uninit | init | closed
  deriving DecidableEq, Repr

/-- socket.hpp:216-217, the members. -/
structure Sock where
  fd : Int := -1
  status : SockStatus := .uninit
  deriving DecidableEq, Repr

/-- The system calls the class makes, with the descriptor they are applied to (socket.cpp:12-254). -/
inductive Syscall where
  | socket | accept (fd : Int) | listen (fd : Int) | bind (fd : Int) | connect (fd : Int) | close (fd : Int)
  | recv (fd : Int) | send (fd : Int) | recvfrom (fd : Int) | sendto (fd : Int) | fcntl (fd : Int)
  | setsockopt (fd : Int) | getpeername (fd : Int)
  deriving DecidableEq, Repr

/-- A call of a member function, together with what the system answers (`res`) (socket.hpp:31-178). -/
inductive SockOp where
  | init (res : Int) | initUdp (res : Int) | accept (res : Int) | listen (res : Int) | bind (res : Int)
  | connect (res : Int) | close (res : Int) | read (res : Int) | readPeek (res : Int)
  | readUntil (rounds : Nat) (res : Int) | readUdp (res : Int) | write (res : Int) | writeUdp (res : Int)
  | getAddr (res : Int) | setNoBlock (flags res : Int) | setBlock (flags res : Int) | setSockOpt (res : Int)
  deriving DecidableEq, Repr

/-- socket.cpp:12-17, `Socket::Socket(int fd)`. -/
def Sock.ofFd (fd : Int) : Sock := if fd < 0 then { fd := fd } else { fd := fd, status := .init }

/-- The common shape of the guarded members: -1 unless initialised, else the system call (socket.cpp:37-254). -/
def Sock.guarded (s : Sock) (calls : List Syscall) (res : Int) : Sock × Int × List Syscall :=
  if s.status ≠ .init then (s, -1, []) else (s, res, calls)

/-- socket.cpp:19-26 and 28-35, `Init`/`InitUdp`: the descriptor is stored even when it is -1; the status
is left alone then. -/
def Sock.create (s : Sock) (res : Int) : Sock × Int × List Syscall :=
  if res < 0 then ({ s with fd := res }, -1, [.socket]) else ({ fd := res, status := .init }, 0, [.socket])

/-- socket.cpp:37-254: one call: object afterwards, return value (for `Accept` the descriptor of the
returned socket), system calls made.  `readUntil` has no early exit for an empty delimiter here (that
makes fewer calls). `SetNoBlock`, `SetBlock` (78-111) and the option setters (220-247) do not look
at the status. -/
def Sock.apply (s : Sock) : SockOp → Sock × Int × List Syscall
  | .init res => s.create res
  | .initUdp res => s.create res
  | .accept res => s.guarded [.accept s.fd] res
  | .listen res => s.guarded [.listen s.fd] res
  | .bind res => s.guarded [.bind s.fd] res
  | .connect res => s.guarded [.connect s.fd] res
  | .close res => if s.status ≠ .init then (s, -1, []) else ({ s with status := .closed }, res, [.close s.fd])
  | .read res => s.guarded [.recv s.fd] res
  | .readPeek res => s.guarded [.recv s.fd] res
  | .readUntil rounds res => s.guarded (List.replicate rounds (.recv s.fd)) res
  | .readUdp res => s.guarded [.recvfrom s.fd] res
  | .write res => s.guarded [.send s.fd] res
  | .writeUdp res => s.guarded [.sendto s.fd] res
  | .getAddr res => s.guarded [.getpeername s.fd] res
  | .setNoBlock flags res => if flags = -1 then (s, -1, [.fcntl s.fd]) else (s, res, [.fcntl s.fd, .fcntl s.fd])
  | .setBlock flags res => if flags = -1 then (s, -1, [.fcntl s.fd]) else (s, res, [.fcntl s.fd, .fcntl s.fd])
  | .setSockOpt res => (s, res, [.setsockopt s.fd])

/-- A history of calls on one object: the object afterwards and, per call, its return value and system
calls (socket.hpp:31-178). -/
def Sock.run : Sock → List SockOp → Sock × List (SockOp × Int × List Syscall)
  | s, [] => (s, [])
  | s, op :: ops =>
    let (s', r, calls) := s.apply op
    let (s'', log) := Sock.run s' ops
    (s'', (op, r, calls) :: log)

end Cppnet
