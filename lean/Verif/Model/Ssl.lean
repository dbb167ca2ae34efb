import Verif.Model.Socket
import Verif.Cpp.Num

/-!
# Model of `src/cppnet/ssl/ssl_socket.cpp`, `ssl_context.cpp` and of what `HttpServer` does with TLS connections
(`src/cppnet/http/server/http_server.cpp`)

Each function yields the list of OpenSSL and system calls it makes, in order.  OpenSSL's sessions (`SSL *`) and
contexts (`SSL_CTX *`) are numbers; the answers are arguments.  The read path of `SSLSocket` (which bytes are
delivered) is in `Model/Socket.lean`.  Error messages are not modelled.
-/

namespace Cppnet

/-- OpenSSL and system calls, in order.  `shutdown n fd` and `io n fd` (`SSL_read`, `SSL_write`) work on the
descriptor the session was given with `setFd`.  `accepted fd` marks that the server has accepted a connection
(ssl_socket.cpp:10-84, ssl_context.cpp:22-207). -/
inductive SslEv where
  | sslNew (n : Nat) | setFd (n : Nat) (fd : Int) | sslAccept (n : Nat) (rc : Int) | sslConnect (n : Nat) (rc : Int)
  | io (n : Nat) (fd : Int) | shutdown (n : Nat) (fd : Int) | free (n : Nat)
  | connect (fd rc : Int) | close (fd : Int) | accepted (fd : Int) | socket (fd : Int)
  | ctxNew (c : Nat) | ctxFree (c : Nat) | useCert (c : Nat) (cert : Str) (ok : Bool) | useKey (c : Nat) (key : Str) (ok : Bool)
  | certNew | certFree
  deriving DecidableEq, Repr

/-- ssl_socket.hpp:38 and socket.hpp:216-217: the members; a session comes with the descriptor it was given. -/
structure SslSock where
  fd : Int := -1
  status : SockStatus := .uninit
  ssl : Option (Nat × Int) := none
  deriving DecidableEq

/-- ssl_socket.cpp:10-23, the constructor. -/
def SslSock.make (ssl : Option Nat) (soc : Sock) : SslSock × List SslEv :=
  match ssl with
  | none => ({}, [])
  | some n =>
    if soc.status ≠ .init then ({}, [])
    else ({ fd := soc.fd, status := .init, ssl := some (n, soc.fd) }, [.setFd n soc.fd])

/-- ssl_socket.cpp:35-42, `CloseSSL`. -/
def SslSock.closeSSL (s : SslSock) : SslSock × List SslEv :=
  match s.ssl with
  | none => (s, [])
  | some (n, fd) => ({ s with ssl := none }, [.shutdown n fd, .free n])

/-- ssl_socket.cpp:25-33, `Close` (33-34 of socket.cpp's `Close`: status, then `::close`). -/
def SslSock.close (s : SslSock) : SslSock × Int × List SslEv :=
  if s.status ≠ .init then (s, kLogicErr, [])
  else
    let (s', t) := SslSock.closeSSL { s with status := .closed }
    (s', kSuccess, .close s.fd :: t)

/-- ssl_socket.cpp:44-61, `Connect`. -/
def SslSock.connect (s : SslSock) (rc sslRc : Int) : SslSock × Int × List SslEv :=
  match s.ssl with
  | none => (s, kLogicErr, [])
  | some (n, _) =>
    if s.status ≠ .init then (s, kLogicErr, [])
    else if rc < 0 then (s, kSysErr, [.connect s.fd rc])
    else if sslRc ≤ 0 then (s, kSysErr, [.connect s.fd rc, .sslConnect n sslRc])
    else (s, kSuccess, [.connect s.fd rc, .sslConnect n sslRc])

/-- socket.cpp:113-214 with ssl_socket.cpp:63-84: `Read`, `ReadPeek`, `ReadUntil`, `Write` of a closed socket do
nothing; otherwise they use the session without looking whether there is one. -/
def SslSock.io (s : SslSock) (res : Int) : Out (SslSock × Int × List SslEv) :=
  if s.status ≠ .init then .ok (s, -1, [])
  else
    match s.ssl with
    | none => .error .ub
    | some (n, fd) => .ok (s, res, [.io n fd])

/-- A call on the object (ssl_socket.hpp:19-28). -/
inductive SslOp where
  | close | closeSSL | connect (rc sslRc : Int) | io (res : Int)
  deriving DecidableEq

/-- ssl_socket.cpp, one call. -/
def SslSock.apply (s : SslSock) : SslOp → Out (SslSock × List SslEv)
  | .close => let (s, _, t) := s.close; .ok (s, t)
  | .closeSSL => .ok s.closeSSL
  | .connect rc sslRc => let (s, _, t) := s.connect rc sslRc; .ok (s, t)
  | .io res => (s.io res).map fun r => (r.1, r.2.2)

/-- A history of calls on one object (ssl_socket.hpp:10-28). -/
def SslSock.run : SslSock → List SslOp → Out (SslSock × List SslEv)
  | s, [] => .ok (s, [])
  | s, op :: ops => do
    let (s, t) ← s.apply op
    let (s, t') ← SslSock.run s ops
    .ok (s, t ++ t')

/-! ### SSLContext -/

/-- ssl_context.cpp:13-20, `Init(SSL_CTX *)` with the context in hand; the member is overwritten. -/
def ctxAdopt (_ : Option Nat) (c : Nat) : Option Nat := some c

/-- ssl_context.cpp:22-40, `InitCli`; `new` is the answer of `SSL_CTX_new`. -/
def ctxInitCli (m : Option Nat) (new : Option Nat) : Option Nat × Int × List SslEv :=
  if m ≠ none then (m, kLogicErr, [])
  else
    match new with
    | none => (m, kSysErr, [])
    | some c => (ctxAdopt m c, kSuccess, [.ctxNew c])

/-- What OpenSSL answers during `InitSvr` and `InitSvrFile` (ssl_context.cpp:42-151). -/
structure CtxAns where
  new : Option Nat := none
  bio : Bool := true
  parsed : Bool := true
  cert : Bool := true
  key : Bool := true

/-- ssl_context.cpp:42-101, `InitSvr`: the certificate is read from memory; the key is not used. -/
def ctxInitSvr (m : Option Nat) (cert key : Str) (a : CtxAns) : Option Nat × Int × List SslEv :=
  if m ≠ none then (m, kLogicErr, [])
  else if cert = [] ∨ key = [] then (m, kLogicErr, [])
  else
    match a.new with
    | none => (m, kSysErr, [])
    | some c =>
      if !a.bio then (m, kSysErr, [.ctxNew c])
      else if !a.parsed then (m, kSysErr, [.ctxNew c])
      else if !a.cert then (m, kSysErr, [.ctxNew c, .certNew, .useCert c cert false])
      else (ctxAdopt m c, kSuccess, [.ctxNew c, .certNew, .useCert c cert true, .certFree])

/-- ssl_context.cpp:103-151, `InitSvrFile`. -/
def ctxInitSvrFile (m : Option Nat) (cert key : Str) (a : CtxAns) : Option Nat × Int × List SslEv :=
  if m ≠ none then (m, kLogicErr, [])
  else if cert = [] ∨ key = [] then (m, kLogicErr, [])
  else
    match a.new with
    | none => (m, kSysErr, [])
    | some c =>
      if !a.cert then (m, kSysErr, [.ctxNew c, .useCert c cert false])
      else if !a.key then (m, kSysErr, [.ctxNew c, .useCert c cert true, .useKey c key false])
      else (ctxAdopt m c, kSuccess, [.ctxNew c, .useCert c cert true, .useKey c key true])

/-- ssl_context.cpp:201-207, `Close` (also the destructor, 11). -/
def ctxClose (m : Option Nat) : Option Nat × List SslEv :=
  match m with
  | none => (m, [])
  | some c => (none, [.ctxFree c])

/-- ssl_context.cpp:153-166, `CreateSSLSocket(soc)`; `new` is the answer of `SSL_new`. -/
def ctxCreateOn (m : Option Nat) (soc : Sock) (new : Option Nat) : Option SslSock × List SslEv :=
  match m, new with
  | none, _ => (none, [])
  | some _, none => (none, [])
  | some _, some n =>
    let (s, t) := SslSock.make (some n) soc
    (some s, .sslNew n :: t)

/-- ssl_context.cpp:168-181, `CreateSSLSocket()`; `res` is the answer of `::socket`. -/
def ctxCreate (m : Option Nat) (res : Int) (new : Option Nat) : Option SslSock × List SslEv :=
  match m with
  | none => (none, [])
  | some _ =>
    if res < 0 then (none, [])
    else
      let (s, t) := ctxCreateOn m (Sock.ofFd res) new
      (s, .socket res :: t)

/-- ssl_context.cpp:183-199, `AcceptSSL`: `SSL_new` of a null context fails; only a negative result of
`SSL_accept` is taken for a failure. -/
def ctxAccept (m : Option Nat) (soc : Sock) (new : Option Nat) (rc : Int) : Option SslSock × List SslEv :=
  match m, new with
  | none, _ => (none, [])
  | some _, none => (none, [])
  | some _, some n =>
    if rc < 0 then (none, [.sslNew n, .setFd n soc.fd, .sslAccept n rc, .free n])
    else
      let (s, t) := SslSock.make (some n) soc
      (some s, [.sslNew n, .setFd n soc.fd, .sslAccept n rc] ++ t)

/-- A call on a `SSLContext` that concerns the context itself (ssl_context.hpp:11-47). -/
inductive CtxOp where
  | init (c : Nat) | initCli (new : Option Nat) | initSvr (cert key : Str) (a : CtxAns)
  | initSvrFile (cert key : Str) (a : CtxAns) | close

/-- ssl_context.cpp, one call; `init` gets a context made by the caller. -/
def ctxApply (m : Option Nat) : CtxOp → Option Nat × Int × List SslEv
  | .init c => (ctxAdopt m c, kSuccess, [])
  | .initCli new => ctxInitCli m new
  | .initSvr cert key a => ctxInitSvr m cert key a
  | .initSvrFile cert key a => ctxInitSvrFile m cert key a
  | .close => let (m, t) := ctxClose m; (m, kSuccess, t)

/-- A history of calls, ended by the destructor (ssl_context.hpp:11-47). -/
def ctxLife : Option Nat → List CtxOp → List SslEv
  | m, [] => (ctxClose m).2
  | m, op :: ops => let (m, _, t) := ctxApply m op; t ++ ctxLife m ops

/-! ### HttpServer with TLS (I/O multiplexing) -/

/-- http_server.hpp:228, `ssl_sockets_map_`. -/
abbrev SslMap := Int → Option SslSock

/-- `ssl_sockets_map_[fd] = v`, resp. `erase` (http_server.hpp:228, http_server.cpp:260, 274). -/
def SslMap.put (m : SslMap) (fd : Int) (v : Option SslSock) : SslMap := fun i => if i = fd then v else m i

/-- An event of one connection, with the answers it gets: for `accept` the results of `getpeername`, `SSL_new` and
`SSL_accept`; for `read` the number of uses of the connection and whether the handler gives it up in the end
(http_server.cpp:228-411). -/
inductive SslCall where
  | accept (fd addrRc : Int) (new : Option Nat) (rc : Int)
  | read (fd : Int) (uses : Nat) (drop : Bool)
  | leave (fd : Int) | error (fd : Int)
  deriving DecidableEq

/-- The uses of a connection by `HandleRead` (http_server.cpp:279-411). -/
def sslUses (s : SslSock) : Nat → Out (List SslEv)
  | 0 => .ok []
  | k + 1 => do
    let (_, _, t) ← s.io 1
    let t' ← sslUses s k
    .ok (t ++ t')

/-- http_server.cpp:228-411 with a TLS context, and the end of the connection in tcp_server.cpp:104-116: after
the leave and error callbacks the server closes the descriptor itself.  `ctx` is `ssl_context_`'s member. -/
def sslServe (ctx : Option Nat) (m : SslMap) : SslCall → Out (SslMap × List SslEv)
  | .accept fd addrRc new rc =>
    if addrRc ≠ kSuccess then .ok (m, [.accepted fd, .close fd])
    else
      match ctxAccept ctx (Sock.ofFd fd) new rc with
      | (none, t) => .ok (m, .accepted fd :: t ++ [.close fd])
      | (some s, t) => .ok (m.put fd (some s), .accepted fd :: t)
  | .read fd uses drop =>
    match m fd with
    | none => .ok (m, [.close fd])
    | some s => do
      let t ← sslUses s uses
      if drop then
        let (s', _, t') := s.close
        .ok (m.put fd (some s'), t ++ t')
      else .ok (m, t)
  | .leave fd =>
    match m fd with
    | none => .ok (m, [.close fd])
    | some s => .ok (m.put fd none, (SslSock.closeSSL s).2 ++ [.close fd])
  | .error fd => .ok (m, [.close fd])

end Cppnet
