import Verif.Model.TcpServer

/-!
# Model of `TcpServer::Init` when the system refuses a thread (`src/cppnet/server/tcp_server.cpp`)

`ThreadPool::Init` throws `std::system_error` (what it leaves behind: `Model/ThreadLimit`), and `InitMode` and `Init` let it pass.
-/

namespace Cppnet

/-- tcp_server.cpp:260-283, 309-311: what is left of the server when the exception leaves `Init`, and what happened until then.
`none`: `Init` does not get as far as starting threads, or starts none in this mode. -/
def tcpInitRefused (s : TcpSrv) (a : InitAns) : Option (TcpSrv × List NetEv) :=
  let (l, t) := createSocket s a
  if l.status ≠ .init ∨ a.listen < 0 then none
  else
    match s.mode with
    | .mixed => some ({ s with loop := true, listen := l, pool := true }, t ++ [.listen l.fd s.maxQueue a.listen])
    | .multiThread => some ({ s with loop := true, listen := l, pool := true }, t ++ [.listen l.fd s.maxQueue a.listen])
    | .io => none
    | .other => none

end Cppnet
