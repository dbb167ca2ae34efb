import Verif.Model.HttpClient

/-!
# Model of the two client programs of `README.md`
-/

namespace Cppnet

/-- How a program ends: what it prints (the text of `err_msg` is left out), and what it returns
(README.md:166-197, 245-268). -/
structure ProgramEnd where
  printed : Str
  rc : Int
  calls : List Syscall
  deriving DecidableEq

/-- What the system answers to the program: `socket`, `connect`, `send`, `close`, and how much of what has arrived one
`recv` takes (README.md:167, 172, 179, 186, 193). -/
structure SocketAns where
  socket : Int := 3
  connect : Int := 0
  send : Int := 11
  close : Int := 0
  chunk : Nat := 0

/-- README.md:166-197, the program that talks to a server through a `Socket`.  The one-line `std::cout` statements are their
first words, and for line 191 the text that was read. -/
def readmeSocket (a : SocketAns) (c : Conn) : ProgramEnd :=
  let (s, rc, t1) := ({} : Sock).apply (.init a.socket)
  if rc ≠ kSuccess then ⟨b!"init socket wrong ", rc, t1⟩
  else
    let (s, rc, t2) := s.apply (.connect a.connect)
    if rc ≠ kSuccess then ⟨b!"connect wrong ", rc, t1 ++ t2⟩
    else
      let (s, rc, t3) := s.apply (.write a.send)
      if rc ≠ kSuccess then ⟨b!"write wrong ", rc, t1 ++ t2 ++ t3⟩
      else
        let (n, buf, _) := sockRead c 11 false a.chunk
        let (s, rc, t4) := s.apply (.read n)
        if rc ≤ 0 then ⟨b!"read wrong ", rc, t1 ++ t2 ++ t3 ++ t4⟩
        else
          let (_, rc, t5) := s.apply (.close a.close)
          if rc ≠ kSuccess then ⟨b!"read " ++ buf ++ b!"\n" ++ b!"close wrong ", rc, t1 ++ t2 ++ t3 ++ t4 ++ t5⟩
          else ⟨b!"read " ++ buf ++ b!"\n", 0, t1 ++ t2 ++ t3 ++ t4 ++ t5⟩

/-- README.md:255-268, the program that gets a page with a `HttpClient`, once it is connected: the codes of `Send` and
`Build` and the text built. -/
def readmeGet (o : HashOrder) (writeRc : Int) (c : Conn) : Out (Sent × Int × Str) := do
  let sent ← clientSend o (reqGET o {} b!"/" UMap.empty UMap.empty) {} writeRc c
  let (_, text, rc) := respBuild o sent.resp []
  .ok (sent, rc, text)

end Cppnet
