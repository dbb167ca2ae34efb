import Verif.Model.ConnLog

/-!
# The messages about a connection
-/

namespace Cppnet.Spec
variable {σ : Type}

/-- The message says that a connection was accepted. -/
def SaysAccept (m : Level × Str) : Bool := b!"accept from ".isPrefixOf m.2

/-- The message says that a connection was left. -/
def SaysLeave (m : Level × Str) : Bool := b!"leave from ".isPrefixOf m.2

/-- "IP:PORT soc: FD" -/
def who (a : Address) (fd : Int) : Str := addressToString a ++ b!" soc: " ++ intToStr fd

/-- All these requests, one after the other, are answered, and the server keeps the connection; then the handlers' state is `u'`
and the bytes that are still to come are those of `c'`. -/
inductive Answered (s : Server σ) : List (Bool × Str × Env) → Conn → σ → Prop
  | nil {c u} : Answered s [] c u
  | cons {t sys env rs c u r} : handleRead env s c u = .ok r → r.closed = false → Answered s rs r.conn r.user →
      Answered s ((t, sys, env) :: rs) c u

/-- These are the messages about the requests of a connection: those of one `HandleRead` after the other, each on what the one before left
of the stream, until one of them closes the connection. -/
inductive RequestLogs (s : Server σ) (fd : Int) : List (Bool × Str × Env) → Conn → σ → List (Level × Str) → Prop
  | nil {c u} : RequestLogs s fd [] c u []
  | last {t sys env rs c u l r} : handleReadLog fd t sys env s c u = .ok l → handleRead env s c u = .ok r → r.closed = true →
      RequestLogs s fd ((t, sys, env) :: rs) c u l
  | cons {t sys env rs c u l l' r} : handleReadLog fd t sys env s c u = .ok l → handleRead env s c u = .ok r → r.closed = false →
      RequestLogs s fd rs r.conn r.user l' → RequestLogs s fd ((t, sys, env) :: rs) c u (l ++ l')

end Cppnet.Spec
