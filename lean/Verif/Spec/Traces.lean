import Verif.Model.Conversation

/-!
# Specification for C184: what requests leave behind
-/

namespace Cppnet.Spec
variable {σ : Type}

/-- The handlers that a registering call is given by the program. -/
def handlersOf : ApiFn σ → List (Handler σ)
  | .register _ cb _ _ => cb.toList
  | .registers _ cbs _ _ => cbs.filterMap id
  | .get _ cb _ => cb.toList
  | .gets _ cbs _ => cbs.filterMap id
  | .post _ cb _ => cb.toList
  | .posts _ cbs _ => cbs.filterMap id
  | .use cb _ => cb.toList
  | .staticDir _ _ _ => []
  | .staticFile _ _ _ => []

/-- A handler that leaves the registered content types alone. -/
def KeepsTypes (h : Handler σ) : Prop := ∀ ctx ctx', h ctx = .ok ctx' → ctx'.types = ctx.types

/-- The server that these calls make. -/
def madeBy (calls : List (ApiCall σ)) : Out (Server σ) := calls.foldlM (fun s c => c.perform s) {}

end Cppnet.Spec
