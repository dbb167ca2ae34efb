import Verif.Model.Meanwhile

/-!
# Specification for C182: files that change meanwhile
-/

namespace Cppnet.Spec
variable {σ : Type}

/-- The answer of a handler when the file system does not change: the response and the registered types. -/
def answer (h : Handler σ) (ctx : Ctx σ) (fs : FileSys) : Out (HttpResp × UMap) :=
  (h { ctx with fs }).map fun c => (c.resp, c.types)

/-- Others do not touch this name. -/
def LeavesAlone (k : FsKey) (m : Meddle) : Prop := ∀ fs, m fs k = fs k

end Cppnet.Spec
