import Verif.Spec.Trie
import Verif.Model.TrieAny

/-! # Values of several types in one trie -/

namespace Cppnet.Spec
variable {P : Type}

/-- Call `cb` on each pointer in turn until it asks to stop; at a pointer of another type than `T` throw. -/
def callTyped {σ : Type} (T : Nat) (cb : σ → P → Bool → Out (σ × Bool)) : σ → List (AnyPtr P × Bool) → Out (Cast σ × σ)
  | s, [] => .ok (.value s, s)
  | s, (a, last) :: rest =>
    if a.type = T then do
      let r ← cb s a.ptr last
      if r.2 then callTyped T cb r.1 rest else .ok (.value r.1, r.1)
    else .ok (.badAnyCast, s)

end Cppnet.Spec
