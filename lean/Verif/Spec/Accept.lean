import Verif.Model.TcpServer

/-!
# What a connection that cannot be taken may cost

Only the types of the model are used.
-/

namespace Cppnet.Spec

/-- A report of the listening descriptor `l` whose connection cannot be taken: `accept` fails, or the accepted descriptor
cannot be watched.  The user's callback does nothing about it. -/
def untakable (l : Int) (x : Int × EpBits × EvAns) : Prop :=
  x.1 = l ∧ (x.2.2.accept < 0 ∨ x.2.2.add < 0) ∧ x.2.2.acts .error x.2.2.accept = []

/-- One report of `epoll_wait` without some of the connections that cannot be taken. -/
inductive Fewer (l : Int) : List (Int × EpBits × EvAns) → List (Int × EpBits × EvAns) → Prop
  | nil : Fewer l [] []
  | same {x evs evs'} : Fewer l evs evs' → Fewer l (x :: evs) (x :: evs')
  | drop {x evs evs'} : untakable l x → Fewer l evs evs' → Fewer l (x :: evs) evs'

/-- A history of the loop without some of the connections that cannot be taken; everything else is the same. -/
inductive Without (l : Int) : List Round → List Round → Prop
  | nil : Without l [] []
  | same {r rs rs'} : Without l rs rs' → Without l (r :: rs) (r :: rs')
  | fewer {evs evs' b rs rs'} : Fewer l evs evs' → Without l rs rs' →
      Without l (⟨.events evs, b⟩ :: rs) (⟨.events evs', b⟩ :: rs')

/-- `t` is `t'` and, besides, for each connection that could not be taken: the failed `accept` and the callback that
reports it, or the accepted descriptor, the failed attempt to watch it, the callback that reports it, and its close.  What
`epoll_wait` reported may be more. -/
inductive Costs : List NetEv → List NetEv → Prop
  | nil : Costs [] []
  | keep {e t t'} : Costs t t' → Costs (e :: t) (e :: t')
  | wait {ep ready ready' t t'} : ready'.Sublist ready → Costs t t' → Costs (.wait ep ready :: t) (.wait ep ready' :: t')
  | failed {l r c t t'} : r < 0 → Costs t t' → Costs (.accept l r :: .call c .error r :: t) t'
  | refused {l fd ep r edge c t t'} : 0 ≤ fd → r < 0 → Costs t t' →
      Costs (.accept l fd :: .ctlAdd ep fd r edge :: .call c .error fd :: .close fd :: t) t'

end Cppnet.Spec
