import Verif.Model.LogThreads

/-!
# What C163 and C164 say
-/

namespace Cppnet.Spec
variable {τ : Type}

/-- The thread that makes a step. -/
def stampWho : StampEv τ → Nat
  | .call i _ => i
  | .ret i _ => i
  | .tau i => i

/-- The time that thread `i` last got from the clock. -/
def lastNow (i : Nat) : List (StampEv τ) → Option τ
  | [] => none
  | e :: tr => match lastNow i tr, e with
    | some t, _ => some t
    | none, .call j now => if j = i then some now else none
    | none, _ => none

/-- The calls and returns of a run. -/
def stampSeen (tr : List (StampEv τ)) : List (StampEv τ) := tr.filter fun
  | .tau _ => false
  | _ => true

/-- The six fields of a time. -/
def fieldsOf (loc : τ → Nat → Nat) (now : τ) : List Nat := [loc now 0, loc now 1, loc now 2, loc now 3, loc now 4, loc now 5]

/-- No two calls overlap: while a thread is between its call and its return, no other thread makes a step. -/
def OneAtATime (tr : List (StampEv τ)) : Prop :=
  ∀ a i now b e c, tr = a ++ .call i now :: b ++ e :: c → (∀ g, .ret i g ∉ b) → stampWho e = i

end Cppnet.Spec
