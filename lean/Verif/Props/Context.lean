import Verif.Model.Context

/-!
# C67: the data of a context
-/

namespace Cppnet

namespace Spec

/-- What a call puts under a key: a value with its type, or for `Set<std::any>` what the argument holds (which may be
nothing). -/
def puts {U : CppTypes} (key : Str) : CtxCall U → Option (Option (Σ t : U.Ty, U.Val t))
  | .set k t v => if k = key then some (some ⟨t, v⟩) else none
  | .setAny k a => if k = key then some a else none
  | _ => none

/-- What was put last under a key, if anything. -/
def lastSet {U : CppTypes} (key : Str) (calls : List (CtxCall U)) : Option (Σ t : U.Ty, U.Val t) :=
  ((calls.filterMap (puts key)).getLast?).getD none

/-- What `Get<t>` has to return. -/
inductive Expected {U : CppTypes} (t : U.Ty) : Option (Σ t : U.Ty, U.Val t) → U.Val t → Prop
  | same (v : U.Val t) : Expected t (some ⟨t, v⟩) v
  | other (t' : U.Ty) (v : U.Val t') : t' ≠ t → Expected t (some ⟨t', v⟩) (U.dflt t)
  | unset : Expected t none (U.dflt t)

end Spec

open Spec

variable {U : CppTypes}

theorem ctxRun_snoc (calls : List (CtxCall U)) (c : CtxCall U) : ctxRun (calls ++ [c]) =
    (match c with
    | .get k t => (ctxGet (ctxRun calls) k t).1
    | .set k t v => ctxSet (ctxRun calls) k t v
    | .getAny k => (ctxGetAny (ctxRun calls) k).1
    | .setAny k a => ctxSetAny (ctxRun calls) k a) := by
  cases c <;> simp [ctxRun, List.foldl_append]

theorem lastSet_snoc (key : Str) (calls : List (CtxCall U)) (c : CtxCall U) : lastSet key (calls ++ [c]) =
    match puts key c with
    | some a => a
    | none => lastSet key calls := by
  unfold lastSet
  cases h : puts key c <;> simp [List.filterMap_append, List.filterMap_cons, h]

/-- What the map holds for a key. -/
theorem ctxRun_get (key : Str) (calls : List (CtxCall U)) :
    ctxRun calls key = none ∧ lastSet key calls = none ∨ ctxRun calls key = some (lastSet key calls) := by
  obtain ⟨r, rfl⟩ : ∃ r : List (CtxCall U), calls = r.reverse := ⟨calls.reverse, by simp⟩
  induction r with
  | nil => left; exact ⟨rfl, rfl⟩
  | cons c r ih =>
    rw [List.reverse_cons]
    generalize r.reverse = calls at ih ⊢
    rw [ctxRun_snoc, lastSet_snoc]
    have idx : ∀ k, ((ctxIndex (ctxRun calls) k).1 key = none ∧ lastSet key calls = none) ∨
        (ctxIndex (ctxRun calls) k).1 key = some (lastSet key calls) := by
      intro k
      unfold ctxIndex
      cases hk : ctxRun calls k with
      | some a => exact ih
      | none =>
        by_cases h : key = k
        · subst h
          right
          rcases ih with ih | ih
          · simp [ih.2]
          · rw [hk] at ih; cases ih
        · simpa [h] using ih
    cases c with
    | get k t => exact idx k
    | getAny k => exact idx k
    | set k t v =>
      simp only [ctxSet, puts]
      by_cases h : k = key
      · right; simp [h]
      · have h' : ¬ key = k := fun x => h x.symm
        simp only [if_neg h, if_neg h']
        exact idx k
    | setAny k a =>
      simp only [ctxSetAny, puts]
      by_cases h : k = key
      · right; simp [h]
      · have h' : ¬ key = k := fun x => h x.symm
        simp only [if_neg h, if_neg h']
        exact idx k

/-- C67, for every type but `std::any`: after any calls, `Get<T>(key)` returns the value of the last `Set` for this key if
that was a `T`, given as a `T` or inside a `std::any`, and `T()` otherwise. -/
theorem C67_typed_partial (calls : List (CtxCall U)) (key : Str) (t : U.Ty) :
    Expected t (lastSet key calls) (ctxGet (ctxRun calls) key t).2 := by
  have h := ctxRun_get key calls
  unfold ctxGet ctxIndex
  rcases h with ⟨h1, h2⟩ | h1
  · rw [h1, h2]
    exact .unset
  · rw [h1]
    cases h2 : lastSet key calls with
    | none => exact .unset
    | some x =>
      obtain ⟨t', v⟩ := x
      simp only [anyCast]
      cases U.dec t' t with
      | isTrue h => subst h; exact .same v
      | isFalse h => exact .other t' v h

/-- Integers and texts. -/
def twoTypes : CppTypes where
  Ty := Bool
  Val | true => Int | false => Str
  dflt | true => 0 | false => []

example : (ctxGet (U := twoTypes) (ctxRun [.set b!"a" true (7 : Int), .get b!"b" false, .set b!"b" false b!"x", .set b!"b" true (8 : Int)]) b!"b" true).2 = (8 : Int) := by
  rfl
example : (ctxGet (U := twoTypes) (ctxRun [.set b!"a" true (7 : Int), .set b!"a" false b!"x"]) b!"a" true).2 = (0 : Int) := by rfl

example : (ctxGet (U := twoTypes) (ctxRun [.set b!"a" true (7 : Int), .setAny b!"a" (some ⟨true, (9 : Int)⟩), .getAny b!"a"]) b!"a" true).2 = (9 : Int) := by rfl

/-- C67 is false for `std::any`: what is set with `Set<std::any>` is not returned by `Get<std::any>`, whatever it is. -/
theorem C67_any_refuted (d : CtxData U) (key : Str) (t : U.Ty) (v : U.Val t) :
    (ctxGetAny (ctxSetAny d key (some ⟨t, v⟩)) key).2 ≠ some ⟨t, v⟩ := by
  simp [ctxGetAny]

end Cppnet
