import Verif.Cpp.Basic

/-!
# `std::unordered_map<std::string, std::string>`

An association list with distinct keys.  The order in which a `for` loop visits the entries is
unspecified in C++; it is supplied by a `HashOrder`, over which theorems quantify.
-/

namespace Cppnet

/-- Replace the value of an existing key, or append a new entry. -/
def assocSet (k v : Str) : List (Str × Str) → List (Str × Str)
  | [] => [(k, v)]
  | (k', v') :: m => if k' = k then (k, v) :: m else (k', v') :: assocSet k v m

theorem assocSet_keys (k v : Str) (m : List (Str × Str)) :
    (assocSet k v m).map Prod.fst = if k ∈ m.map Prod.fst then m.map Prod.fst else m.map Prod.fst ++ [k] := by
  induction m with
  | nil => simp [assocSet]
  | cons p m ih =>
    obtain ⟨k', v'⟩ := p
    simp only [assocSet]
    by_cases h : k' = k
    · simp [h]
    · simp only [h, if_false, List.map_cons, List.mem_cons, ih, Ne.symm h, false_or]
      split <;> simp

theorem assocSet_nodup (k v : Str) (m : List (Str × Str)) (h : (m.map Prod.fst).Nodup) :
    ((assocSet k v m).map Prod.fst).Nodup := by
  rw [assocSet_keys]
  split
  · exact h
  · rename_i hk
    rw [List.nodup_append]
    refine ⟨h, by simp, ?_⟩
    intro a ha b hb
    simp at hb; subst hb
    intro e; subst e; exact hk ha

/-- `std::unordered_map<std::string, std::string>` -/
structure UMap where
  entries : List (Str × Str)
  nodup : (entries.map Prod.fst).Nodup
  deriving DecidableEq

namespace UMap

/-- The empty map (also `clear()`). -/
def empty : UMap := ⟨[], by simp⟩

/-- `m[k] = v` -/
def set (m : UMap) (k v : Str) : UMap := ⟨assocSet k v m.entries, assocSet_nodup k v _ m.nodup⟩

/-- `m.find(k)` -/
def get (m : UMap) (k : Str) : Option Str := m.entries.lookup k

/-- `m.size()` -/
def size (m : UMap) : Nat := m.entries.length

/-- The value of `m[k]` for a key that may be absent (the inserted empty string then). -/
def getD (m : UMap) (k : Str) : Str := (m.get k).getD []

/-- Insert a list of pairs in order (`m[k] = v` for each). -/
def setAll (m : UMap) (l : List (Str × Str)) : UMap := l.foldl (fun m p => m.set p.1 p.2) m

end UMap

/-- The order in which a range-for visits the entries of a map: some permutation. -/
structure HashOrder where
  order : UMap → List (Str × Str)
  perm : ∀ m, (order m).Perm m.entries

/-- Visiting in the order of the association list (for examples). -/
def HashOrder.insertion : HashOrder := ⟨UMap.entries, fun _ => List.Perm.refl _⟩

/-- Visiting in the reverse order (for examples). -/
def HashOrder.reversed : HashOrder := ⟨fun m => m.entries.reverse, fun _ => List.reverse_perm _⟩

end Cppnet
