import Verif.Cpp.Map

namespace Cppnet

theorem lookup_assocSet (k v k' : Str) (m : List (Str × Str)) :
    (assocSet k v m).lookup k' = if k' = k then some v else m.lookup k' := by
  induction m with
  | nil => by_cases h : k' = k <;> simp [assocSet, List.lookup, h]
  | cons p m ih =>
    obtain ⟨a, b⟩ := p
    simp only [assocSet]
    by_cases h : a = k
    · subst h
      by_cases h' : k' = a
      · simp [List.lookup, h']
      · have : (k' == a) = false := by simpa using h'
        simp [List.lookup, h', this]
    · simp only [h, if_false, List.lookup_cons, ih]
      by_cases h' : k' = a
      · subst h'; simp [h]
      · have : (k' == a) = false := by simpa using h'
        simp [this]

theorem lookup_iff_mem {m : List (Str × Str)} (h : (m.map Prod.fst).Nodup) (k v : Str) :
    m.lookup k = some v ↔ (k, v) ∈ m := by
  induction m with
  | nil => simp
  | cons p m ih =>
    obtain ⟨a, b⟩ := p
    simp only [List.map_cons, List.nodup_cons] at h
    rw [List.lookup_cons]
    by_cases hk : k = a
    · subst hk
      simp
      constructor
      · rintro rfl; simp
      · rintro (h' | h')
        · exact h'.symm
        · exact absurd (List.mem_map.2 ⟨_, h', rfl⟩) h.1
    · have : (k == a) = false := by simpa using hk
      simp [this, ih h.2, hk]

theorem lookup_perm {m m' : List (Str × Str)} (h : (m.map Prod.fst).Nodup) (p : m'.Perm m)
    (k : Str) : m'.lookup k = m.lookup k := by
  have h' : (m'.map Prod.fst).Nodup := (p.map Prod.fst).nodup_iff.2 h
  apply Option.ext
  intro v
  rw [lookup_iff_mem h, lookup_iff_mem h', p.mem_iff]

theorem lookup_append' (a b : List (Str × Str)) (k : Str) :
    (a ++ b).lookup k = (a.lookup k).or (b.lookup k) := by
  induction a with
  | nil => simp
  | cons p a ih =>
    obtain ⟨x, y⟩ := p
    rw [List.cons_append, List.lookup_cons, List.lookup_cons, ih]
    cases (k == x) <;> simp

theorem filter_key_length {m : List (Str × Str)} (h : (m.map Prod.fst).Nodup) {k v : Str}
    (hm : (k, v) ∈ m) : (m.filter (fun p => decide (p.1 = k))).length = 1 := by
  induction m with
  | nil => simp at hm
  | cons p m ih =>
    simp only [List.map_cons, List.nodup_cons] at h
    by_cases hp : p.1 = k
    · have : m.filter (fun p => decide (p.1 = k)) = [] := by
        rw [List.filter_eq_nil_iff]
        intro q hq hqk
        exact h.1 (List.mem_map.2 ⟨q, hq, by simp at hqk; rw [hqk, hp]⟩)
      simp [List.filter_cons, hp, this]
    · have : (k, v) ∈ m := by
        rcases List.mem_cons.1 hm with e | e
        · exact absurd (by rw [← e]) hp
        · exact e
      simp [List.filter_cons, hp, ih h.2 this]

namespace UMap

@[simp] theorem get_empty (k : Str) : UMap.empty.get k = none := rfl

theorem get_set (m : UMap) (k v k' : Str) :
    (m.set k v).get k' = if k' = k then some v else m.get k' := lookup_assocSet k v k' m.entries

@[simp] theorem get_set_self (m : UMap) (k v : Str) : (m.set k v).get k = some v := by
  simp [get_set]

theorem get_set_ne (m : UMap) {k k' : Str} (v : Str) (h : k' ≠ k) : (m.set k v).get k' = m.get k' := by
  simp [get_set, h]

theorem get_iff_mem (m : UMap) (k v : Str) : m.get k = some v ↔ (k, v) ∈ m.entries :=
  lookup_iff_mem m.nodup k v

@[simp] theorem setAll_nil (m : UMap) : m.setAll [] = m := rfl
@[simp] theorem setAll_cons (m : UMap) (p : Str × Str) (l : List (Str × Str)) :
    m.setAll (p :: l) = (m.set p.1 p.2).setAll l := rfl

/-- The last entry for a key wins; the other keys are untouched. -/
theorem get_setAll (m : UMap) (l : List (Str × Str)) (k : Str) :
    (m.setAll l).get k = (l.reverse.lookup k).or (m.get k) := by
  induction l generalizing m with
  | nil => simp
  | cons p l ih =>
    obtain ⟨a, b⟩ := p
    rw [setAll_cons, ih, List.reverse_cons, lookup_append', get_set]
    by_cases h : k = a
    · subst h; cases (List.lookup k l.reverse) <;> simp [List.lookup]
    · have : (k == a) = false := by simpa using h
      simp [h, List.lookup, this]

theorem get_order (o : HashOrder) (m : UMap) (k : Str) : (o.order m).lookup k = m.get k :=
  lookup_perm m.nodup (o.perm m) k

theorem get_setAll_order (o : HashOrder) (m m' : UMap) (k : Str) :
    (m.setAll (o.order m')).get k = (m'.get k).or (m.get k) := by
  rw [get_setAll]
  congr 1
  exact lookup_perm m'.nodup ((List.reverse_perm _).trans (o.perm m')) k

theorem mem_order (o : HashOrder) (m : UMap) (p : Str × Str) :
    p ∈ o.order m ↔ m.get p.1 = some p.2 := by
  rw [(o.perm m).mem_iff, get_iff_mem]

theorem order_eq_nil (o : HashOrder) (m : UMap) : o.order m = [] ↔ m.entries = [] := by
  rw [← List.length_eq_zero_iff, (o.perm m).length_eq, List.length_eq_zero_iff]

end UMap
end Cppnet
