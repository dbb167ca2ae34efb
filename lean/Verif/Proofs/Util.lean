namespace Cppnet

/-- Induction from the end of a list. -/
theorem snoc_induction {α : Type _} {P : List α → Prop} (nil : P [])
    (snoc : ∀ l a, P l → P (l ++ [a])) : ∀ l, P l := by
  intro l
  have : ∀ r : List α, P r.reverse := by
    intro r
    induction r with
    | nil => exact nil
    | cons a r ih => rw [List.reverse_cons]; exact snoc _ _ ih
  simpa using this l.reverse

theorem ite_eq_or {α : Type _} {p : Prop} [Decidable p] {x y c : α} (h : (if p then x else y) = c) :
    (p ∧ x = c) ∨ y = c := by
  by_cases hp : p
  · exact Or.inl ⟨hp, by simpa [hp] using h⟩
  · exact Or.inr (by simpa [hp] using h)

end Cppnet
