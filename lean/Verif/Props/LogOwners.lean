import Verif.Model.LogOwners
import Verif.Spec.LogGraph

/-!
# C198: loggers that nobody uses any more
-/

namespace Cppnet
open Spec

theorem ownedBy_iff (h : LogHeap) (a b : Nat) : b ∈ ownedBy (h a) ↔ HoldsLogger h a b := by
  unfold ownedBy HoldsLogger
  cases h a <;> simp [List.mem_filterMap]

/-- What is true while pointers are released. -/
structure OwnedLogs (h : LogHeap) (all : List Nat) (s : LogRefs) (todo alive : List Nat) : Prop where
  perm : (s.gone ++ alive).Perm all
  count : ∀ p, s.count p = todo.count p + (alive.flatMap fun a => ownedBy (h a)).count p
  pos : ∀ p ∈ alive, 0 < s.count p
  dead : ∀ p ∈ s.gone, s.count p = 0
  todo : ∀ p ∈ todo, p ∈ all

theorem OwnedLogs.nodup {h all s todo alive} (hn : all.Nodup) (ho : OwnedLogs h all s todo alive) : alive.Nodup :=
  (List.nodup_append.1 (ho.perm.nodup_iff.2 hn)).2.1

theorem OwnedLogs.drop {h : LogHeap} {all s p todo alive n} (ho : OwnedLogs h all s (p :: todo) alive) (hc : s.count p = n + 2) :
    OwnedLogs h all { s with count := fun q => if q = p then n + 1 else s.count q } todo alive := by
  refine ⟨ho.perm, fun q => ?_, fun q hq => ?_, fun q hq => ?_, fun q hq => ho.todo q (List.mem_cons_of_mem _ hq)⟩
  · have := ho.count q
    by_cases e : q = p
    · subst e
      simp only [if_true]
      rw [hc, List.count_cons_self] at this
      omega
    · simp only [e, if_false]
      rw [this, List.count_cons_of_ne (fun x => e x.symm)]
  · simp only
    split
    · omega
    · exact ho.pos q hq
  · have := ho.dead q hq
    simp only
    split
    · rename_i e; subst e; omega
    · exact this

theorem OwnedLogs.kill {h : LogHeap} {all s p todo alive} (hn : all.Nodup) (hcl : ∀ a ∈ all, ∀ b ∈ ownedBy (h a), b ∈ all)
    (ho : OwnedLogs h all s (p :: todo) alive) (hc : s.count p = 1) :
    p ∈ alive ∧ OwnedLogs h all ⟨fun q => if q = p then 0 else s.count q, s.gone ++ [p]⟩ (ownedBy (h p) ++ todo) (alive.erase p) := by
  have hpall : p ∈ all := ho.todo p (by simp)
  have hp : p ∈ alive := by
    rcases List.mem_append.1 (ho.perm.mem_iff.2 hpall) with x | x
    · have := ho.dead p x
      omega
    · exact x
  have hperm : alive.Perm (p :: alive.erase p) := List.perm_cons_erase hp
  have hsum : ∀ q, (alive.flatMap fun a => ownedBy (h a)).count q =
      (ownedBy (h p)).count q + ((alive.erase p).flatMap fun a => ownedBy (h a)).count q := by
    intro q
    rw [(hperm.flatMap_right _).count_eq q]
    simp [List.count_append]
  refine ⟨hp, ⟨?_, fun q => ?_, fun q hq => ?_, fun q hq => ?_, fun q hq => ?_⟩⟩
  · refine List.Perm.trans ?_ ho.perm
    simp only [List.append_assoc, List.singleton_append]
    exact List.Perm.append_left _ hperm.symm
  · have := ho.count q
    rw [hsum q] at this
    simp only [List.count_append]
    by_cases e : q = p
    · subst e
      rw [hc, List.count_cons_self] at this
      simp only [if_true]
      omega
    · simp only [e, if_false]
      rw [this, List.count_cons_of_ne (fun x => e x.symm)]
      omega
  · have hq' : q ∈ alive := List.mem_of_mem_erase hq
    have hne : q ≠ p := by
      rintro rfl
      exact (List.Nodup.not_mem_erase (ho.nodup hn)) hq
    simp only [hne, if_false]
    exact ho.pos q hq'
  · rcases List.mem_append.1 hq with x | x
    · have := ho.dead q x
      simp only
      split
      · rfl
      · exact this
    · simp only [List.mem_singleton] at x
      simp [x]
  · rcases List.mem_append.1 hq with x | x
    · exact hcl p hpall q x
    · exact ho.todo q (List.mem_cons_of_mem _ x)

/-- The pointers are released without a fault; what is left is `alive`. -/
theorem releaseAll_spec (h : LogHeap) (all : List Nat) (hn : all.Nodup) (hcl : ∀ a ∈ all, ∀ b ∈ ownedBy (h a), b ∈ all) :
    ∀ (k : Nat) (s : LogRefs) (todo alive : List Nat), OwnedLogs h all s todo alive →
      todo.length + (alive.flatMap fun a => ownedBy (h a)).length ≤ k →
      ∃ s' alive', releaseAll h k s todo = .ok s' ∧ OwnedLogs h all s' [] alive' ∧
        ∀ C : List Nat, (∀ p ∈ C, ∃ a ∈ C, p ∈ ownedBy (h a)) → (∀ p ∈ C, p ∈ alive) → ∀ p ∈ C, p ∈ alive'
  | k, s, [], alive, ho, _ => ⟨s, alive, by cases k <;> rfl, ho, fun _ _ hc => hc⟩
  | 0, s, p :: todo, alive, ho, hk => by simp at hk
  | k + 1, s, p :: todo, alive, ho, hk => by
    have hpos : 0 < s.count p := by
      rw [ho.count p, List.count_cons_self]
      omega
    simp only [releaseAll]
    match hc : s.count p with
    | 0 => omega
    | 1 =>
      obtain ⟨hp, ho'⟩ := ho.kill hn hcl hc
      have hperm : alive.Perm (p :: alive.erase p) := List.perm_cons_erase hp
      have hlen := (hperm.flatMap_right (fun a => ownedBy (h a))).length_eq
      simp only [List.flatMap_cons, List.length_append] at hlen
      obtain ⟨s', alive', e1, e2, e3⟩ := releaseAll_spec h all hn hcl k _ _ _ ho' (by
        simp only [List.length_append, List.length_cons] at hk ⊢
        omega)
      refine ⟨s', alive', e1, e2, fun C hC hCa => e3 C hC fun q hq => ?_⟩
      have hqp : q ≠ p := by
        rintro rfl
        obtain ⟨a, ha, hqa⟩ := hC q hq
        have := ho.count q
        rw [hc, List.count_cons_self] at this
        have hm : q ∈ alive.flatMap fun a => ownedBy (h a) := List.mem_flatMap.2 ⟨a, hCa a ha, hqa⟩
        have := List.count_pos_iff.2 hm
        omega
      exact (List.mem_erase_of_ne hqp).2 (hCa q hq)
    | n + 2 =>
      obtain ⟨s', alive', e1, e2, e3⟩ := releaseAll_spec h all hn hcl k _ _ _ (ho.drop hc) (by
        simp only [List.length_cons] at hk
        omega)
      exact ⟨s', alive', e1, e2, e3⟩

theorem owned_start (h : LogHeap) (all handles : List Nat) (hh : ∀ p ∈ handles, p ∈ all)
    (hu : ∀ p ∈ all, p ∈ handles ∨ ∃ a ∈ all, p ∈ ownedBy (h a)) : OwnedLogs h all (logRefs h all handles) handles all := by
  refine ⟨List.Perm.refl _, fun _ => rfl, fun p hp => ?_, fun p hp => (by cases hp), hh⟩
  simp only [logRefs]
  rcases hu p hp with x | ⟨a, ha, x⟩
  · have := List.count_pos_iff.2 x
    omega
  · have := List.count_pos_iff.2 (List.mem_flatMap.2 ⟨a, ha, x⟩ : p ∈ all.flatMap fun a => ownedBy (h a))
    omega

theorem exists_top (rank : Nat → Nat) : ∀ (l : List Nat), l ≠ [] → ∃ a ∈ l, ∀ b ∈ l, rank b ≤ rank a
  | [], h => absurd rfl h
  | [a], _ => ⟨a, by simp, by simp⟩
  | a :: b :: l, _ => by
    obtain ⟨c, hc, hm⟩ := exists_top rank (b :: l) (by simp)
    by_cases h : rank a ≤ rank c
    · exact ⟨c, List.mem_cons_of_mem _ hc, fun x hx => by
        rcases List.mem_cons.1 hx with rfl | hx
        · exact h
        · exact hm x hx⟩
    · exact ⟨a, by simp, fun x hx => by
        rcases List.mem_cons.1 hx with rfl | hx
        · exact Nat.le_refl _
        · have := hm x hx
          omega⟩

/-! ### C198 -/

/-- **C198**, if no `MultiLogger` contains itself, directly or through others (`rank`): when the program gives up its pointers to
loggers, of whatever classes, shared or not, every logger is destroyed, exactly once.  (Missing: cycles, see `C198_cycle_refuted`.) -/
theorem C198_closed_partial (h : LogHeap) (all handles : List Nat) (hn : all.Nodup) (hh : ∀ p ∈ handles, p ∈ all)
    (hcl : ∀ a ∈ all, ∀ b, HoldsLogger h a b → b ∈ all) (hu : ∀ p ∈ all, p ∈ handles ∨ ∃ a ∈ all, HoldsLogger h a p)
    (rank : Nat → Nat) (hr : ∀ a ∈ all, ∀ b, HoldsLogger h a b → rank b < rank a) :
    ∃ steps, ∀ k, steps ≤ k → ∃ s, releaseAll h k (logRefs h all handles) handles = .ok s ∧ s.gone.Perm all := by
  simp only [← ownedBy_iff] at hcl hu hr
  refine ⟨handles.length + (all.flatMap fun a => ownedBy (h a)).length, fun k hk => ?_⟩
  obtain ⟨s, alive, e1, e2, -⟩ := releaseAll_spec h all hn hcl k _ _ _ (owned_start h all handles hh hu) hk
  have : alive = [] := Decidable.byContradiction fun hne => by
    obtain ⟨a, ha, hm⟩ := exists_top rank alive hne
    have hp := e2.pos a ha
    rw [e2.count a] at hp
    have : a ∈ alive.flatMap fun a => ownedBy (h a) := List.count_pos_iff.1 (by simpa using hp)
    obtain ⟨b, hb, hab⟩ := List.mem_flatMap.1 this
    have h1 := hr b (e2.perm.mem_iff.1 (List.mem_append_right _ hb)) a hab
    have h2 := hm b hb
    omega
  subst this
  exact ⟨s, e1, by simpa using e2.perm⟩

/-- A `MultiLogger` with a second one and a logger that is in both. -/
def sharedHeap : LogHeap
  | 0 => .multi [some 1, some 2]
  | 1 => .multi [some 2]
  | n => .sink n

/-- Hypotheses met. -/
example : let all := [0, 1, 2]; let handles := [0, 2]
    all.Nodup ∧ (∀ p ∈ handles, p ∈ all) ∧ (∀ a ∈ all, ∀ b, HoldsLogger sharedHeap a b → b ∈ all) ∧
      (∀ p ∈ all, p ∈ handles ∨ ∃ a ∈ all, HoldsLogger sharedHeap a p) ∧
      (∀ a ∈ all, ∀ b, HoldsLogger sharedHeap a b → (fun n => 2 - n) b < (fun n => 2 - n) a) ∧
      ((releaseAll sharedHeap 9 (logRefs sharedHeap all handles) handles).map (·.gone)) = .ok [0, 1, 2] := by
  simp only [← ownedBy_iff]
  decide +kernel

/-- **C198**, refuted for cycles: whatever loggers there are and whatever pointers the program gives up, a logger in a set of which each is
held by a `MultiLogger` in the set, or held by one that is (`m->Init({m, file_logger})`), is not destroyed: a `FileLogger` there
never writes the lines that it still holds. -/
theorem C198_cycle_refuted (h : LogHeap) (all handles : List Nat) (hn : all.Nodup) (hh : ∀ p ∈ handles, p ∈ all)
    (hcl : ∀ a ∈ all, ∀ b, HoldsLogger h a b → b ∈ all) (hu : ∀ p ∈ all, p ∈ handles ∨ ∃ a ∈ all, HoldsLogger h a p)
    (C : List Nat) (hC : ∀ p ∈ C, ∃ a ∈ C, HoldsLogger h a p) (hCa : ∀ p ∈ C, p ∈ all) :
    ∃ steps, ∀ k, steps ≤ k → ∃ s, releaseAll h k (logRefs h all handles) handles = .ok s ∧ ∀ p ∈ C, p ∉ s.gone ∧ 0 < s.count p := by
  simp only [← ownedBy_iff] at hcl hu hC
  refine ⟨handles.length + (all.flatMap fun a => ownedBy (h a)).length, fun k hk => ?_⟩
  obtain ⟨s, alive, e1, e2, e3⟩ := releaseAll_spec h all hn hcl k _ _ _ (owned_start h all handles hh hu) hk
  refine ⟨s, e1, fun p hp => ?_⟩
  have ha := e2.pos p (e3 C hC hCa p hp)
  exact ⟨fun hg => by have := e2.dead p hg; omega, ha⟩

/-- A `MultiLogger` that contains itself and another logger. -/
def selfHeap : LogHeap
  | 0 => .multi [some 0, some 1]
  | n => .sink n

/-- Hypotheses met: both objects are never destroyed. -/
example : let all := [0, 1]; let handles := [0, 1]
    all.Nodup ∧ (∀ p ∈ handles, p ∈ all) ∧ (∀ a ∈ all, ∀ b, HoldsLogger selfHeap a b → b ∈ all) ∧
      (∀ p ∈ all, ∃ a ∈ all, HoldsLogger selfHeap a p) ∧
      ((releaseAll selfHeap 9 (logRefs selfHeap all handles) handles).map (·.gone)) = .ok [] := by
  simp only [← ownedBy_iff]
  decide +kernel

end Cppnet
