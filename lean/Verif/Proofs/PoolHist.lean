import Verif.Proofs.Pool

/-! # Further invariants of the thread pool: history, busy counter, wake-ups -/

namespace Cppnet
open Spec Pool
variable {α : Type}

/-! ### History -/

theorem flatMap_set {β : Type} (f : WPc α → List β) : ∀ (ws : List (WPc α)) (i : Nat) (w w' : WPc α), ws[i]? = some w →
    (ws.flatMap f).Perm (f w ++ (ws.eraseIdx i).flatMap f) ∧
    ((ws.set i w').flatMap f).Perm (f w' ++ (ws.eraseIdx i).flatMap f)
  | [], _, _, _, h => by simp at h
  | x :: ws, 0, w, w', h => by
    simp only [List.getElem?_cons_zero, Option.some.injEq] at h
    subst h
    simp
  | x :: ws, i + 1, w, w', h => by
    obtain ⟨h1, h2⟩ := flatMap_set f ws i w w' (by simpa using h)
    simp only [List.flatMap_cons, List.set_cons_succ, List.eraseIdx_cons_succ]
    exact ⟨(h1.append_left (f x)).trans (by simp [← List.append_assoc, List.perm_append_right_iff, List.perm_append_comm]),
      (h2.append_left (f x)).trans (by simp [← List.append_assoc, List.perm_append_right_iff, List.perm_append_comm])⟩

theorem flatMap_notify {β : Type} (f : WPc α → List β) (hf : f .wake = f .waiting) (ws : List (WPc α)) :
    (ws.map WPc.notify).flatMap f = ws.flatMap f := by
  induction ws with
  | nil => rfl
  | cons w ws ih =>
    simp only [List.map_cons, List.flatMap_cons, ih]
    cases w <;> simp [WPc.notify, hf]

/-- What has happened to the accepted tasks. -/
structure HistInv (s : Pool α) : Prop where
  fifo : s.accepted = s.popped ++ s.queue
  popped : s.popped.Perm (s.finished ++ s.workers.flatMap inHand)
  started : s.started.Perm (s.finished ++ s.workers.flatMap executing)

theorem histInv_step (s : Pool α) (l) (s') (hi : HistInv s) (h : Act s l s') : HistInv s' := by
  obtain ⟨h1, h2, h3⟩ := hi
  have same : ∀ (i : Nat) (w w' : WPc α), s.workers[i]? = some w → inHand w = inHand w' → executing w = executing w' →
      s.popped.Perm (s.finished ++ (s.workers.set i w').flatMap inHand) ∧
      s.started.Perm (s.finished ++ (s.workers.set i w').flatMap executing) := by
    intro i w w' hw e1 e2
    obtain ⟨p1, p2⟩ := flatMap_set inHand s.workers i w w' hw
    obtain ⟨q1, q2⟩ := flatMap_set executing s.workers i w w' hw
    rw [e1] at p1
    rw [e2] at q1
    exact ⟨h2.trans ((p1.trans p2.symm).append_left _), h3.trans ((q1.trans q2.symm).append_left _)⟩
  cases h
  case addPushed a t hpc => exact ⟨by simp [h1], h2, h3⟩
  case stopNotified =>
    refine ⟨h1, ?_, ?_⟩
    · simp only [setPc_popped, setPc_finished, setPc_workers]; rw [flatMap_notify _ rfl]; exact h2
    · simp only [setPc_started, setPc_finished, setPc_workers]; rw [flatMap_notify _ rfl]; exact h3
  case initSpawned => exact ⟨h1, by simpa [inHand] using h2, by simpa [executing] using h3⟩
  case wPop i t q hpc h =>
    obtain ⟨p1, p2⟩ := flatMap_set inHand s.workers i .size (.taken t) hpc
    obtain ⟨q1, q2⟩ := flatMap_set executing s.workers i .size (.taken t) hpc
    refine ⟨by simp [h1, h], ?_, ?_⟩
    · simp only [setW_popped, setW_finished, setW_workers]
      refine List.Perm.trans ?_ (p2.symm.append_left _)
      simp only [inHand, List.singleton_append, List.nil_append] at p1 ⊢
      have := (h2.trans (p1.append_left _)).append_right [t]
      exact this.trans (by simp only [List.append_assoc]; exact (List.perm_append_comm (l₁ := _) (l₂ := [t])).append_left _)
    · exact h3.trans ((q1.trans q2.symm).append_left _)
  case wStart i t hpc =>
    obtain ⟨p1, p2⟩ := flatMap_set inHand s.workers i (.start t) (.run t) hpc
    obtain ⟨q1, q2⟩ := flatMap_set executing s.workers i (.start t) (.run t) hpc
    refine ⟨h1, h2.trans ((p1.trans p2.symm).append_left _), ?_⟩
    simp only [setW_started, setW_finished, setW_workers]
    refine List.Perm.trans ?_ (q2.symm.append_left _)
    simp only [executing, List.singleton_append, List.nil_append] at q1 ⊢
    have := (h3.trans (q1.append_left _)).append_right [t]
    exact this.trans (by simp only [List.append_assoc]; exact (List.perm_append_comm (l₁ := _) (l₂ := [t])).append_left _)
  case wFinish i t hpc hidle =>
    obtain ⟨p1, p2⟩ := flatMap_set inHand s.workers i (.run t) .done hpc
    obtain ⟨q1, q2⟩ := flatMap_set executing s.workers i (.run t) .done hpc
    refine ⟨h1, ?_, ?_⟩
    · simp only [setW_popped, setW_finished, setW_workers]
      simp only [inHand, List.singleton_append, List.nil_append] at p1 p2
      refine (h2.trans (p1.append_left _)).trans ?_
      refine List.Perm.trans ?_ (p2.symm.append_left _)
      simp
    · simp only [setW_started, setW_finished, setW_workers]
      simp only [executing, List.singleton_append, List.nil_append] at q1 q2
      refine (h3.trans (q1.append_left _)).trans ?_
      refine List.Perm.trans ?_ (q2.symm.append_left _)
      simp
  all_goals first
    | exact ⟨h1, h2, h3⟩
    | (have hpc := ‹s.workers[_]? = some _›
       refine ⟨h1, (same _ _ _ hpc ?_ ?_).1, (same _ _ _ hpc ?_ ?_).2⟩ <;> rfl)

theorem histInv_init : HistInv ({} : Pool α) := by constructor <;> simp

/-! ### The busy counter -/

theorem countP_set (p : WPc α → Bool) : ∀ (ws : List (WPc α)) (i : Nat) (w w' : WPc α), ws[i]? = some w →
    (ws.set i w').countP p + (if p w then 1 else 0) = ws.countP p + (if p w' then 1 else 0)
  | [], _, _, _, h => by simp at h
  | x :: ws, 0, w, w', h => by
    simp only [List.getElem?_cons_zero, Option.some.injEq] at h
    subst h
    simp only [List.set_cons_zero, List.countP_cons]
    omega
  | x :: ws, i + 1, w, w', h => by
    have := countP_set p ws i w w' (by simpa using h)
    simp only [List.set_cons_succ, List.countP_cons]
    omega

theorem countP_pos_of (p : WPc α → Bool) {ws : List (WPc α)} {i : Nat} {w : WPc α} (h : ws[i]? = some w) (hp : p w = true) :
    0 < ws.countP p := by
  rw [List.countP_pos_iff]
  exact ⟨w, List.mem_of_getElem? h, hp⟩

theorem countP_notify (p : WPc α → Bool) (hp : p .wake = p .waiting) (ws : List (WPc α)) :
    (ws.map WPc.notify).countP p = ws.countP p := by
  have : p ∘ WPc.notify = p := by
    funext w; cases w <;> simp [WPc.notify, hp]
  rw [List.countP_map, this]

theorem busy_step (s : Pool α) (l) (s') (hi : s.busy = s.workers.countP counted) (h : Act s l s') :
    s'.busy = s'.workers.countP counted := by
  cases h
  case stopNotified => simp only [setPc_busy, setPc_workers]; rw [countP_notify _ rfl, hi]
  case initSpawned => simp [hi, counted]
  all_goals first
    | exact hi
    | (have hpc := ‹s.workers[_]? = some _›
       have hc := fun w' => countP_set counted s.workers _ _ w' hpc
       have hq := fun hh => countP_pos_of counted hpc hh
       simp only [counted, setW_busy, setW_workers, setPc_busy, setPc_workers] at *
       grind)

/-! ### No lost wake-up -/

/-- If a worker is blocked, every queued task has an awake worker on its way to the queue, except perhaps
one, whose notification is about to be sent. -/
structure WakeInv (s : Pool α) : Prop where
  wake : s.cont = true → 0 < s.workers.countP blocked → s.queue.length ≤ s.workers.countP onTheWay ∨
    (s.queue.length ≤ s.workers.countP onTheWay + 1 ∧ ∃ a, s.pcs a = .addNotify)
  exited : s.cont = true → ∀ w ∈ s.workers, w ≠ .exited

theorem mem_set_ne {ws : List (WPc α)} {i : Nat} {w x : WPc α} (h : ∀ w ∈ ws, w ≠ x) (hw : w ≠ x) : ∀ v ∈ ws.set i w, v ≠ x := by
  intro v hv
  rcases List.mem_or_eq_of_mem_set hv with h' | rfl
  · exact h v h'
  · exact hw

theorem wakeInv_step (s : Pool α) (l) (s') (hl : LockInv s) (hi : WakeInv s) (h : Act s l s') : WakeInv s' := by
  obtain ⟨h1, h2⟩ := hi
  have agent : ∀ (s'' : Pool α) (a : Agent), s.pcs a ≠ .addNotify → s''.workers = s.workers → s''.queue = s.queue →
      s''.cont = s.cont → (∀ b, b ≠ a → s''.pcs b = s.pcs b) → WakeInv s'' := by
    intro s'' a ha e1 e2 e3 e4
    refine ⟨fun hc hb => ?_, fun hc => ?_⟩
    · rw [e1] at hb ⊢
      rw [e2]
      rw [e3] at hc
      rcases h1 hc hb with h | ⟨h, b, hb⟩
      · exact .inl h
      · exact .inr ⟨h, b, by rw [e4 b (by rintro rfl; exact ha hb)]; exact hb⟩
    · rw [e1]; exact h2 (e3 ▸ hc)
  have worker : ∀ (s'' : Pool α) (i : Nat) (w w' : WPc α), s.workers[i]? = some w → s''.workers = s.workers.set i w' →
      s''.queue = s.queue → s''.cont = s.cont → s''.pcs = s.pcs → (blocked w' = true → blocked w = true) →
      (onTheWay w = true → onTheWay w' = true) → w' ≠ .exited → WakeInv s'' := by
    intro s'' i w w' hw e1 e2 e3 e4 e5 e6 e7
    have c1 := countP_set blocked s.workers i w w' hw
    have c2 := countP_set onTheWay s.workers i w w' hw
    refine ⟨fun hc hb => ?_, fun hc => ?_⟩
    · rw [e1] at hb ⊢
      rw [e2]
      rw [e3] at hc
      rcases h1 hc (by grind) with h | ⟨h, b, hb⟩
      · exact .inl (by grind)
      · exact .inr ⟨by grind, b, by rw [e4]; exact hb⟩
    · rw [e1]; exact mem_set_ne (h2 (e3 ▸ hc)) e7
  cases h
  case addPushed a t hpc =>
    refine ⟨fun hc hb => ?_, h2⟩
    simp only [setPc_workers, setPc_queue, List.length_append, List.length_singleton]
    rcases h1 hc hb with h | ⟨h, b, hb⟩
    · exact .inr ⟨by omega, a, by simp⟩
    · have e1 := hl.agent a (by rw [hpc]; rfl)
      have e2 := hl.agent b (by rw [hb]; rfl)
      rw [e1] at e2
      cases e2
      rw [hb] at hpc
      cases hpc
  case addNotified a i hpc h =>
    have c1 := countP_set blocked s.workers i _ .wake h
    have c2 := countP_set onTheWay s.workers i _ .wake h
    have c3 := countP_pos_of blocked h rfl
    simp only [blocked, onTheWay] at c1 c2
    refine ⟨fun hc hb => ?_, fun hc => mem_set_ne (h2 hc) (by simp)⟩
    simp only [setPc_workers, setPc_queue, setW_workers, setW_queue]
    rcases h1 hc c3 with h | ⟨h, _⟩
    · exact .inl (by simp at c2; omega)
    · exact .inl (by simp at c2; omega)
  case addNobody a hpc h =>
    refine ⟨fun hc hb => ?_, h2⟩
    simp only [setPc_workers, List.countP_pos_iff] at hb
    obtain ⟨w, hw, hb⟩ := hb
    cases w <;> simp [blocked] at hb
    exact absurd rfl (h _ hw)
  case stopFlag => exact ⟨fun hc => by simp at hc, fun hc => by simp at hc⟩
  case stopNotified =>
    refine ⟨fun hc hb => ?_, fun hc w hw => ?_⟩
    · exfalso
      simp only [setPc_workers, List.countP_pos_iff, List.mem_map] at hb
      obtain ⟨_, ⟨w, hw, rfl⟩, hb⟩ := hb
      cases w <;> simp [blocked, WPc.notify] at hb
    · simp only [setPc_workers, List.mem_map] at hw
      obtain ⟨w, hw, rfl⟩ := hw
      have := h2 hc w hw
      cases w <;> simp [WPc.notify] at this ⊢
  case initSpawned a r n hpc =>
    refine ⟨fun hc hb => ?_, fun hc w hw => ?_⟩
    · simp only [setPc_workers, setPc_queue, setPc_pcs, List.countP_append, List.countP_singleton, blocked, onTheWay,
        Bool.false_eq_true, if_false, if_true, Nat.add_zero] at hb ⊢
      rcases h1 hc hb with h | ⟨h, b, hb⟩
      · exact .inl (by omega)
      · exact .inr ⟨by omega, b, by rw [if_neg (by rintro rfl; simp [hb] at hpc)]; exact hb⟩
    · simp only [setPc_workers, List.mem_append, List.mem_singleton] at hw
      rcases hw with hw | rfl
      · exact h2 hc w hw
      · simp
  case wExit i hpc h => exact ⟨fun hc => by simp [h] at hc, fun hc => by simp [h] at hc⟩
  case wPredFalse i hpc h h' => exact ⟨fun _ _ => .inl (by simp [h]), fun hc => mem_set_ne (h2 hc) (by simp)⟩
  case wBlocked i hpc =>
    have := hl.empty i hpc
    exact ⟨fun _ _ => .inl (by simp [this]), fun hc => mem_set_ne (h2 hc) (by simp)⟩
  case wPop i t q hpc h =>
    have c1 := countP_set blocked s.workers i _ (.taken t) hpc
    have c2 := countP_set onTheWay s.workers i _ (.taken t) hpc
    simp only [blocked, onTheWay, if_true, Bool.false_eq_true, if_false] at c1 c2
    refine ⟨fun hc hb => ?_, fun hc => mem_set_ne (h2 hc) (by simp)⟩
    simp only [setW_workers, setW_queue] at hb ⊢
    rw [h] at h1
    simp only [List.length_cons] at h1
    rcases h1 hc (by omega) with h | ⟨h, b, hb⟩
    · exact .inl (by omega)
    · exact .inr ⟨by omega, b, hb⟩
  all_goals first
    | exact ⟨h1, h2⟩
    | (refine agent _ _ ?_ rfl rfl rfl (fun b hb => by rw [setPc_pcs, if_neg hb]); simp [*])
    | (have hpc := ‹s.workers[_]? = some _›
       exact worker _ _ _ _ hpc rfl rfl rfl rfl (by simp [blocked]) (by simp [onTheWay]) (by simp))

theorem wakeInv_init : WakeInv ({} : Pool α) := ⟨by simp, by simp⟩

end Cppnet
