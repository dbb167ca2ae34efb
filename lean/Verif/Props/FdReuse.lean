import Verif.Spec.FdReuse

/-!
# C150: in the modes with several threads every task keeps to its own connection
-/

namespace Cppnet
open Spec

namespace FdSys

theorem conn_close_ne (s : FdSys) {fd fd' : Int} (o : Nat) (h : fd' ≠ fd) : (s.closeFd o fd).conn fd' = s.conn fd' := by
  simp only [conn, closeFd, touch]
  induction s.table with
  | nil => rfl
  | cons e l ih =>
    obtain ⟨a, b⟩ := e
    by_cases ha : a = fd
    · subst ha
      rw [List.filter_cons_of_neg (by simp), ih, List.lookup_cons]
      rw [show (fd' == a) = false by simpa using h]
    · rw [List.filter_cons_of_pos (by simpa using ha), List.lookup_cons, List.lookup_cons, ih]

theorem conn_close_eq (s : FdSys) (fd : Int) (o : Nat) : (s.closeFd o fd).conn fd = none := by
  simp only [conn, closeFd, touch]
  induction s.table with
  | nil => rfl
  | cons e l ih =>
    obtain ⟨a, b⟩ := e
    by_cases ha : a = fd
    · subst ha
      rw [List.filter_cons_of_neg (by simp), ih]
    · rw [List.filter_cons_of_pos (by simpa using ha), List.lookup_cons, ih]
      have : fd ≠ a := fun e => ha e.symm
      rw [show (fd == a) = false by simpa using this]

theorem conn_open_ne (s : FdSys) {fd fd' : Int} (h : fd' ≠ fd) : (s.open' fd).conn fd' = s.conn fd' := by
  simp only [conn, open', List.lookup_cons, show (fd' == fd) = false by simpa using h]

theorem conn_open_eq (s : FdSys) (fd : Int) : (s.open' fd).conn fd = some s.next := by
  simp [conn, open']

end FdSys

theorem runSteps_append (a b : List FdStep) : ∀ s : FdSys, s.runSteps (a ++ b) = (s.runSteps a).bind (·.runSteps b) := by
  induction a with
  | nil => intro s; rfl
  | cons st a ih =>
    intro s
    simp only [List.cons_append, FdSys.runSteps]
    cases s.step st with
    | none => rfl
    | some s' => exact ih s'

/-- A task that may still use its descriptor. -/
def FdTask.Active (t : FdTask) : Prop := t.pc ≠ .done ∧ ∀ ev l, t.pc ≠ .cb ev l false

/-- The invariant of the multi-thread mode. -/
structure FdMtInv (s : FdSys) : Prop where
  mode : s.mode = .multiThread
  idle : s.loop = .idle
  own : OwnConnection s.log
  alive : ∀ (i : Nat) (t : FdTask), s.tasks[i]? = some t → t.Active → s.conn t.fd = some t.owner
  below : ∀ (i : Nat) (t : FdTask), s.tasks[i]? = some t → t.owner < s.next
  uniq : ∀ (i j : Nat) (t u : FdTask), s.tasks[i]? = some t → s.tasks[j]? = some u → t.owner = u.owner → i = j
  polite : ∀ (i : Nat) (t : FdTask), s.tasks[i]? = some t → ∀ ev l b, t.pc = .cb ev l b → ev ≠ .leave → FdAct.close ∉ l ∧ b = true

theorem setPc_get (s : FdSys) (i j : Nat) (pc : FdPc) :
    (s.setPc i pc).tasks[j]? = if i = j then (s.tasks[j]?).map (fun t => { t with pc := pc }) else s.tasks[j]? := by
  simp only [FdSys.setPc, List.getElem?_modify]
  split
  · rfl
  · cases s.tasks[j]? <;> rfl

/-- Moving a task that stays within its rights keeps the invariant. -/
theorem FdMtInv.setPc {s : FdSys} (h : FdMtInv s) {i : Nat} {t : FdTask} (ht : s.tasks[i]? = some t) (pc : FdPc)
    (ha : ({ t with pc := pc } : FdTask).Active → s.conn t.fd = some t.owner)
    (hp : ∀ ev l b, pc = .cb ev l b → ev ≠ .leave → FdAct.close ∉ l ∧ b = true) : FdMtInv (s.setPc i pc) := by
  have key : ∀ j u, (s.setPc i pc).tasks[j]? = some u →
      (j = i ∧ u = { t with pc := pc }) ∨ (j ≠ i ∧ s.tasks[j]? = some u) := by
    intro j u hu
    rw [setPc_get] at hu
    split at hu
    · rename_i e; subst e
      rw [ht] at hu
      exact Or.inl ⟨rfl, by simpa using hu.symm⟩
    · rename_i e; exact Or.inr ⟨fun e' => e e'.symm, hu⟩
  refine ⟨h.mode, h.idle, h.own, ?_, ?_, ?_, ?_⟩
  · intro j u hu hact
    rcases key j u hu with ⟨_, rfl⟩ | ⟨_, hu⟩
    · exact ha hact
    · exact h.alive j u hu hact
  · intro j u hu
    rcases key j u hu with ⟨_, rfl⟩ | ⟨_, hu⟩
    · exact h.below i t ht
    · exact h.below j u hu
  · intro j k u v hu hv e
    rcases key j u hu with ⟨ej, rfl⟩ | ⟨hj, hu'⟩ <;> rcases key k v hv with ⟨ek, rfl⟩ | ⟨hk, hv'⟩
    · rw [ej, ek]
    · rw [ej]; exact h.uniq _ _ _ _ ht hv' e
    · rw [ek]; exact h.uniq _ _ _ _ hu' ht e
    · exact h.uniq _ _ _ _ hu' hv' e
  · intro j u hu ev l b hpc
    rcases key j u hu with ⟨_, rfl⟩ | ⟨_, hu⟩
    · exact hp ev l b hpc
    · exact h.polite j u hu ev l b hpc

/-- A system call on one's own connection keeps the invariant. -/
theorem FdMtInv.touch {s : FdSys} (h : FdMtInv s) {o : Nat} {fd : Int} (hc : s.conn fd = some o) : FdMtInv (s.touch o fd) := by
  refine ⟨h.mode, h.idle, ?_, h.alive, h.below, h.uniq, h.polite⟩
  intro x hx
  simp only [FdSys.touch, List.mem_append, List.mem_singleton] at hx
  rcases hx with hx | rfl
  · exact h.own x hx
  · exact hc

theorem FdMtInv.step {s s' : FdSys} (h : FdMtInv s) {st : FdStep} (hp : ClosesOnLeave st) (e : s.step st = some s') : FdMtInv s' := by
  cases st with
  | accept fd =>
    simp only [FdSys.step] at e
    split at e
    case isFalse => cases e
    case isTrue hc =>
    cases e
    have key : ∀ j u, (s.tasks ++ [({ owner := s.next, fd := fd } : FdTask)])[j]? = some u →
        s.tasks[j]? = some u ∨ (j = s.tasks.length ∧ u = { owner := s.next, fd := fd }) := by
      intro j u hu
      rw [List.getElem?_append] at hu
      split at hu
      · exact Or.inl hu
      · rename_i hlt
        have : j - s.tasks.length = 0 := by
          rcases Nat.eq_zero_or_pos (j - s.tasks.length) with h0 | h0
          · exact h0
          · rw [List.getElem?_eq_none (by simpa using Nat.succ_le_of_lt h0)] at hu; cases hu
        rw [this] at hu
        exact Or.inr ⟨by omega, by simpa using hu.symm⟩
    refine ⟨h.mode, h.idle, h.own, ?_, ?_, ?_, ?_⟩
    · intro j u hu hact
      rcases key j u hu with hu | ⟨_, rfl⟩
      · have h1 := h.alive j u hu hact
        have hne : u.fd ≠ fd := by intro e; rw [e, hc.2] at h1; cases h1
        exact (s.conn_open_ne hne).trans h1
      · exact s.conn_open_eq fd
    · intro j u hu
      rcases key j u hu with hu | ⟨_, rfl⟩
      · exact Nat.lt_succ_of_lt (h.below j u hu)
      · exact Nat.lt_succ_self _
    · intro j k u v hu hv e
      rcases key j u hu with hu | ⟨hj, rfl⟩ <;> rcases key k v hv with hv | ⟨hk, rfl⟩
      · exact h.uniq _ _ _ _ hu hv e
      · have := h.below j u hu; simp only at e; omega
      · have := h.below k v hv; simp only at e; omega
      · omega
    · intro j u hu ev l b hpc
      rcases key j u hu with hu | ⟨_, rfl⟩
      · exact h.polite j u hu ev l b hpc
      · cases hpc
  | ioAccept fd acts => simp [FdSys.step, h.mode] at e
  | report fd => simp [FdSys.step, h.mode] at e
  | left fd acts => simp [FdSys.step, h.mode] at e
  | loopWork => simp [FdSys.step, h.idle] at e
  | start i acts =>
    simp only [FdSys.step] at e
    split at e
    case h_2 => cases e
    case h_1 t ht =>
    split at e
    case isFalse => cases e
    case isTrue hq =>
    cases e
    rw [h.mode]
    refine h.setPc ht _ (fun _ => h.alive i t ht ⟨by simp [hq], by simp [hq]⟩) ?_
    intro ev l b e _
    cases e
    exact ⟨hp, rfl⟩
  | peek i readable acts =>
    simp only [FdSys.step] at e
    split at e
    case h_2 => cases e
    case h_1 t ht =>
    split at e
    case isFalse => cases e
    case isTrue hq =>
    cases e
    have hc := h.alive i t ht ⟨by simp [hq.1], by simp [hq.1]⟩
    refine (h.touch hc).setPc ht _ (fun _ => hc) ?_
    intro ev l b e hne
    cases e
    cases readable with
    | true => exact ⟨hp, rfl⟩
    | false => simp at hne
  | work i =>
    simp only [FdSys.step] at e
    split at e
    case h_2 => cases e
    case h_1 t ht =>
    split at e
    case h_3 => cases e
    case h_2 ev live hpc =>
      rw [h.mode] at e
      cases e
      by_cases hl : ev = .leave
      · rw [if_pos hl]
        exact h.setPc ht _ (fun ha => absurd rfl ha.1) (by intro _ _ _ e; cases e)
      · rw [if_neg hl]
        have hb := (h.polite i t ht ev [] live hpc hl).2
        subst hb
        exact h.setPc ht _ (fun _ => h.alive i t ht ⟨by simp [hpc], by simp [hpc]⟩) (by intro _ _ _ e; cases e)
    case h_1 ev a todo live hpc =>
      cases e
      cases live with
      | false =>
        have hl : ev = .leave := by
          apply Classical.byContradiction
          intro hl
          have := (h.polite i t ht ev _ false hpc hl).2
          cases this
        cases a <;>
        · simp only [FdSys.act]
          refine h.setPc ht _ (fun ha => absurd rfl (ha.2 ev todo)) ?_
          intro _ _ _ e hne; cases e; exact absurd hl hne
      | true =>
        have hc := h.alive i t ht ⟨by simp [hpc], by simp [hpc]⟩
        cases a with
        | io =>
          simp only [FdSys.act, if_true]
          refine (h.touch hc).setPc ht _ (fun _ => hc) ?_
          intro ev' l b e hne; cases e
          have := h.polite i t ht ev _ true hpc hne
          exact ⟨fun hm => this.1 (List.mem_cons_of_mem _ hm), rfl⟩
        | close =>
          have hl : ev = .leave := by
            apply Classical.byContradiction
            intro hl
            exact (h.polite i t ht ev _ true hpc hl).1 (by simp)
          simp only [FdSys.act, if_true]
          -- first the task is moved, then the descriptor is closed
          have h1 : FdMtInv ((s.touch t.owner t.fd).setPc i (.cb ev todo false)) := by
            refine (h.touch hc).setPc ht _ (fun _ => hc) ?_
            intro _ _ _ e hne; cases e; exact absurd hl hne
          refine ⟨h1.mode, h1.idle, h1.own, ?_, h1.below, h1.uniq, h1.polite⟩
          intro j u hu hact
          have hu' : ((s.touch t.owner t.fd).setPc i (.cb ev todo false)).tasks[j]? = some u := hu
          have hcu := h1.alive j u hu' hact
          have hne : u.fd ≠ t.fd := by
            intro e
            have e1 : s.conn u.fd = some u.owner := hcu
            rw [e, hc] at e1
            have e2 : (i : Nat) = j := by
              rw [setPc_get] at hu'
              split at hu'
              · assumption
              · exact h.uniq i j t u ht hu' (by simpa using e1)
            subst e2
            rw [setPc_get, if_pos rfl] at hu'
            have hu2 : (s.tasks[i]?).map (fun t => ({ t with pc := .cb ev todo false } : FdTask)) = some u := hu'
            rw [ht] at hu2
            simp only [Option.map_some, Option.some.injEq] at hu2
            subst hu2
            exact hact.2 ev todo rfl
          exact (s.conn_close_ne t.owner hne).trans hcu

theorem FdMtInv.run {steps : List FdStep} (hp : ∀ st ∈ steps, ClosesOnLeave st) :
    ∀ {s s' : FdSys}, FdMtInv s → s.runSteps steps = some s' → FdMtInv s' := by
  induction steps with
  | nil => intro s s' h e; cases e; exact h
  | cons st rest ih =>
    intro s s' h e
    simp only [FdSys.runSteps] at e
    split at e
    · cases e
    · rename_i s1 e1
      exact ih (fun x hx => hp x (List.mem_cons_of_mem _ hx)) (h.step (hp st (by simp)) e1) e

/-- C150, what holds in the multi-thread mode: with callbacks that close a connection only when they are told that its peer has
left, whatever the number of connections, however the tasks are interleaved and whichever free numbers the system gives to new
connections, every system call of a task reaches the connection the task was made for, and no connection is closed by anybody else. -/
theorem C150_multithread_partial (steps : List FdStep) (s : FdSys) (hp : ∀ st ∈ steps, ClosesOnLeave st)
    (h : FdSys.runSteps { mode := .multiThread } steps = some s) : OwnConnection s.log :=
  (FdMtInv.run hp (s := { mode := .multiThread })
    ⟨rfl, rfl, by intro t ht; simp at ht, by simp, by simp, by simp, by simp⟩ h).own

/-- Two connections, the first leaves and is closed, the third gets its number. -/
def fdDemo : List FdStep :=
  [.accept 5, .accept 6, .start 0 [.io], .work 0, .work 0, .start 1 [.io], .peek 0 true [.io, .io], .work 0, .work 0, .work 0,
    .work 1, .peek 0 false [.io, .close], .work 0, .work 0, .accept 5, .work 0, .start 2 [], .work 2, .peek 2 true [.io], .work 2]

example : (∀ st ∈ fdDemo, ClosesOnLeave st) ∧ (FdSys.runSteps { mode := .multiThread } fdDemo).map (·.log) =
    some [⟨0, 5, some 0⟩, ⟨0, 5, some 0⟩, ⟨0, 5, some 0⟩, ⟨0, 5, some 0⟩, ⟨1, 6, some 1⟩, ⟨0, 5, some 0⟩, ⟨0, 5, some 0⟩,
      ⟨0, 5, some 0⟩, ⟨2, 5, some 2⟩, ⟨2, 5, some 2⟩] := by
  refine ⟨?_, by decide +kernel⟩
  intro st hst
  simp only [fdDemo, List.mem_cons, List.not_mem_nil, or_false] at hst
  rcases hst with rfl | rfl | rfl | rfl | rfl | rfl | rfl | rfl | rfl | rfl | rfl | rfl | rfl | rfl | rfl | rfl | rfl | rfl | rfl | rfl <;>
    simp [ClosesOnLeave]

/-- The invariant of the mixed mode. -/
structure FdMixInv (s : FdSys) : Prop where
  mode : s.mode = .mixed
  own : OwnConnection s.log
  alive : ∀ (i : Nat) (t : FdTask), s.tasks[i]? = some t → t.pc ≠ .done → s.conn t.fd = some t.owner
  polite : ∀ (i : Nat) (t : FdTask), s.tasks[i]? = some t → t.pc ≠ .peek ∧
    ∀ ev l b, t.pc = .cb ev l b → FdAct.close ∉ l ∧ b = true
  loop : ∀ ev o fd l b, s.loop = .cb ev o fd l b → s.conn fd = some o ∧ FdAct.close ∉ l ∧ b = true
  leaving : ∀ o fd l b, s.loop = .cb .leave o fd l b → ∀ (i : Nat) (t : FdTask), s.tasks[i]? = some t → t.fd = fd → t.pc = .done

theorem FdMixInv.setPc {s : FdSys} (h : FdMixInv s) {i : Nat} {t : FdTask} (ht : s.tasks[i]? = some t) (hd : t.pc ≠ .done) (pc : FdPc)
    (hp : pc ≠ .peek ∧ ∀ ev l b, pc = .cb ev l b → FdAct.close ∉ l ∧ b = true) : FdMixInv (s.setPc i pc) := by
  have key : ∀ j u, (s.setPc i pc).tasks[j]? = some u →
      (j = i ∧ u = { t with pc := pc }) ∨ (j ≠ i ∧ s.tasks[j]? = some u) := by
    intro j u hu
    rw [setPc_get] at hu
    split at hu
    · rename_i e; subst e
      rw [ht] at hu
      exact Or.inl ⟨rfl, by simpa using hu.symm⟩
    · rename_i e; exact Or.inr ⟨fun e' => e e'.symm, hu⟩
  refine ⟨h.mode, h.own, ?_, ?_, h.loop, ?_⟩
  · intro j u hu hact
    rcases key j u hu with ⟨_, rfl⟩ | ⟨_, hu⟩
    · exact h.alive i t ht hd
    · exact h.alive j u hu hact
  · intro j u hu
    rcases key j u hu with ⟨_, rfl⟩ | ⟨_, hu⟩
    · exact hp
    · exact h.polite j u hu
  · intro o fd l b hl j u hu hf
    rcases key j u hu with ⟨_, rfl⟩ | ⟨_, hu⟩
    · exact absurd (h.leaving o fd l b hl i t ht hf) hd
    · exact h.leaving o fd l b hl j u hu hf

theorem FdMixInv.touch {s : FdSys} (h : FdMixInv s) {o : Nat} {fd : Int} (hc : s.conn fd = some o) : FdMixInv (s.touch o fd) := by
  refine ⟨h.mode, ?_, h.alive, h.polite, h.loop, h.leaving⟩
  intro x hx
  simp only [FdSys.touch, List.mem_append, List.mem_singleton] at hx
  rcases hx with hx | rfl
  · exact h.own x hx
  · exact hc

theorem getElem?_snoc {α : Type} {l : List α} {x u : α} {j : Nat} (hu : (l ++ [x])[j]? = some u) :
    l[j]? = some u ∨ u = x := by
  rw [List.getElem?_append] at hu
  split at hu
  · exact Or.inl hu
  · have : j - l.length = 0 := by
      rcases Nat.eq_zero_or_pos (j - l.length) with h0 | h0
      · exact h0
      · rw [List.getElem?_eq_none (by simpa using Nat.succ_le_of_lt h0)] at hu; cases hu
    rw [this] at hu
    exact Or.inr (by simpa using hu.symm)

theorem FdMixInv.step {s s' : FdSys} (h : FdMixInv s) {st : FdStep} (hp : ClosesNothing st)
    (hl : ∀ fd acts, st = .left fd acts → ¬ Pending s fd) (e : s.step st = some s') : FdMixInv s' := by
  cases st with
  | accept fd => simp [FdSys.step, h.mode] at e
  | ioAccept fd acts =>
    simp only [FdSys.step] at e
    split at e
    case isFalse => cases e
    case isTrue hc =>
    cases e
    refine ⟨h.mode, h.own, ?_, h.polite, ?_, ?_⟩
    · intro j u hu hact
      have h1 := h.alive j u hu hact
      have hne : u.fd ≠ fd := by intro e; rw [e, hc.2.2] at h1; cases h1
      exact (s.conn_open_ne hne).trans h1
    · intro ev o fd' l b e
      cases e
      exact ⟨s.conn_open_eq fd, hp, rfl⟩
    · intro o fd' l b e; cases e
  | report fd =>
    simp only [FdSys.step] at e
    split at e
    case isFalse => cases e
    case isTrue hc =>
    split at e
    case h_1 => cases e
    case h_2 c hcn =>
    cases e
    refine ⟨h.mode, h.own, ?_, ?_, ?_, ?_⟩
    · intro j u hu hact
      rcases getElem?_snoc hu with hu | rfl
      · exact h.alive j u hu hact
      · exact hcn
    · intro j u hu
      rcases getElem?_snoc hu with hu | rfl
      · exact h.polite j u hu
      · exact ⟨by simp, by intro _ _ _ e; cases e⟩
    · intro ev o fd' l b e
      have e' : s.loop = _ := e
      rw [hc.2] at e'; cases e'
    · intro o fd' l b e
      have e' : s.loop = _ := e
      rw [hc.2] at e'; cases e'
  | left fd acts =>
    simp only [FdSys.step] at e
    split at e
    case isFalse => cases e
    case isTrue hc =>
    split at e
    case h_1 => cases e
    case h_2 c hcn =>
    cases e
    refine ⟨h.mode, h.own, h.alive, h.polite, ?_, ?_⟩
    · intro ev o fd' l b e
      cases e
      exact ⟨hcn, hp, rfl⟩
    · intro o fd' l b e j u hu hf
      cases e
      apply Classical.byContradiction
      intro hne
      exact hl fd acts rfl ⟨u, List.mem_of_getElem? hu, hf, hne⟩
  | loopWork =>
    simp only [FdSys.step] at e
    split at e
    case h_1 => cases e
    case h_2 ev o fd a todo live hlp =>
      cases e
      obtain ⟨hc, hm, rfl⟩ := h.loop _ _ _ _ _ hlp
      cases a with
      | close => exact absurd (by simp) hm
      | io =>
        simp only [FdSys.act, if_true]
        have h1 := h.touch hc
        refine ⟨h1.mode, h1.own, h1.alive, h1.polite, ?_, ?_⟩
        · intro ev' o' fd' l b e
          cases e
          exact ⟨hc, fun hx => hm (List.mem_cons_of_mem _ hx), rfl⟩
        · intro o' fd' l b e
          cases e
          exact h.leaving _ _ _ _ hlp
    case h_3 ev o fd live hlp =>
      obtain ⟨hc, hm, rfl⟩ := h.loop _ _ _ _ _ hlp
      by_cases hev : ev = .leave
      · rw [if_pos hev] at e
        cases e
        subst hev
        refine ⟨h.mode, (h.touch hc).own, ?_, h.polite, (by intro _ _ _ _ _ e; cases e), (by intro _ _ _ _ e; cases e)⟩
        intro j u hu hact
        have hne : u.fd ≠ fd := fun e => hact (h.leaving _ _ _ _ hlp j u hu e)
        exact (s.conn_close_ne o hne).trans (h.alive j u hu hact)
      · rw [if_neg hev] at e
        cases e
        exact ⟨h.mode, h.own, h.alive, h.polite, (by intro _ _ _ _ _ e; cases e), (by intro _ _ _ _ e; cases e)⟩
  | start i acts =>
    simp only [FdSys.step] at e
    split at e
    case h_2 => cases e
    case h_1 t ht =>
    split at e
    case isFalse => cases e
    case isTrue hq =>
    cases e
    rw [h.mode]
    refine h.setPc ht (by simp [hq]) _ ⟨by simp, ?_⟩
    intro ev l b e
    cases e
    exact ⟨hp, rfl⟩
  | peek i readable acts =>
    simp only [FdSys.step] at e
    split at e
    case h_2 => cases e
    case h_1 t ht =>
    rw [if_neg (fun hc => (h.polite i t ht).1 hc.1)] at e
    cases e
  | work i =>
    simp only [FdSys.step] at e
    split at e
    case h_2 => cases e
    case h_1 t ht =>
    split at e
    case h_3 => cases e
    case h_2 ev live hpc =>
      rw [h.mode] at e
      cases e
      exact h.setPc ht (by simp [hpc]) _ ⟨by simp, by intro _ _ _ e; cases e⟩
    case h_1 ev a todo live hpc =>
      cases e
      obtain ⟨hm, rfl⟩ := (h.polite i t ht).2 _ _ _ hpc
      have hc := h.alive i t ht (by simp [hpc])
      cases a with
      | close => exact absurd (by simp) hm
      | io =>
        simp only [FdSys.act, if_true]
        refine (h.touch hc).setPc ht (by simp [hpc]) _ ⟨by simp, ?_⟩
        intro ev' l b e; cases e
        exact ⟨fun hx => hm (List.mem_cons_of_mem _ hx), rfl⟩

theorem FdMixInv.run {steps : List FdStep} (hp : ∀ st ∈ steps, ClosesNothing st) :
    ∀ {s s' : FdSys}, FdMixInv s → LeavesIdle s steps → s.runSteps steps = some s' → FdMixInv s' := by
  induction steps with
  | nil => intro s s' h _ e; cases e; exact h
  | cons st rest ih =>
    intro s s' h hl e
    simp only [FdSys.runSteps] at e
    split at e
    · cases e
    · rename_i s1 e1
      refine ih (fun x hx => hp x (List.mem_cons_of_mem _ hx)) (h.step (hp st (by simp)) ?_ e1) ?_ e
      · intro fd acts hst
        exact hl [] fd acts rest s (by rw [hst]; rfl) rfl
      · intro pre fd acts post s2 hsp hr
        refine hl (st :: pre) fd acts post s2 (by rw [hsp]; rfl) ?_
        simp only [FdSys.runSteps, e1]; exact hr

/-- C150, what holds in the mixed mode: with callbacks that close nothing, and if no peer leaves while a task of its connection is
waiting or running, every system call reaches the connection it was meant for. -/
theorem C150_mixed_partial (steps : List FdStep) (s : FdSys) (hp : ∀ st ∈ steps, ClosesNothing st)
    (hl : LeavesIdle { mode := .mixed } steps)
    (h : FdSys.runSteps { mode := .mixed } steps = some s) : OwnConnection s.log :=
  (FdMixInv.run hp (s := { mode := .mixed })
    ⟨rfl, by intro t ht; simp at ht, by simp, by simp, by simp, by simp⟩ hl h).own

/-- Two connections; two tasks of the first one run at the same time, then it leaves, and its number is used again. -/
def mixDemo : List FdStep :=
  [.ioAccept 5 [.io], .loopWork, .loopWork, .ioAccept 6 [], .loopWork, .report 5, .report 5, .start 0 [.io], .start 1 [.io], .report 6,
    .work 0, .work 1, .work 0, .work 1, .left 5 [.io], .loopWork, .start 2 [.io], .loopWork, .work 2, .ioAccept 5 [.io], .loopWork]

theorem mixDemo_idle : LeavesIdle { mode := .mixed } mixDemo := by
  intro pre fd acts post s' e hr
  have hlen : pre.length = 14 := by
    have h : ∀ n < 21, n ≠ 14 → ∀ fd acts, mixDemo[n]? ≠ some (.left fd acts) := by
      intro n hn hne fd acts
      have : n = 0 ∨ n = 1 ∨ n = 2 ∨ n = 3 ∨ n = 4 ∨ n = 5 ∨ n = 6 ∨ n = 7 ∨ n = 8 ∨ n = 9 ∨ n = 10 ∨ n = 11 ∨ n = 12 ∨ n = 13 ∨
        n = 15 ∨ n = 16 ∨ n = 17 ∨ n = 18 ∨ n = 19 ∨ n = 20 := by omega
      rcases this with h | h | h | h | h | h | h | h | h | h | h | h | h | h | h | h | h | h | h | h <;> subst h <;> simp [mixDemo]
    have hl : pre.length < 21 := by
      have := congrArg List.length e
      simp only [mixDemo, List.length_cons, List.length_nil, List.length_append] at this
      omega
    apply Classical.byContradiction
    intro hne
    exact h _ hl hne fd acts (by rw [e]; simp)
  have hpre : pre = mixDemo.take 14 := by rw [e, ← hlen]; simp
  have hfd : fd = 5 := by
    have : mixDemo[14]? = some (.left fd acts) := by rw [e, ← hlen]; simp
    have h2 : mixDemo[14]? = some (.left 5 [.io]) := by decide +kernel
    rw [h2] at this
    cases this; rfl
  subst hpre hfd
  have : FdSys.runSteps { mode := .mixed } (mixDemo.take 14) = some s' := hr
  intro ⟨t, ht, h1, h2⟩
  have hall : ((FdSys.runSteps { mode := .mixed } (mixDemo.take 14)).map fun s =>
      s.tasks.all fun t => t.fd ≠ 5 || t.pc == .done) = some true := by decide +kernel
  rw [this] at hall
  simp only [Option.map_some, Option.some.injEq, List.all_eq_true] at hall
  have := hall t ht
  simp [h1, h2] at this

example : LeavesIdle { mode := .mixed } mixDemo ∧ (FdSys.runSteps { mode := .mixed } mixDemo).map (·.log) =
    some [⟨0, 5, some 0⟩, ⟨0, 5, some 0⟩, ⟨0, 5, some 0⟩, ⟨0, 5, some 0⟩, ⟨0, 5, some 0⟩, ⟨1, 6, some 1⟩, ⟨2, 5, some 2⟩] :=
  ⟨mixDemo_idle, by decide +kernel⟩


/-- A task at work in a callback that closes its socket goes to the next peek with its descriptor closed. -/
theorem work_closes (fd : Int) (acts : List FdAct) : ∀ (s : FdSys) (live : Bool), s.mode = .multiThread →
    s.tasks = [⟨0, fd, .cb .read acts live⟩] → s.next = 1 → (live = false → s.conn fd = none) → (live = true → FdAct.close ∈ acts) →
    ∃ s', s.runSteps (List.replicate (acts.length + 1) (.work 0)) = some s' ∧ s'.mode = .multiThread ∧
      s'.tasks = [⟨0, fd, .peek⟩] ∧ s'.next = 1 ∧ s'.conn fd = none := by
  induction acts with
  | nil =>
    intro s live hm ht hn hc hl
    cases live with
    | true => exact absurd (hl rfl) (by simp)
    | false =>
      refine ⟨s.setPc 0 .peek, ?_, hm, ?_, hn, hc rfl⟩
      · simp [FdSys.runSteps, FdSys.step, ht, hm]
      · simp [FdSys.setPc, ht]
  | cons a acts ih =>
    intro s live hm ht hn hc hl
    have hstep : s.step (.work 0) = some ((s.act 0 fd live a).1.setPc 0 (.cb .read acts (s.act 0 fd live a).2)) := by
      simp [FdSys.step, ht]
    have htk : ∀ s1 : FdSys, s1.tasks = s.tasks → ∀ b, (s1.setPc 0 (.cb .read acts b)).tasks = [⟨0, fd, .cb .read acts b⟩] := by
      intro s1 h b; simp [FdSys.setPc, h, ht]
    have hgo : ∀ (s1 : FdSys) (b : Bool), s1.tasks = s.tasks → s1.mode = s.mode → s1.next = s.next →
        (b = false → s1.conn fd = none) → (b = true → FdAct.close ∈ acts) → s.act 0 fd live a = (s1, b) → ∃ s',
        s.runSteps (List.replicate (acts.length + 1 + 1) (.work 0)) = some s' ∧ s'.mode = .multiThread ∧
          s'.tasks = [⟨0, fd, .peek⟩] ∧ s'.next = 1 ∧ s'.conn fd = none := by
      intro s1 b h1 h2 h3 h4 h5 h6
      rw [h6] at hstep
      obtain ⟨s', e, rest⟩ := ih (s1.setPc 0 (.cb .read acts b)) b (h2.trans hm) (htk s1 h1 b) (h3.trans hn) h4 h5
      refine ⟨s', ?_, rest⟩
      rw [List.replicate_succ, FdSys.runSteps, hstep]
      exact e
    cases live with
    | false => cases a <;> exact hgo s false rfl rfl rfl hc (by simp) rfl
    | true =>
      cases a with
      | io =>
        exact hgo (s.touch 0 fd) true rfl rfl rfl (by simp) (fun _ => by simpa using hl rfl) rfl
      | close => exact hgo (s.closeFd 0 fd) false rfl rfl rfl (fun _ => s.conn_close_eq fd 0) (by simp) rfl

/-- C150 is false in the multi-thread mode: whenever a callback closes its socket on a read, whatever else it does and whatever the
number of the descriptor, the task goes on to peek at the number; if the next client has got this number by then, the task of the
first client reads from the connection of the second. -/
theorem C150_multithread_refuted (fd : Int) (acts : List FdAct) (hc : FdAct.close ∈ acts) :
    ∃ s, FdSys.runSteps { mode := .multiThread } ([.accept fd, .start 0 [], .work 0, .peek 0 true acts] ++
      List.replicate (acts.length + 1) (.work 0) ++ [.accept fd, .peek 0 true [.io], .work 0]) = some s ∧
      s.log.drop (s.log.length - 2) = [⟨0, fd, some 1⟩, ⟨0, fd, some 1⟩] ∧ ¬ OwnConnection s.log := by
  have h0 : FdSys.runSteps { mode := .multiThread } [.accept fd, .start 0 [], .work 0, .peek 0 true acts] =
      some { mode := .multiThread, table := [(fd, 0)], next := 1, tasks := [⟨0, fd, .cb .read acts true⟩], log := [⟨0, fd, some 0⟩] } := by
    simp [FdSys.runSteps, FdSys.step, FdSys.conn, FdSys.open', FdSys.setPc, FdSys.touch]
  obtain ⟨s1, e1, hm, ht, hn, hcn⟩ := work_closes fd acts
    ({ mode := .multiThread, table := [(fd, 0)], next := 1, tasks := [⟨0, fd, .cb .read acts true⟩], log := [⟨0, fd, some 0⟩] } : FdSys) true
    rfl rfl rfl (by simp) (fun _ => hc)
  have h2 : s1.runSteps [.accept fd, .peek 0 true [.io], .work 0] =
      some { s1 with
        table := (fd, 1) :: s1.table
        next := 2
        tasks := [⟨0, fd, .cb .read [] true⟩, ⟨1, fd, .queued⟩]
        log := s1.log ++ [⟨0, fd, some 1⟩] ++ [⟨0, fd, some 1⟩] } := by
    simp [FdSys.runSteps, FdSys.step, hm, hcn, FdSys.open', ht, hn, FdSys.touch, FdSys.setPc, FdSys.act]
    simp [FdSys.conn]
  rw [runSteps_append, runSteps_append, h0, Option.bind_some, e1, Option.bind_some, h2]
  refine ⟨_, rfl, ?_, ?_⟩
  · simp
  · intro h
    have := h ⟨0, fd, some 1⟩ (by simp)
    cases this

/-- The callback of `HttpServer` is of this kind, since it closes a connection on a bad request, and on the accept if it cannot
get the address: the task goes on and reads from the next connection in both cases.  One that never drops a connection
closes nothing (and leaks them all, C62). -/
theorem C150_http_server_refuted (fd : Int) :
    (∃ s, FdSys.runSteps { mode := .multiThread } [.accept fd, .start 0 [], .work 0, .peek 0 true (httpFdActs true .read), .work 0,
      .work 0, .work 0, .work 0, .accept fd, .peek 0 true [.io], .work 0] = some s ∧ ⟨0, fd, some 1⟩ ∈ s.log) ∧
    (∃ s, FdSys.runSteps { mode := .multiThread } [.accept fd, .start 0 (httpFdActs true .accept), .work 0, .work 0, .work 0,
      .accept fd, .peek 0 true [.io], .work 0] = some s ∧
      s.log = [⟨0, fd, some 0⟩, ⟨0, fd, some 0⟩, ⟨0, fd, some 1⟩, ⟨0, fd, some 1⟩]) ∧
    (∀ ev, FdAct.close ∉ httpFdActs false ev) := by
  refine ⟨?_, ?_, ?_⟩
  · obtain ⟨s, h, hl, _⟩ := C150_multithread_refuted fd (httpFdActs true .read) (by simp [httpFdActs])
    refine ⟨s, h, ?_⟩
    have : (⟨0, fd, some 1⟩ : FdTouch) ∈ s.log.drop (s.log.length - 2) := by rw [hl]; simp
    exact List.mem_of_mem_drop this
  · simp [FdSys.runSteps, FdSys.step, FdSys.conn, FdSys.open', FdSys.setPc, FdSys.touch, FdSys.act, FdSys.closeFd, httpFdActs]
  · intro ev; cases ev <;> simp [httpFdActs]

/-- C150 is false in the mixed mode, even with callbacks that close nothing: the connection is closed because its peer has left
while a task of it still waits in the queue, the next client gets its number, and the waiting task reads from that connection. -/
theorem C150_mixed_refuted (fd : Int) :
    ∃ s, FdSys.runSteps { mode := .mixed } [.ioAccept fd (httpFdActs false .accept), .loopWork, .loopWork, .report fd,
      .left fd (httpFdActs false .leave), .loopWork, .loopWork, .ioAccept fd (httpFdActs false .accept), .loopWork, .loopWork,
      .start 0 (httpFdActs false .read), .work 0, .work 0] = some s ∧
      s.log = [⟨0, fd, some 0⟩, ⟨0, fd, some 0⟩, ⟨0, fd, some 0⟩, ⟨1, fd, some 1⟩, ⟨0, fd, some 1⟩, ⟨0, fd, some 1⟩] := by
  simp [FdSys.runSteps, FdSys.step, FdSys.conn, FdSys.open', FdSys.setPc, FdSys.touch, FdSys.act, FdSys.closeFd, httpFdActs]

end Cppnet
