import Verif.Proofs.PoolHeld
import Verif.Props.Pool

/-! # C165: what a task captured is released once it has run -/

namespace Cppnet
open Spec Pool
variable {α : Type}

/-- C165, what holds, whatever the destructors do: each accepted task is in exactly one place: what it captured has been destroyed,
once, or a worker keeps it, or it is queued.  While a task is executed its worker keeps it.  A worker that has returned keeps nothing.
Missing: that nothing is kept when nothing is executed, see the refutations. -/
theorem C165_accounted_partial (calls : α → Prop) (tr : List (PoolLabel α)) (s : HPool α) (h : HRun calls {} tr s) :
    s.pool.accepted.Perm (s.released ++ keptTasks s ++ if s.pool.phase = .destroyed then [] else s.pool.queue) ∧
    (∀ (i : Nat) t, s.pool.workers[i]? = some (.run t) → s.held i = some t ∧ t ∈ keptTasks s) ∧
    ((∀ w ∈ s.pool.workers, w = .exited) → keptTasks s = []) ∧
    (keptTasks s).length ≤ s.pool.workers.length := by
  have hi : HeldInv s := hrun_inv (fun s l s' hl hp ha => heldInv_step s l s' hl hp ha) h heldInv_init
  refine ⟨?_, fun i t e => ?_, fun he => ?_, ?_⟩
  · by_cases hp : s.pool.phase = .destroyed
    · simpa [hp] using hi.dead hp
    · simpa [hp] using hi.all hp
  · have := hi.hand i _ t e (by simp [inHand])
    exact ⟨this, List.mem_filterMap.2 ⟨i, List.mem_range.2 (lt_of_getElem?_some e), this⟩⟩
  · apply filterMap_none
    intro i hm
    obtain ⟨w, hw⟩ : ∃ w, s.pool.workers[i]? = some w := ⟨_, List.getElem?_eq_getElem (List.mem_range.1 hm)⟩
    exact hi.gone i (by rw [hw, he w (List.mem_of_getElem? hw)])
  · have := List.length_filterMap_le s.held (List.range s.pool.workers.length)
    simpa [keptTasks] using this

theorem hrun_append {calls : α → Prop} {s s1 s2 : HPool α} {tr1 tr2} (h1 : HRun calls s tr1 s1) (h2 : HRun calls s1 tr2 s2) :
    HRun calls s (tr1 ++ tr2) s2 := by
  induction h2 with
  | nil => simpa using h1
  | snoc _ hl ha ih => rw [← List.append_assoc]; exact .snoc ih hl ha

/-- C165, what holds, for a pool that one thread initialises, stops and never resizes: when `Stop` returns, everything that the tasks
taken from the queue had captured has been destroyed, exactly once, and the other accepted tasks are in the queue. -/
theorem C165_after_stop_partial (calls : α → Prop) (ctl : Nat) (s₁ s s' : HPool α) (tr₁ tr : List (PoolLabel α)) (h₁ : HRun calls {} tr₁ s₁)
    (hd₁ : ∀ l ∈ tr₁, Disciplined ctl l) (hc : s₁.pool.cont = true) (hidle : s₁.pool.pcs (.client ctl) = .idle) (h : HRun calls s₁ tr s)
    (hd : ∀ l ∈ tr, Disciplined ctl l ∧ NoSpawn l) (hl : s.pool.phase = .live)
    (ha : HPool.Act calls s (.ret (.client ctl) .stopped) s') :
    s'.released.Perm s'.pool.finished ∧ s'.pool.accepted.Perm (s'.released ++ s'.pool.queue) := by
  have h' := HRun.snoc (hrun_append h₁ h) hl ha
  obtain ⟨g1, _, g3, _⟩ := C165_accounted_partial calls _ _ h'
  have hp := hrun_pool h'
  cases ha with
  | @act p ha hf =>
    have hq := C50_exited_partial ctl _ _ _ _ _ (hrun_pool h₁) hd₁ hc hidle (hrun_pool h) hd ha
    rw [g3 hq] at g1
    have hne : (s.track p).pool.phase ≠ .destroyed := by
      show p.phase ≠ _
      generalize hs0 : s.pool = s0 at ha hl
      generalize hlab : (PoolLabel.ret (Agent.client ctl) PoolRet.stopped : PoolLabel α) = l at ha
      cases ha <;> simp_all
    rw [if_neg hne, List.append_nil] at g1
    refine ⟨?_, g1⟩
    have hist := reachable_hist ⟨_, hp⟩
    rw [hist.fifo] at g1
    refine ((List.perm_append_right_iff _).1 g1).symm.trans (hist.popped.trans ?_)
    have : (s.track p).pool.workers.flatMap inHand = [] := by
      rw [List.flatMap_eq_nil_iff]
      intro w hw
      rw [hq w hw]
      rfl
    rw [this, List.append_nil]

theorem destroyed_act {a : Agent} {s p : Pool α} (ha : Act s (.ret a .destroyed) p) :
    p.phase = .destroyed ∧ p.workers = s.workers ∧ ∀ x ∈ s.threads, x.2 = false := by
  generalize hlab : (PoolLabel.ret a PoolRet.destroyed : PoolLabel α) = l at ha
  cases ha
  case stopAlready a k _ _ => cases k <;> simp [stopLabel] at hlab
  case stopDone a k _ _ _ => cases k <;> simp [stopLabel] at hlab
  case initDone a r _ => cases r <;> cases hlab
  case destroyed a _ h => exact ⟨rfl, rfl, h⟩
  all_goals cases hlab

/-- C165, what holds however the pool was used: once the pool has been destroyed, what each accepted task captured has been
destroyed, exactly once. -/
theorem C165_destroyed_partial (calls : α → Prop) (tr : List (PoolLabel α)) (s s' : HPool α) (a : Agent) (h : HRun calls {} tr s)
    (hl : s.pool.phase = .live) (ha : HPool.Act calls s (.ret a .destroyed) s') : s'.released.Perm s'.pool.accepted := by
  have h' := HRun.snoc h hl ha
  obtain ⟨g1, _, g3, _⟩ := C165_accounted_partial calls _ _ h'
  have ht : ThrInv s.pool := pool_run_inv (fun s l s' _ hi ha => thrInv_step s l s' hi ha) (hrun_pool h) thrInv_init
  cases ha with
  | @act p ha hf =>
    have hb := destroyed_act ha
    obtain ⟨b1, b2, b3⟩ := hb
    have hq : ∀ w ∈ (s.track p).pool.workers, w = .exited := by
      intro w hw
      change w ∈ p.workers at hw
      rw [b2] at hw
      obtain ⟨i, hi⟩ := List.mem_iff_getElem?.1 hw
      rcases ht.listed i w hi with e | ⟨b, hb⟩
      · exact e
      · have := b3 _ hb
        simp only at this
        subst this
        have := ht.joined i hb
        rw [hi] at this
        exact Option.some.inj this
    rw [g3 hq] at g1
    have hph : (s.track p).pool.phase = .destroyed := b1
    rw [if_pos hph, List.append_nil, List.append_nil] at g1
    exact g1.symm

theorem held_of_run {calls : α → Prop} (hc : ∀ t, ¬ calls t) {p0 : Pool α} {tr p} (h : Run p0 tr p) (s0 : HPool α) (e : s0.pool = p0) :
    ∃ s : HPool α, HRun calls s0 tr s ∧ s.pool = p := by
  induction h with
  | nil => exact ⟨s0, .nil _, e⟩
  | snoc h hl ha ih =>
    obtain ⟨s, h1, h2⟩ := ih
    subst h2
    exact ⟨_, .snoc h1 hl (.act ha fun _ _ u _ _ _ => hc u), rfl⟩

/-- C165: tasks whose captured objects do not call the pool when they are destroyed change nothing: the pool does exactly what the other
theorems about it say. -/
theorem C165_same_partial (calls : α → Prop) (tr : List (PoolLabel α)) (p : Pool α) :
    (∀ s : HPool α, HRun calls {} tr s → Run {} tr s.pool) ∧
    ((∀ t, ¬ calls t) → Run {} tr p → ∃ s : HPool α, HRun calls {} tr s ∧ s.pool = p) := by
  refine ⟨fun s h => hrun_pool h, fun hc h => ?_⟩
  exact held_of_run hc h {} rfl

/-! ### Refutations -/

/-- What is shown of a concrete execution. -/
structure ShownHeld where
  pool : Shown Nat
  held0 : Option Nat
  released : List Nat
  popped : List Nat
  deriving DecidableEq

def shownHeld (x : Option (HPool Nat × List (PoolLabel Nat))) : Option ShownHeld :=
  x.bind fun (s, tr) => (shown (some (s.pool, tr))).map fun v => ⟨v, s.held 0, s.released, s.pool.popped⟩

theorem shownHeld_run {c : Nat → Bool} {cs : List (Cmd Nat)} {v : ShownHeld} (h : shownHeld (hcmdRun c {} cs) = some v) :
    ∃ s : HPool Nat, HRun (fun t => c t = true) {} v.pool.trace s ∧ shownHeld (some (s, v.pool.trace)) = some v := by
  cases hr : hcmdRun c {} cs with
  | none => rw [hr] at h; cases h
  | some r =>
    obtain ⟨s, tr⟩ := r
    rw [hr] at h
    have e : tr = v.pool.trace := by
      simp only [shownHeld, shown, Option.map_some, Option.bind_some, Option.some.injEq] at h
      rw [← h]
    subst e
    exact ⟨s, hcmdRun_sound c hr, h⟩

theorem hrun_mono {calls calls' : α → Prop} (hc : ∀ t, calls' t → calls t) {s tr s'} (h : HRun calls s tr s') : HRun calls' s tr s' := by
  induction h with
  | nil => exact .nil _
  | snoc _ hl ha ih =>
    cases ha with
    | act ha hf => exact .snoc ih hl (.act ha fun i t u e1 e2 e3 h => hf i t u e1 e2 e3 (hc u h))

/-- The worker keeps task 7 and waits. -/
structure Keeps (s : HPool Nat) : Prop where
  workers : ∃ w, s.pool.workers = [w] ∧ (w = .waiting ∨ w = .wake ∨ w = .pred ∨ w = .block)
  queue : s.pool.queue = []
  cont : s.pool.cont = true
  idle : ∀ a, s.pool.pcs a = .idle
  phase : s.pool.phase = .live
  held : s.held 0 = some 7
  released : s.released = []

theorem keeps_step {calls : Nat → Prop} {s s' : HPool Nat} {l} (hk : Keeps s) (hl : ∀ a op, l ≠ .call a op) (h : HPool.Act calls s l s') :
    Keeps s' := by
  obtain ⟨⟨w, h1, hw⟩, h2, h3, h4, h5, h6, h7⟩ := hk
  cases h with
  | @act p h hf =>
  clear hf
  have fin : ∀ p : Pool Nat, (∃ w', p.workers = [w'] ∧ (w' = .waiting ∨ w' = .wake ∨ w' = .pred ∨ w' = .block)) → p.queue = [] → p.cont = true →
      p.pcs = s.pool.pcs → p.phase = .live → Keeps (s.track p) := by
    rintro p ⟨w', e1, e2⟩ q1 q2 q3 q4
    refine ⟨⟨w', e1, e2⟩, q1, q2, fun a => by show p.pcs a = _; rw [q3]; exact h4 a, q4, ?_, ?_⟩
    · simp only [HPool.track, e1]
      rcases e2 with rfl | rfl | rfl | rfl <;> simpa using h6
    · simp only [HPool.track, e1, h1, h7, q4]
      rcases e2 with rfl | rfl | rfl | rfl <;> rcases hw with rfl | rfl | rfl | rfl <;> rfl
  have idx : ∀ (i : Nat) (x : WPc Nat), s.pool.workers[i]? = some x → i = 0 ∧ x = w := by
    intro i x e
    rw [h1] at e
    cases i with
    | zero => simp at e; exact ⟨rfl, e.symm⟩
    | succ i => simp at e
  cases h
  case call a op _ _ => exact absurd rfl (hl a op)
  case wThrow i t hpc _ => obtain ⟨_, e⟩ := idx _ _ hpc; subst e; rcases hw with e | e | e | e <;> cases e
  case wPredTrue i hpc hh => rcases hh with hh | hh <;> simp_all
  case wPredFalse i hpc _ _ =>
    obtain ⟨rfl, e⟩ := idx _ _ hpc
    exact fin _ ⟨.block, by simp [h1], by simp⟩ h2 h3 rfl h5
  case wBlocked i hpc =>
    obtain ⟨rfl, e⟩ := idx _ _ hpc
    exact fin _ ⟨.waiting, by simp [h1], by simp⟩ h2 h3 rfl h5
  case wSpurious i hpc =>
    obtain ⟨rfl, e⟩ := idx _ _ hpc
    exact fin _ ⟨.wake, by simp [h1], by simp⟩ h2 h3 rfl h5
  case wRelocked i hpc _ =>
    obtain ⟨rfl, e⟩ := idx _ _ hpc
    exact fin _ ⟨.pred, by simp [h1], by simp⟩ h2 h3 rfl h5
  all_goals first
    | (have hpc := ‹s.pool.pcs _ = _›
       rw [h4] at hpc
       cases hpc
       done)
    | (have hpc := ‹s.pool.workers[_]? = some _›
       obtain ⟨_, e⟩ := idx _ _ hpc
       subst e
       rcases hw with e | e | e | e <;> cases e)

/-- C165 is false: when a task has returned and the pool has nothing to do, the worker still keeps what the task captured, and keeps
it until somebody calls the pool again. -/
theorem C165_kept_refuted (calls : Nat → Prop) : ∃ (tr : List (PoolLabel Nat)) (s : HPool Nat), HRun calls {} tr s ∧
    s.pool.accepted = [7] ∧ s.pool.finished = [7] ∧
    ∀ tr' s', HRun calls s tr' s' → (∀ l ∈ tr', ∀ a op, l ≠ .call a op) → s'.released = [] ∧ keptTasks s' = [7] := by
  obtain ⟨v, hv⟩ : ∃ v, shownHeld (hcmdRun (fun _ => true) {} (initCmd 1 ++ addCmd 7 ++ wk 0 12)) = some v ∧
      v.pool.workers = [.waiting] ∧ v.pool.queue = [] ∧ v.pool.cont = true ∧ v.pool.phase = .live ∧ v.pool.accepted = [7] ∧ v.pool.finished = [7] ∧
      v.pool.client0 = .idle ∧ v.held0 = some 7 ∧ v.released = [] ∧
      ∀ l ∈ v.pool.trace, (match l with | .call a _ => decide (a = .client 0) | _ => true) = true := by
    refine ⟨_, rfl, ?_⟩
    decide +kernel
  obtain ⟨s, h1, h2⟩ := shownHeld_run hv.1
  obtain ⟨-, e1, e2, e3, e4, e5, e6, e7, e8, e9, e10⟩ := hv
  have hr := hrun_pool h1
  have hli : LockInv s.pool := reachable_lock ⟨_, hr⟩
  simp only [shownHeld, shown, Option.map_some, Option.bind_some, Option.some.injEq] at h2
  rw [← h2] at e1 e2 e3 e4 e5 e6 e7 e8 e9
  simp only at e1 e2 e3 e4 e5 e6 e7 e8 e9
  have hk : Keeps s := by
    refine ⟨⟨.waiting, e1, .inl rfl⟩, e2, e3, fun a => ?_, e4, e8, e9⟩
    by_cases ha : a = .client 0
    · rw [ha]; exact e7
    · refine idle_of_no_call hr a fun op hm => ?_
      have := e10 _ hm
      simp only [decide_eq_true_eq] at this
      exact ha this
  refine ⟨_, s, hrun_mono (fun _ _ => rfl) h1, e5, e6, fun tr' s' h' hq => ?_⟩
  have hk' : Keeps s' := by
    clear h2
    induction h' with
    | nil => exact hk
    | snoc _ hl ha ih => exact keeps_step (ih fun l hl => hq l (by simp [hl])) (hq _ (by simp)) ha
  refine ⟨hk'.released, ?_⟩
  obtain ⟨w, hw, _⟩ := hk'.workers
  simp [keptTasks, hw, List.range_succ, hk'.held]

/-- The worker is inside the assignment that destroys what task 7 captured, holding the mutex. -/
structure StuckKept (calls : Nat → Prop) (s : HPool Nat) : Prop where
  lock : LockInv s.pool
  worker : s.pool.workers[0]? = some .size
  held : s.held 0 = some 7
  queue : s.pool.queue ≠ []
  popped : s.pool.popped = [7]
  finished : s.pool.finished = [7]
  hist : HistInv s.pool

theorem stuckKept_step {calls : Nat → Prop} (hc : calls 7) {s s' : HPool Nat} {l} (hk : StuckKept calls s) (h : HPool.Act calls s l s') :
    StuckKept calls s' ∧ (∀ a, l ≠ .ret a (.added 0)) ∧ ∀ a b k, l ≠ .ret a (.numbers b k) := by
  obtain ⟨h1, h2, h3, h4, h5, h6, h7⟩ := hk
  cases h with
  | @act p h hf =>
  have hlk : s.pool.lock = some (.worker 0) := h1.worker 0 _ h2 rfl
  have nobody : ∀ a, (s.pool.pcs a).holds = false := by
    intro a
    cases ha : (s.pool.pcs a).holds with
    | false => rfl
    | true =>
      have e := h1.agent a ha
      rw [hlk] at e
      injection e with e
      subst e
      obtain ⟨t, ht⟩ := h1.task 0 (by intro hh; rw [hh] at ha; cases ha)
      rw [h2] at ht
      cases ht
  have other : ∀ (i : Nat) (w : WPc Nat), s.pool.workers[i]? = some w → w.holds = true → i = 0 := by
    intro i w e hw
    have := h1.worker i w e hw
    rw [hlk] at this
    injection this with this
    injection this with this
    exact this.symm
  have hl1 := lockInv_step _ _ _ h1 h
  have hh1 := histInv_step _ _ _ h7 h
  have hand : ∀ w ∈ s.pool.workers, inHand w = [] := by
    have := h7.popped
    rw [h5, h6] at this
    have e := this.length_eq
    simp only [List.length_append, List.length_cons, List.length_nil] at e
    exact List.flatMap_eq_nil_iff.1 (List.eq_nil_of_length_eq_zero (by omega))
  have fin : ∀ p : Pool Nat, LockInv p → p.workers[0]? = some .size → p.queue ≠ [] → p.popped = [7] → p.finished = [7] → HistInv p → StuckKept calls (s.track p) := by
    intro p q1 q2 q3 q4 q5 q6
    refine ⟨q1, q2, ?_, q3, q4, q5, q6⟩
    simp only [HPool.track, q2]
    exact h3
  have setNe : ∀ (i : Nat) (x w : WPc Nat), s.pool.workers[i]? = some x → x ≠ .size → (s.pool.workers.set i w)[0]? = some .size := by
    intro i x w e hx
    rw [List.getElem?_set]
    by_cases hi : i = 0
    · subst hi; rw [h2] at e; injection e with e; exact absurd e.symm hx
    · simp [hi, h2]
  cases h
  case addDone a hpc => have := nobody a; rw [hpc] at this; cases this
  case numDone a k hpc => have := nobody a; rw [hpc] at this; cases this
  case addPushed a t hpc => have := nobody a; rw [hpc] at this; cases this
  case wPop i t q hpc hq =>
    have := other i _ hpc rfl
    subst this
    exact absurd hc (hf 0 t 7 h2 (by simp [lt_of_getElem?_some h2]) h3)
  case wEmpty i hpc hq => exact absurd hq h4
  case wFinish i t hpc _ => have := hand _ (List.mem_of_getElem? hpc); simp [inHand] at this
  case stopNotified a k hpc => exact ⟨fin _ hl1 (by simp [List.getElem?_map, h2, WPc.notify]) h4 h5 h6 hh1, by simp, by simp⟩
  case initSpawned a r n hpc =>
    exact ⟨fin _ hl1 (by simp only [setPc_workers]; rw [List.getElem?_append_left (lt_of_getElem?_some h2)]; exact h2) h4 h5 h6 hh1, by simp, by simp⟩
  case addNotified a i hpc hw => exact ⟨fin _ hl1 (setNe i _ _ hw (by simp)) h4 h5 h6 hh1, by simp, by simp⟩
  case stopAlready a k _ _ => exact ⟨fin _ hl1 h2 h4 h5 h6 hh1, by cases k <;> simp [stopLabel], by cases k <;> simp [stopLabel]⟩
  case stopDone a k _ _ _ => exact ⟨fin _ hl1 h2 h4 h5 h6 hh1, by cases k <;> simp [stopLabel], by cases k <;> simp [stopLabel]⟩
  case initDone a r _ => exact ⟨fin _ hl1 h2 h4 h5 h6 hh1, by cases r <;> simp, by cases r <;> simp⟩
  all_goals first
    | exact ⟨fin _ hl1 h2 h4 h5 h6 hh1, by simp, by simp⟩
    | (have hpc := ‹s.pool.workers[_]? = some _›
       exact ⟨fin _ hl1 (setNe _ _ _ hpc (by simp)) h4 h5 h6 hh1, by simp, by simp⟩)

/-- C165 is false, and worse: if the destructor of what a task captured calls `AddTask` or `GetBusyAndTaskNum`, the worker never comes out of
taking the next task.  It holds the mutex: no task is ever taken again, and no `AddTask` or `GetBusyAndTaskNum` of any thread
succeeds, whatever happens. -/
theorem C165_destructor_refuted : ∃ (tr : List (PoolLabel Nat)) (s : HPool Nat), HRun (fun t => t = 7) {} tr s ∧
    s.pool.accepted = [7, 8] ∧ s.pool.finished = [7] ∧ s.pool.cont = true ∧ (∀ a, s.pool.pcs a = .idle) ∧
    ∀ tr' s', HRun (fun t => t = 7) s tr' s' → s'.pool.started = [7] ∧ (∀ a, .ret a (.added 0) ∉ tr') ∧ ∀ a b k, .ret a (.numbers b k) ∉ tr' := by
  obtain ⟨v, hv⟩ : ∃ v, shownHeld (hcmdRun (fun t => t == 7) {} (initCmd 1 ++ addCmd 7 ++ wk 0 12 ++ addCmd 8 ++ wk 0 3)) = some v ∧
      v.pool.workers = [.size] ∧ v.pool.queue = [8] ∧ v.pool.cont = true ∧ v.pool.accepted = [7, 8] ∧ v.pool.finished = [7] ∧
      v.pool.client0 = .idle ∧ v.held0 = some 7 ∧ v.popped = [7] ∧
      ∀ l ∈ v.pool.trace, (match l with | .call a _ => decide (a = .client 0) | _ => true) = true := by
    refine ⟨_, rfl, ?_⟩
    decide +kernel
  obtain ⟨s, h1, h2⟩ := shownHeld_run hv.1
  obtain ⟨-, e1, e2, e3, e5, e6, e7, e8, e9, e10⟩ := hv
  have hr := hrun_pool h1
  have hli : LockInv s.pool := reachable_lock ⟨_, hr⟩
  simp only [shownHeld, shown, Option.map_some, Option.bind_some, Option.some.injEq] at h2
  rw [← h2] at e1 e2 e3 e5 e6 e7 e8 e9
  simp only at e1 e2 e3 e5 e6 e7 e8 e9
  have h1 : HRun (fun t => t = 7) {} v.pool.trace s := hrun_mono (fun t ht => by simpa using ht) h1
  have hk : StuckKept (fun t => t = 7) s := ⟨hli, by rw [e1]; rfl, e8, by rw [e2]; simp, e9, e6, reachable_hist ⟨_, hr⟩⟩
  refine ⟨_, s, h1, e5, e6, e3, fun a => ?_, fun tr' s' h' => ?_⟩
  · by_cases ha : a = .client 0
    · rw [ha]; exact e7
    · refine idle_of_no_call hr a fun op hm => ?_
      have := e10 _ hm
      simp only [decide_eq_true_eq] at this
      exact ha this
  have hb : StuckKept (fun t => t = 7) s' ∧ (∀ a, .ret a (.added 0) ∉ tr') ∧ (∀ a b k, .ret a (.numbers b k) ∉ tr') := by
    clear h2
    induction h' with
    | nil => exact ⟨hk, by simp, by simp⟩
    | snoc _ hl ha ih =>
      obtain ⟨i1, i2, i3⟩ := ih
      obtain ⟨j1, j2, j3⟩ := stuckKept_step (calls := fun t => t = 7) rfl i1 ha
      refine ⟨j1, fun a hm => ?_, fun a b k hm => ?_⟩
      · rcases List.mem_append.1 hm with hm | hm
        · exact i2 a hm
        · exact j2 a (List.mem_singleton.1 hm).symm
      · rcases List.mem_append.1 hm with hm | hm
        · exact i3 a b k hm
        · exact j3 a b k (List.mem_singleton.1 hm).symm
  refine ⟨?_, hb.2⟩
  have hh := hb.1.hist
  have e1 := hh.popped
  rw [hb.1.popped, hb.1.finished] at e1
  have e := e1.length_eq
  simp only [List.length_append, List.length_cons, List.length_nil] at e
  have hand : ∀ w ∈ s'.pool.workers, inHand w = [] := List.flatMap_eq_nil_iff.1 (List.eq_nil_of_length_eq_zero (by omega))
  have hex : s'.pool.workers.flatMap executing = [] := by
    rw [List.flatMap_eq_nil_iff]
    intro w hw
    have := hand w hw
    cases w <;> simp [inHand, executing] at this ⊢
  have := hh.started
  rw [hb.1.finished, hex, List.append_nil] at this
  exact List.perm_singleton.1 this

/-- Hypotheses met: three tasks, of which one has been released, one is kept and one is queued. -/
example : ∃ tr s, HRun (fun t => t = 9) {} tr s ∧ s.released = [7] ∧ s.held 0 = some 8 ∧ s.pool.queue = [9] ∧ s.pool.accepted = [7, 8, 9] := by
  obtain ⟨v, hv⟩ : ∃ v, shownHeld (hcmdRun (fun t => t == 9) {} (initCmd 1 ++ addCmd 7 ++ addCmd 8 ++ addCmd 9 ++ wk 0 14)) = some v ∧
      v.released = [7] ∧ v.held0 = some 8 ∧ v.pool.queue = [9] ∧ v.pool.accepted = [7, 8, 9] := by
    refine ⟨_, rfl, ?_⟩
    decide +kernel
  obtain ⟨s, h1, h2⟩ := shownHeld_run hv.1
  obtain ⟨-, e1, e2, e3, e4⟩ := hv
  simp only [shownHeld, shown, Option.map_some, Option.bind_some, Option.some.injEq] at h2
  rw [← h2] at e1 e2 e3 e4
  exact ⟨_, s, hrun_mono (fun t ht => by simpa using ht) h1, e1, e2, e3, e4⟩

/-- The same pool, stopped by its one thread in the middle of the second task, and destroyed: the third task was never run. -/
example : ∃ tr s, HRun (fun t => t = 9) {} tr s ∧ s.released = [7, 8, 9] ∧ s.pool.finished = [7, 8] ∧ s.pool.phase = .destroyed := by
  obtain ⟨v, hv⟩ : ∃ v, shownHeld (hcmdRun (fun t => t == 9) {} (initCmd 1 ++ addCmd 7 ++ addCmd 8 ++ addCmd 9 ++ wk 0 14 ++ stopCmd 3 ++ wk 0 5 ++ cl 2 ++
      [.call 0 .destroy] ++ cl 2)) = some v ∧ v.released = [7, 8, 9] ∧ v.pool.finished = [7, 8] ∧ v.pool.phase = .destroyed := by
    refine ⟨_, rfl, ?_⟩
    decide +kernel
  obtain ⟨s, h1, h2⟩ := shownHeld_run hv.1
  obtain ⟨-, e1, e2, e3⟩ := hv
  simp only [shownHeld, shown, Option.map_some, Option.bind_some, Option.some.injEq] at h2
  rw [← h2] at e1 e2 e3
  exact ⟨_, s, hrun_mono (fun t ht => by simpa using ht) h1, e1, e2, e3⟩

end Cppnet
