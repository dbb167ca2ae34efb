import Verif.Spec.ThreadLimit
import Verif.Props.Pool

/-!
# C185: a pool that is refused threads works with those it has
-/

namespace Cppnet
open Spec Pool
variable {α : Type}

/-- What the refusal does is what the end of `Init` would do. -/
theorem refused_done (s : Pool α) (a : Agent) (r : Bool) :
    Act (s.setPc a (.initSpawn r 0)) (.ret a (if r then .resized else .inited)) ((s.setPc a (.initSpawn r 0)).setPc a .idle) :=
  .initDone (by simp)

theorem setPc_twice (s : Pool α) (a : Agent) (c d : CPc α) : (s.setPc a c).setPc a d = s.setPc a d := by
  unfold Pool.setPc
  congr 1
  funext b
  by_cases h : b = a <;> simp [h]

theorem lim_inv {P : Pool α → Prop} {Q : LimLabel α → Prop} (hstep : ∀ s l s', s.phase = .live → P s → Q (.pool l) → Act s l s' → P s')
    (hcount : ∀ s j r n, s.pcs (.client j) = .initSpawn r n → P s → P (s.setPc (.client j) (.initSpawn r 0)))
    (hret : ∀ (j : Nat) (r : Bool), Q (.pool (.ret (.client j) (if r then .resized else .inited))))
    (hterm : ∀ s i r n, s.pcs (.worker i) = .initSpawn r n → P s → P { s with phase := .terminated })
    {s tr s'} (h : LimRun s tr s') (hq : ∀ l ∈ tr, Q l) (h0 : P s) : P s' := by
  induction h with
  | nil => exact h0
  | snoc _ hl ha ih =>
    have ih := ih fun l h => hq l (by simp [h])
    cases ha with
    | act ha => exact hstep _ _ _ hl ih (hq _ (by simp)) ha
    | @refused j r n hpc =>
      have := hstep _ _ _ (by simpa using hl) (hcount _ _ _ _ hpc ih) (hret _ _) (refused_done _ (.client j) r)
      rwa [setPc_twice] at this
    | refusedTask hpc => exact hterm _ _ _ _ hpc ih

theorem lim_hist {s : Pool α} {tr} (h : LimRun {} tr s) : HistInv s :=
  lim_inv (Q := fun _ => True) (fun s l s' _ hi _ ha => histInv_step s l s' hi ha) (fun _ _ _ _ _ h => ⟨h.fifo, h.popped, h.started⟩)
    (fun _ _ => trivial) (fun _ _ _ _ _ h => ⟨h.fifo, h.popped, h.started⟩) h (fun _ _ => trivial) ⟨rfl, .nil, .nil⟩

theorem lock_count {s : Pool α} {a : Agent} {r : Bool} {n : Nat} (hpc : s.pcs a = .initSpawn r n) (h : LockInv s) :
    LockInv (s.setPc a (.initSpawn r 0)) := by
  obtain ⟨h1, h2, h3, h4, h5⟩ := h
  refine ⟨h1, fun b hb => ?_, fun i hi => ?_, fun b hb => ?_, h5⟩
  · simp only [setPc_pcs] at hb
    by_cases e : b = a
    · rw [if_pos e] at hb; cases hb
    · rw [if_neg e] at hb; exact h2 b hb
  · refine h3 i ?_
    simp only [setPc_pcs] at hi
    by_cases e : Agent.worker i = a
    · rw [e, hpc]; simp
    · rw [if_neg e] at hi; exact hi
  · rcases h4 b hb with h | h
    · refine .inl ?_
      simp only [setPc_pcs]
      by_cases e : b = a
      · rw [e, hpc] at h; cases h
      · rw [if_neg e]; exact h
    · exact .inr h

theorem wake_count {s : Pool α} {a : Agent} {r : Bool} {n : Nat} (hpc : s.pcs a = .initSpawn r n) (h : WakeInv s) :
    WakeInv (s.setPc a (.initSpawn r 0)) := by
  obtain ⟨h1, h2⟩ := h
  refine ⟨fun hc hb => ?_, h2⟩
  rcases h1 hc hb with h | ⟨h, b, hb⟩
  · exact .inl h
  · refine .inr ⟨h, b, ?_⟩
    simp only [setPc_pcs]
    by_cases e : b = a
    · rw [e, hpc] at hb; cases hb
    · rw [if_neg e]; exact hb

theorem lim_wake {s : Pool α} {tr} (h : LimRun {} tr s) : LockInv s ∧ WakeInv s :=
  lim_inv (P := fun s => LockInv s ∧ WakeInv s) (Q := fun _ => True)
    (fun s l s' _ hi _ ha => ⟨lockInv_step s l s' hi.1 ha, wakeInv_step s l s' hi.1 hi.2 ha⟩)
    (fun _ _ _ _ hpc h => ⟨lock_count hpc h.1, wake_count hpc h.2⟩) (fun _ _ => trivial)
    (fun _ _ _ _ _ h => ⟨⟨h.1.worker, h.1.agent, h.1.task, h.1.holder, h.1.empty⟩, ⟨h.2.wake, h.2.exited⟩⟩) h (fun _ _ => trivial)
    ⟨lockInv_init, wakeInv_init⟩

/-- **C185**, however many threads are refused, to however many calls: what was accepted is queued, in the hands of one worker or
finished, and nothing is run twice. -/
theorem C185_once_partial (s : Pool α) (tr : List (LimLabel α)) (h : LimRun {} tr s) :
    s.accepted = s.popped ++ s.queue ∧ s.popped.Perm (s.finished ++ s.workers.flatMap inHand) ∧
    s.started.Perm (s.finished ++ s.workers.flatMap executing) :=
  have hi := lim_hist h
  ⟨hi.fifo, hi.popped, hi.started⟩

/-- **C185**: as long as there is a worker without a task, the first task of the queue can be taken, by steps of the pool and the calls
already begun alone. -/
theorem C185_progress_partial (s : Pool α) (tr : List (LimLabel α)) (h : LimRun {} tr s) (hl : s.phase = .live) (hc : s.cont = true)
    (t : α) (q : List α) (hq : s.queue = t :: q) (hf : ∃ w ∈ s.workers, free w = true) :
    ∃ tr s', Run s tr s' ∧ s'.popped = s.popped ++ [t] ∧ ∀ l ∈ tr, Quiet l :=
  takes_next ⟨hl, hc, ⟨q, hq⟩, (lim_wake h).1, (lim_wake h).2⟩ hf

/-! ### Stopping -/

theorem thr_pc {s : Pool α} {a : Agent} {c : CPc α} (h : ThrInv s) : ThrInv (s.setPc a c) := ⟨h.listed, h.joined⟩

theorem stop_count {ctl : Nat} {s : Pool α} {a : Agent} {r : Bool} {n : Nat} (hpc : s.pcs a = .initSpawn r n) (h : StopInv ctl s) :
    StopInv ctl (s.setPc a (.initSpawn r 0)) := by
  have ha : a = .client ctl := by
    by_cases e : a = .client ctl
    · exact e
    · have := h.others a e; rw [hpc] at this; cases this
  subst ha
  refine ⟨fun b hb => ?_, fun k i hk => ?_, fun hc => ?_⟩
  · simp only [setPc_pcs, if_neg hb]; exact h.others b hb
  · simp at hk
  · rcases h.stopped hc with h | h
    · rw [hpc] at h; cases h
    · exact .inr h

theorem join_count {ctl : Nat} {s : Pool α} {a : Agent} {r : Bool} {n : Nat} (hs : StopInv ctl s) (hpc : s.pcs a = .initSpawn r n)
    (h : JoinInv ctl s) : JoinInv ctl (s.setPc a (.initSpawn r 0)) := by
  have ha : a = .client ctl := by
    by_cases e : a = .client ctl
    · exact e
    · have := hs.others a e; rw [hpc] at this; cases this
  subst ha
  exact ⟨h.valid, h.running, by simp, by simp, by simp [CPc.stopping], by simp⟩

theorem lim_stop {ctl : Nat} {s : Pool α} {tr} (h : LimRun {} tr s) (hd : ∀ l ∈ tr, LimDisciplined ctl l) :
    ThrInv s ∧ StopInv ctl s ∧ JoinInv ctl s :=
  lim_inv (P := fun s => ThrInv s ∧ StopInv ctl s ∧ JoinInv ctl s) (Q := LimDisciplined ctl)
    (fun s l s' _ hi hq ha => ⟨thrInv_step s l s' hi.1 ha, stopInv_step ctl s l s' hi.1 hi.2.1 (hq l rfl) ha,
      joinInv_step ctl s l s' hi.2.1 hi.2.2 ha⟩)
    (fun s j r n hpc hi => ⟨thr_pc hi.1, stop_count hpc hi.2.1, join_count hi.2.1 hpc hi.2.2⟩)
    (fun j r l' e => by cases e; intro a op e; cases e)
    (fun s i r n hpc hi => by have := hi.2.1.others (.worker i) (by simp); rw [hpc] at this; cases this)
    h hd ⟨thrInv_init, stopInv_init ctl, joinInv_init ctl⟩

/-- **C185**, with one controlling thread: `Stop` waits for the threads that were started; when it returns no worker has a task, and
the accepted tasks are the finished ones and those still in the queue. -/
theorem C185_stop_partial (ctl : Nat) (s s' : Pool α) (tr : List (LimLabel α)) (h : LimRun {} tr s) (hd : ∀ l ∈ tr, LimDisciplined ctl l)
    (ha : Act s (.ret (.client ctl) .stopped) s') :
    (∀ w ∈ s'.workers, inHand w = []) ∧ (s'.finished ++ s'.queue).Perm s'.accepted := by
  obtain ⟨ht, hs, hj⟩ := lim_stop h hd
  have key : (∀ w ∈ s.workers, noTask w = true) ∧ s'.workers = s.workers := by
    generalize hlab : PoolLabel.ret (.client ctl) .stopped = l at ha
    cases ha <;> first | cases hlab | skip
    case stopAlready a k hpc hc =>
      cases k <;> simp [stopLabel] at hlab
      subst hlab
      refine ⟨?_, rfl⟩
      rcases hs.stopped hc with hh | hh
      · rw [hpc] at hh; cases hh
      · exact hh
    case stopDone a k i hpc hlen =>
      cases k <;> simp [stopLabel] at hlab
      subst hlab
      refine ⟨fun w hw => ?_, rfl⟩
      rw [all_joined ht hs hpc hlen w hw]; rfl
    case initDone a r hpc => cases r <;> cases hlab
  have hin : ∀ w ∈ s'.workers, inHand w = [] := by
    intro w hw
    rw [key.2] at hw
    have := key.1 w hw
    cases w <;> simp [noTask, inHand] at this ⊢
  refine ⟨hin, ?_⟩
  obtain ⟨g1, g2, _⟩ := histInv_step _ _ _ (lim_hist h) ha
  rw [g1]
  refine List.Perm.append_right _ ?_
  refine (g2.trans ?_).symm
  rw [List.flatMap_eq_nil_iff.2 hin, List.append_nil]

/-- **C185**: and a pool that was refused threads by its one `Init` can be stopped and destroyed: the program is not terminated as long
as no task throws. -/
theorem C185_destroy_partial (ctl n : Nat) (s : Pool α) (tr : List (LimLabel α))
    (h : LimRun (({} : Pool α).setPc (.client ctl) (entry (.init n))) tr s)
    (hd : ∀ l ∈ tr, LimDisciplined ctl l ∧ LimNoStart l ∧ l ≠ .pool .throws) : s.phase ≠ .terminated := by
  have hact : Act ({} : Pool α) (.call (.client ctl) (.init n)) (({} : Pool α).setPc (.client ctl) (entry (.init n))) := .call rfl trivial
  have hdis : Disciplined ctl (.call (.client ctl) (.init n) : PoolLabel α) := by
    rintro a op e
    injection e with e1 e2
    exact .inr (.inr e1.symm)
  have h0 := thrInv_step _ _ _ thrInv_init hact
  have h1 := stopInv_step ctl _ _ _ thrInv_init (stopInv_init ctl) hdis hact
  have h2 := joinInv_step ctl _ _ _ (stopInv_init ctl) (joinInv_init ctl) hact
  have h3 : LifeInv ctl (({} : Pool α).setPc (.client ctl) (entry (.init n))) :=
    ⟨by simp, .inl ⟨n, by simp [entry], rfl, rfl⟩⟩
  refine (lim_inv (P := fun s => ThrInv s ∧ StopInv ctl s ∧ JoinInv ctl s ∧ LifeInv ctl s)
    (Q := fun l => LimDisciplined ctl l ∧ LimNoStart l ∧ l ≠ .pool .throws)
    (fun s l s' _ hi hq ha => ⟨thrInv_step s l s' hi.1 ha, stopInv_step ctl s l s' hi.1 hi.2.1 (hq.1 l rfl) ha,
      joinInv_step ctl s l s' hi.2.1 hi.2.2.1 ha, lifeInv_step ctl s l s' hi.2.1 hi.2.2.1 hi.2.2.2 (hq.1 l rfl)
        (fun a op e => hq.2.1 a op (by rw [e])) (fun e => hq.2.2 (by rw [e])) ha⟩)
    (fun s j r n hpc hi => ⟨thr_pc hi.1, stop_count hpc hi.2.1, join_count hi.2.1 hpc hi.2.2.1, ?_⟩)
    (fun j r => ⟨fun l' e => (by cases e; intro a op e; cases e), fun a op e => (by cases e), by simp⟩)
    (fun s i r n hpc hi => by have := hi.2.1.others (.worker i) (by simp); rw [hpc] at this; cases this)
    h hd ⟨h0, h1, h2, h3⟩).2.2.2.phase
  have hj : Agent.client j = .client ctl := by
    by_cases e : Agent.client j = .client ctl
    · exact e
    · have := hi.2.1.others (.client j) e; rw [hpc] at this; cases this
  rw [hj] at hpc ⊢
  obtain ⟨g1, g2⟩ := hi.2.2.2
  refine ⟨g1, ?_⟩
  rcases g2 with ⟨m, e, _⟩ | ⟨m, e, e2⟩ | ⟨e, _⟩
  · rw [hpc] at e; cases e
  · rw [hpc] at e
    injection e with e3 e4
    subst e3
    exact .inr (.inl ⟨0, by simp, e2⟩)
  · rw [hpc] at e; cases e

/-! ### Where it fails -/

theorem lim_one {s s' : Pool α} {l : LimLabel α} (hl : s.phase = .live) (h : LimAct s l s') : LimRun s [l] s' :=
  .snoc (.nil s) hl h

theorem lim_append {s s' s'' : Pool α} {tr tr' : List (LimLabel α)} (h : LimRun s tr s') (h' : LimRun s' tr' s'') :
    LimRun s (tr ++ tr') s'' := by
  induction h' with
  | nil => simpa using h
  | snoc _ hl ha ih => rw [← List.append_assoc]; exact .snoc ih hl ha

theorem lim_cons {s s' s'' : Pool α} {l : LimLabel α} {tr : List (LimLabel α)} (hl : s.phase = .live) (h : LimAct s l s')
    (h' : LimRun s' tr s'') : LimRun s (l :: tr) s'' := lim_append (lim_one hl h) h'

theorem act_eq {s s' s'' : Pool α} {l : PoolLabel α} (h : Act s l s') (e : s' = s'') : Act s l s'' := e ▸ h

/-- `k` threads of `n + k` have been started. -/
def begun (n k : Nat) : Pool α :=
  { threadNum := n + k, workers := List.replicate k .lock, threads := (List.range k).map (fun i => (i, true)),
    pcs := fun b => if b = .client 0 then .initSpawn false n else .idle }

theorem begun_next (n k : Nat) : Act (begun (n + 1) k : Pool α) .tau (begun n (k + 1)) := by
  refine act_eq (Act.initSpawned (a := .client 0) (r := false) (n := n) (by simp [begun])) ?_
  simp only [begun, Pool.setPc, List.replicate_succ', List.range_succ, List.map_append, List.map_cons, List.map_nil, List.length_replicate,
    Pool.mk.injEq, and_true, true_and]
  refine ⟨by omega, funext fun b => ?_⟩
  by_cases h : b = .client 0 <;> simp [h]

theorem begun_first (n : Nat) : Act (({} : Pool α).setPc (.client 0) (entry (.init n))) .tau (begun n 0) := by
  refine act_eq (Act.initCleared (a := .client 0) (r := false) (n := n) (by simp [entry]) (by simp)) ?_
  simp only [begun, Pool.setPc, Pool.mk.injEq, and_true, true_and]
  refine ⟨by simp, by simp, by simp, funext fun b => ?_⟩
  by_cases h : b = .client 0 <;> simp [h]

/-- `Init(n + k)` up to its `k`-th thread, when no worker has moved yet. -/
theorem begun_run (n k : Nat) : ∃ tr, Run (({} : Pool α).setPc (.client 0) (entry (.init (n + k)))) tr (begun n k) ∧ ∀ l ∈ tr, l = .tau := by
  induction k generalizing n with
  | zero => exact ⟨_, .snoc (.nil _) rfl (begun_first n), by simp⟩
  | succ k ih =>
    obtain ⟨tr, h, ht⟩ := ih (n + 1)
    rw [show n + 1 + k = n + (k + 1) by omega] at h
    refine ⟨_, .snoc h rfl (begun_next n k), fun l hl => ?_⟩
    rcases List.mem_append.1 hl with h | h
    · exact ht l h
    · simpa using h

theorem lim_of_run {s s' : Pool α} {tr : List (PoolLabel α)} (h : Run s tr s') : LimRun s (tr.map .pool) s' := by
  induction h with
  | nil => exact .nil _
  | snoc _ hl ha ih => rw [List.map_append]; exact .snoc ih hl (.act ha)

/-- After the refusal. -/
def short (n k : Nat) : Pool α := (begun n k).setPc (.client 0) .idle

theorem short_run (n k : Nat) : ∃ tr, LimRun ({} : Pool α) (.pool (.call (.client 0) (.init (n + 1 + k))) :: tr ++ [.refused (.client 0)]) (short (n + 1) k) ∧
    ∀ l ∈ tr, l = .pool .tau := by
  obtain ⟨tr, h, ht⟩ := begun_run (α := α) (n + 1) k
  refine ⟨tr.map .pool, .snoc (lim_cons rfl (.act (.call rfl trivial)) (lim_of_run h)) rfl (.refused (r := false) (n := n) (by simp [begun])), ?_⟩
  intro l hl
  obtain ⟨x, hx, rfl⟩ := List.mem_map.1 hl
  rw [ht x hx]

/-- No thread was started, and nobody is about to start one. -/
structure NoneInv (s : Pool α) : Prop where
  workers : s.workers = []
  started : s.started = []
  calls : ∀ a, (s.pcs a).noSpawn = true

theorem noneInv_step {s s' : Pool α} {l : PoolLabel α} (hi : NoneInv s) (hn : NoSpawn l) (h : Act s l s') : NoneInv s' := by
  obtain ⟨h1, h2, h3⟩ := hi
  have upd : ∀ (a : Agent) (c : CPc α), c.noSpawn = true → ∀ b, (if b = a then c else s.pcs b).noSpawn = true := by
    intro a c hc b
    by_cases e : b = a
    · rw [if_pos e]; exact hc
    · rw [if_neg e]; exact h3 b
  have no : ∀ (i : Nat) (w : WPc α), s.workers[i]? = some w → False := by intro i w hw; rw [h1] at hw; simp at hw
  have bad : ∀ (a : Agent) (c : CPc α), s.pcs a = c → c.noSpawn = false → False := by
    intro a c hc hf; have := h3 a; rw [hc, hf] at this; cases this
  have aft : ∀ (a : Agent) (k : AfterStop), (∀ n, k ≠ .resize n) → (afterStop k : CPc α).noSpawn = true := by
    intro a k hk; cases k <;> first | rfl | exact absurd rfl (hk _)
  cases h
  case call a op hidle hmay =>
    refine ⟨h1, h2, upd a _ ?_⟩
    obtain ⟨g1, g2⟩ := hn a op rfl
    cases op <;> first | rfl | exact absurd rfl (g1 _) | exact absurd rfl (g2 _)
  case stopAlready a k hpc hc =>
    refine ⟨h1, h2, upd a _ (aft a k ?_)⟩
    rintro n rfl
    exact bad _ _ hpc rfl
  case stopDone a k i hpc hc =>
    refine ⟨h1, h2, upd a _ (aft a k ?_)⟩
    rintro n rfl
    exact bad _ _ hpc rfl
  case stopChecked a k hpc hc =>
    refine ⟨h1, h2, upd a _ ?_⟩
    cases k <;> first | rfl | exact (bad _ _ hpc rfl).elim
  case stopFlag a k hpc =>
    refine ⟨h1, h2, upd a _ ?_⟩
    cases k <;> first | rfl | exact (bad _ _ hpc rfl).elim
  case stopNotified a k hpc =>
    refine ⟨by simp [h1], h2, upd a _ ?_⟩
    cases k <;> first | rfl | exact (bad _ _ hpc rfl).elim
  case stopJoined a k i w hpc h h' => exact (no _ _ h').elim
  all_goals first
    | exact ⟨h1, h2, h3⟩
    | exact ⟨h1, h2, upd _ _ rfl⟩
    | exact (no _ _ ‹_›).elim
    | (have hpc := ‹s.pcs _ = _›; exact (bad _ _ hpc rfl).elim)

theorem none_stays {s s' : Pool α} {tr : List (LimLabel α)} (h : LimRun s tr s') (hn : ∀ l ∈ tr, LimNoStart l) (h0 : NoneInv s) : NoneInv s' := by
  induction h with
  | nil => exact h0
  | snoc _ hl ha ih =>
    have ih := ih (fun l h => hn l (by simp [h]))
    cases ha with
    | act ha => exact noneInv_step ih (fun a op e => hn (.pool _) (List.mem_append_right _ (List.mem_singleton.2 rfl)) a op (by rw [e])) ha
    | @refused j r n hpc => have := ih.calls (.client j); rw [hpc] at this; cases this
    | @refusedTask i r n hpc => have := ih.calls (.worker i); rw [hpc] at this; cases this

/-- C185 is false of an `Init` that got no thread at all: it throws, but the pool takes itself for initialised.  `AddTask` accepts a
task and returns 0, and whatever any thread does afterwards short of starting threads, the task is never run. -/
theorem C185_none_refuted (n : Nat) (t : α) : ∃ tr s₁ s₂ tr₂,
    LimRun ({} : Pool α) (.pool (.call (.client 0) (.init (n + 1))) :: tr ++ [.refused (.client 0)]) s₁ ∧
    LimRun s₁ (.pool (.call (.client 0) (.add t)) :: tr₂ ++ [.pool (.ret (.client 0) (.added 0))]) s₂ ∧ s₂.accepted = [t] ∧
    ∀ tr' s', LimRun s₂ tr' s' → (∀ l ∈ tr', LimNoStart l) → s'.started = [] := by
  obtain ⟨tr, h, _⟩ := short_run (α := α) n 0
  have r := lim_cons (s := short (n + 1) 0) (by simp [short, begun]) (.act (.call (a := .client 0) (op := .add t) (by simp [short]) trivial))
    (lim_cons (by simp [short, begun]) (.act (.addChecked (a := .client 0) (t := t) (by simp [entry]) (by simp [short, begun]) (by simp [short, begun])))
    (lim_cons (by simp [short, begun]) (.act (.addLocked (a := .client 0) (t := t) (by simp) (by simp [short, begun])))
    (lim_cons (by simp [short, begun]) (.act (.addPushed (a := .client 0) (t := t) (by simp)))
    (lim_cons (by simp [short, begun]) (.act (.addNobody (a := .client 0) (by simp) (by simp [short, begun])))
    (lim_one (by simp [short, begun]) (.act (.addDone (a := .client 0) (by simp))))))))
  refine ⟨tr, _, _, [.pool .tau, .pool .tau, .pool .tau, .pool .tau], h, r, by simp [short, begun], fun tr' s' hr hn => ?_⟩
  refine (none_stays hr hn ⟨by simp [short, begun], by simp [short, begun], fun a => ?_⟩).started
  by_cases e : a = .client 0
  · simp [short, begun, e, CPc.noSpawn]
  · simp [short, begun, e, CPc.noSpawn]

/-- C185 is false of a second `Init`, after the first got some of its threads: it terminates the program. -/
theorem C185_again_refuted (n k m : Nat) (hk : 0 < k) : ∃ tr s₁ s,
    LimRun ({} : Pool α) (.pool (.call (.client 0) (.init (n + 1 + k))) :: tr ++ [.refused (.client 0)]) s₁ ∧ s₁.threads.length = k ∧
    LimRun s₁ [.pool (.call (.client 0) (.init m)), .pool .tau] s ∧ s.phase = .terminated := by
  obtain ⟨tr, h, _⟩ := short_run (α := α) n k
  exact ⟨tr, _, _, h, by simp [short, begun], lim_cons (by simp [short, begun]) (.act (.call (by simp [short]) trivial))
    (lim_one (by simp [short, begun]) (.act (.initTerminates (a := .client 0) (r := false) (n := m) (by simp [entry])
      ⟨(0, true), by simpa [short, begun] using hk, rfl⟩))), rfl⟩

/-- C185 is false of `Resize` to the number that was asked for: it returns at once, and there are as few threads as before. -/
theorem C185_resize_refuted (n k : Nat) : ∃ tr s₁ s,
    LimRun ({} : Pool α) (.pool (.call (.client 0) (.init (n + 1 + k))) :: tr ++ [.refused (.client 0)]) s₁ ∧ s₁.threads.length = k ∧
    LimRun s₁ [.pool (.call (.client 0) (.resize (n + 1 + k))), .pool (.ret (.client 0) .resized)] s ∧ s.phase = .live ∧ s.threads.length = k := by
  obtain ⟨tr, h, _⟩ := short_run (α := α) n k
  exact ⟨tr, _, _, h, by simp [short, begun], lim_cons (by simp [short, begun]) (.act (.call (by simp [short]) trivial))
    (lim_one (by simp [short, begun]) (.act (.resizeSame (a := .client 0) (n := n + 1 + k) (by simp [entry])
      (.inl (by simp [short, begun]))))), by simp [short, begun], by simp [short, begun]⟩

/-- In none of the functions but `Init`. -/
def CPc.starting : CPc α → Bool
  | .idle | .initClear _ _ | .initSpawn _ _ => true
  | _ => false

theorem starting_step {s s' : Pool α} {l : PoolLabel α} (h1 : ∀ x ∈ s.threads, x.2 = true) (h2 : ∀ a, (s.pcs a).starting = true)
    (hc : ∀ a op, l ≠ .call a op) (h : Act s l s') : (∀ x ∈ s'.threads, x.2 = true) ∧ ∀ a, (s'.pcs a).starting = true := by
  have upd : ∀ (a : Agent) (c : CPc α), c.starting = true → ∀ b, (if b = a then c else s.pcs b).starting = true := by
    intro a c hc b
    by_cases e : b = a
    · rw [if_pos e]; exact hc
    · rw [if_neg e]; exact h2 b
  have bad : ∀ (a : Agent) (c : CPc α), s.pcs a = c → c.starting = false → False := by
    intro a c hc hf; have := h2 a; rw [hc, hf] at this; cases this
  cases h
  case call a op _ _ => exact absurd rfl (hc a op)
  case initCleared => exact ⟨by simp, upd _ _ rfl⟩
  case initSpawned =>
    refine ⟨fun x hx => ?_, upd _ _ rfl⟩
    simp only [setPc_threads, List.mem_append, List.mem_singleton] at hx
    rcases hx with hx | rfl
    · exact h1 x hx
    · rfl
  case initDone => exact ⟨h1, upd _ _ rfl⟩
  all_goals first
    | exact ⟨h1, h2⟩
    | (have hpc := ‹s.pcs _ = _›; exact (bad _ _ hpc rfl).elim)

/-- C185 is false of the constructor with a number: a refusal after the first thread terminates the program, whatever the threads
already started have done meanwhile; the caller has nothing to catch. -/
theorem C185_constructor_refuted (n : Nat) (s : Pool α) (tr : List (PoolLabel α)) (h : Run (constructing n) tr s)
    (hc : ∀ l ∈ tr, ∀ a op, l ≠ .call a op) (r : Bool) (m : Nat) (hpc : s.pcs (.client 0) = .initSpawn r (m + 1)) (ht : s.threads ≠ []) :
    (∃ s', CtorRefused s s') ∧ ∀ s', CtorRefused s s' → s'.phase = .terminated := by
  have hj : (∀ x ∈ s.threads, x.2 = true) ∧ ∀ a, (s.pcs a).starting = true := by
    refine pool_run_inv_labels (P := fun s => (∀ x ∈ s.threads, x.2 = true) ∧ ∀ a, (s.pcs a).starting = true)
      (Q := fun l => ∀ a op, l ≠ .call a op) (fun s l s' _ hi hq ha => starting_step hi.1 hi.2 hq ha) h hc ⟨by simp [constructing], fun a => ?_⟩
    simp only [constructing, setPc_pcs]
    split <;> rfl
  obtain ⟨x, hx⟩ := List.exists_mem_of_ne_nil _ ht
  refine ⟨⟨_, .terminates hpc ⟨x, hx, hj.1 x hx⟩⟩, fun s' hr => ?_⟩
  cases hr with
  | terminates => rfl
  | thrown hpc hall =>
    have := hall x hx
    rw [hj.1 x hx] at this
    cases this

/-- C185, the constructor with a number, when the first thread is refused: the caller gets the exception, the members are destroyed and
the program goes on.  Missing: later refusals, see `C185_constructor_refuted`. -/
theorem C185_constructor_partial (s : Pool α) (r : Bool) (m : Nat) (hpc : s.pcs (.client 0) = .initSpawn r (m + 1)) (ht : s.threads = []) :
    (∃ s', CtorRefused s s') ∧ ∀ s', CtorRefused s s' → s'.phase = .destroyed ∧ s'.workers = s.workers := by
  refine ⟨⟨_, .thrown hpc (by simp [ht])⟩, fun s' h => ?_⟩
  cases h with
  | terminates _ h =>
    obtain ⟨x, hx, _⟩ := h
    rw [ht] at hx
    cases hx
  | thrown _ _ => exact ⟨rfl, rfl⟩

example (k : Nat) : ∃ tr s, Run (constructing (k + 1) : Pool α) tr s ∧ s.pcs (.client 0) = .initSpawn false (k + 1) ∧ s.threads = [] ∧ s.workers = [] := by
  obtain ⟨tr, h, ht⟩ := begun_run (α := α) (k + 1) 0
  exact ⟨tr, _, h, by simp [begun], by simp [begun], by simp [begun]⟩

/- The hypotheses are met by every number of threads that were started and refused; and of the pool that `Init` left with too few
threads one is free. -/
example (n k : Nat) : ∃ tr s, Run (constructing (n + 1 + (k + 1)) : Pool α) tr s ∧ (∀ l ∈ tr, ∀ a op, l ≠ .call a op) ∧
    s.pcs (.client 0) = .initSpawn false (n + 1) ∧ s.threads ≠ [] := by
  obtain ⟨tr, h, ht⟩ := begun_run (α := α) (n + 1) (k + 1)
  exact ⟨tr, _, h, fun l hl a op e => (by rw [ht l hl] at e; cases e), by simp [begun], by simp [begun]⟩

example (n k : Nat) : ∃ tr, LimRun ({} : Pool α) tr (short (n + 1) (k + 1)) ∧ .refused (.client 0) ∈ tr ∧ (∀ l ∈ tr, LimDisciplined 0 l) ∧
    (short (n + 1) (k + 1) : Pool α).cont = true ∧ ∃ w ∈ (short (n + 1) (k + 1) : Pool α).workers, free w = true := by
  obtain ⟨tr, h, ht⟩ := short_run (α := α) n (k + 1)
  refine ⟨_, h, by simp, fun l hl => ?_, rfl, .lock, by simp [short, begun], rfl⟩
  simp only [List.cons_append, List.mem_cons, List.mem_append, List.not_mem_nil, or_false] at hl
  rcases hl with rfl | hl | rfl
  · intro l' e a op e'
    cases e
    injection e' with e1 e2
    exact .inr (.inr e1.symm)
  · rw [ht l hl]
    intro l' e a op e'
    cases e
    cases e'
  · intro l' e
    cases e

end Cppnet
