import Verif.Spec.PoolTask
import Verif.Proofs.PoolProgress

/-! # Tasks that use their own pool -/

namespace Cppnet
open Spec Pool
variable {α : Type}

/-- Which call an agent in a pool function is making. -/
def CPc.doing : CPc α → PoolOp α → Prop
  | .idle, _ => True
  | .addCheck _, op | .addLock _, op | .addPush _, op | .addNotify, op | .addUnlock, op => ∃ t, op = .add t
  | .stopCheck k, op | .stopSet k, op | .stopNotify k, op | .stopJoin k _, op =>
    match k with
    | .ret => op = .stop
    | .resize n => op = .resize n
    | .destroy => op = .destroy
  | .resizeCheck n, op | .resizeClear n, op => op = .resize n
  | .initClear r n, op => if r then op = .resize n else op = .init n
  | .initSpawn r _, op => if r then ∃ n, op = .resize n else ∃ n, op = .init n
  | .members, op => op = .destroy
  | .numLock, op | .numSize, op | .numBusy _, op => op = .numbers

theorem lastCall_append (tr : List (PoolLabel α)) (l : PoolLabel α) (a : Agent) :
    lastCall (tr ++ [l]) a = match l with
      | .call b op => if b = a then some op else lastCall tr a
      | _ => lastCall tr a := by
  simp only [lastCall, List.foldl_append, List.foldl_cons, List.foldl_nil]
  cases l <;> rfl

theorem lastCall_mem {tr : List (PoolLabel α)} {a : Agent} {op} : lastCall tr a = some op → .call a op ∈ tr := by
  intro h
  have : ∀ (tr : List (PoolLabel α)) (n : Nat), tr.length = n → lastCall tr a = some op → .call a op ∈ tr := by
    intro tr n
    induction n generalizing tr with
    | zero => intro h h'; rw [List.length_eq_zero_iff.1 h] at h'; cases h'
    | succ n ih =>
      intro hn h
      obtain ⟨tr', l, rfl⟩ : ∃ tr' l, tr = tr' ++ [l] :=
        ⟨tr.dropLast, _, (List.dropLast_concat_getLast (by rintro rfl; cases hn)).symm⟩
      rw [lastCall_append] at h
      have ih := ih tr' (by simpa using hn)
      split at h
      · split at h
        · cases h; subst_vars; simp
        · simp [ih h]
      · simp [ih h]
  exact this tr _ rfl h

/-- Every agent in a pool function has called it. -/
def DoingInv (tr : List (PoolLabel α)) (s : Pool α) : Prop :=
  ∀ a, s.pcs a ≠ .idle → ∃ op, lastCall tr a = some op ∧ (s.pcs a).doing op

theorem doing_step {tr : List (PoolLabel α)} {s s' : Pool α} {l} (hi : DoingInv tr s) (h : Act s l s') : DoingInv (tr ++ [l]) s' := by
  intro b hb
  have keep : s'.pcs b = s.pcs b → (∀ op, l ≠ .call b op) → ∃ op, lastCall (tr ++ [l]) b = some op ∧ (s'.pcs b).doing op := by
    intro e hl
    obtain ⟨op, h1, h2⟩ := hi b (e ▸ hb)
    refine ⟨op, ?_, e ▸ h2⟩
    rw [lastCall_append]
    split
    · rename_i c op'
      split
      · subst_vars; exact absurd rfl (hl op')
      · exact h1
    · exact h1
  have go : ∀ (a : Agent) (c : CPc α), (∀ x, s'.pcs x = if x = a then c else s.pcs x) → s.pcs a ≠ .idle → (∀ x op, l ≠ .call x op) →
      (∀ op, (s.pcs a).doing op → c.doing op) → ∃ op, lastCall (tr ++ [l]) b = some op ∧ (s'.pcs b).doing op := by
    intro a c hs hne hl hd
    by_cases e : b = a
    · subst e
      obtain ⟨op, h1, h2⟩ := hi b hne
      refine ⟨op, ?_, by rw [hs, if_pos rfl]; exact hd op h2⟩
      rw [lastCall_append]
      split
      · exact absurd rfl (hl _ _)
      · exact h1
    · exact keep (by rw [hs, if_neg e]) (hl b)
  cases h
  case call a op hidle hmay =>
    by_cases e : b = a
    · subst e
      refine ⟨op, by simp [lastCall_append], ?_⟩
      cases op <;> simp [CPc.doing, entry]
    · exact keep (by simp [e]) (fun op' h => by cases h; exact e rfl)
  case stopAlready a k hpc hc =>
    cases k <;> exact go a _ (fun _ => rfl) (by rw [hpc]; simp) (by simp [stopLabel]) (by rw [hpc]; simp [CPc.doing, afterStop])
  case stopDone a k i hpc hc =>
    cases k <;> exact go a _ (fun _ => rfl) (by rw [hpc]; simp) (by simp [stopLabel]) (by rw [hpc]; simp [CPc.doing, afterStop])
  case initCleared a r n hpc h =>
    refine go a _ (fun _ => rfl) (by rw [hpc]; simp) (by simp) ?_
    rw [hpc]
    cases r <;> simp [CPc.doing]
  all_goals first
    | exact keep rfl (by simp)
    | (have hpc := ‹s.pcs _ = _›
       exact go _ _ (fun _ => rfl) (by rw [hpc]; simp) (by simp) (by rw [hpc]; simp [CPc.doing]))
    | (rename_i hpc
       exact go _ _ (fun _ => rfl) (by rw [hpc]; simp) (by simp) (by rw [hpc]; simp [CPc.doing]))
    | (rename_i hpc _
       exact go _ _ (fun _ => rfl) (by rw [hpc]; simp) (by simp) (by rw [hpc]; simp [CPc.doing]))

theorem doing_run {tr : List (PoolLabel α)} {s : Pool α} (h : Run {} tr s) : DoingInv tr s := by
  have : ∀ {s0 s : Pool α} {tr}, Run s0 tr s → s0 = {} → DoingInv tr s := by
    intro s0 s tr h
    induction h with
    | nil => intro e a h; rw [e] at h; exact absurd rfl h
    | snoc _ _ ha ih => intro e; exact doing_step (ih e) ha
  exact this h rfl

/-- A worker whose task is in a pool function has a joinable handle. -/
theorem own_handle {s : Pool α} (hl : LockInv s) (ht : ThrInv s) {i : Nat} (h : s.pcs (.worker i) ≠ .idle) : (i, true) ∈ s.threads := by
  obtain ⟨t, ht'⟩ := hl.task i h
  rcases ht.listed i _ ht' with h1 | ⟨b, h1⟩
  · cases h1
  · cases b
    · rw [ht.joined i h1] at ht'; cases ht'
    · exact h1

/-- No task gets past its own handle. -/
structure SelfInv (s : Pool α) : Prop where
  spawn : ∀ i r n, s.pcs (.worker i) ≠ .initSpawn r n
  join : ∀ i k j, s.pcs (.worker i) = .stopJoin k j → ∀ m v b, m < j → s.threads[m]? = some (v, b) → b = false

theorem selfInv_step {s s' : Pool α} {l} (hl : LockInv s) (ht : ThrInv s) (hi : SelfInv s) (h : Act s l s') : SelfInv s' := by
  obtain ⟨h1, h2⟩ := hi
  have own : ∀ i, s.pcs (.worker i) ≠ .idle → (∀ x ∈ s.threads, x.2 = false) → False := by
    intro i h h'
    have := h' _ (own_handle hl ht h)
    cases this
  have go : ∀ (a : Agent) (c : CPc α), (∀ x, s'.pcs x = if x = a then c else s.pcs x) → s'.threads = s.threads →
      (∀ r n, c ≠ .initSpawn r n) → (∀ k j, c = .stopJoin k j → j = 0) → SelfInv s' := by
    intro a c hs he hc hc'
    refine ⟨fun i r n h => ?_, fun i k j hj m v b hm hv => ?_⟩
    · rw [hs] at h
      split at h
      · exact hc r n h
      · exact h1 i r n h
    · rw [hs] at hj
      rw [he] at hv
      split at hj
      · have := hc' k j hj; omega
      · exact h2 i k j hj m v b hm hv
  have clear : ∀ (a : Agent) (c : CPc α), (∀ x, s'.pcs x = if x = a then c else s.pcs x) → s.pcs a ≠ .idle →
      (∀ x ∈ s.threads, x.2 = false) → SelfInv s' := by
    intro a c hs hne hf
    refine ⟨fun i r n h => ?_, fun i k j hj m v b hm hv => ?_⟩
    · rw [hs] at h
      split at h
      · rename_i e; subst e; exact own i hne hf
      · exact h1 i r n h
    · rw [hs] at hj
      split at hj
      · rename_i e; subst e; exact (own i hne hf).elim
      · exact (own i (by rw [hj]; simp) hf).elim
  cases h
  case resizeCleared a n hpc h => exact clear a _ (fun _ => rfl) (by rw [hpc]; simp) h
  case initCleared a r n hpc h => exact clear a _ (fun _ => rfl) (by rw [hpc]; simp) h
  case call a op hidle hmay => cases op <;> exact go a _ (fun _ => rfl) rfl (by simp [entry]) (by simp [entry])
  case stopAlready a k hpc hc => cases k <;> exact go a _ (fun _ => rfl) rfl (by simp [afterStop]) (by simp [afterStop])
  case stopDone a k i hpc hc => cases k <;> exact go a _ (fun _ => rfl) rfl (by simp [afterStop]) (by simp [afterStop])
  case stopJoined a k i w hpc h h' =>
    refine ⟨fun j r n hj => ?_, fun j k' j' hj m v b hm hv => ?_⟩
    · simp only [setPc_pcs] at hj
      split at hj
      · cases hj
      · exact h1 j r n hj
    · simp only [setPc_pcs] at hj
      simp only [setPc_threads] at hv
      by_cases hmi : m = i
      · subst hmi
        rw [List.getElem?_set_self (List.getElem?_eq_some_iff.1 h).1] at hv
        cases hv; rfl
      · rw [List.getElem?_set_ne (Ne.symm hmi)] at hv
        split at hj
        · rename_i e
          cases hj
          rw [← e] at hpc
          exact h2 j k i hpc m v b (by omega) hv
        · exact h2 j k' j' hj m v b hm hv
  case initSpawned a r n hpc =>
    refine ⟨fun j r n hj => ?_, fun j k' j' hj m v b hm hv => ?_⟩
    · simp only [setPc_pcs] at hj
      split at hj
      · rename_i e
        rw [← e] at hpc
        exact h1 _ _ _ hpc
      · exact h1 j r n hj
    · simp only [setPc_pcs] at hj
      split at hj
      · cases hj
      · simp only [setPc_threads] at hv
        obtain ⟨p, hp⟩ := List.getElem?_of_mem (own_handle hl ht (i := j) (by rw [hj]; simp))
        have hlt : j' < s.threads.length := by
          refine Nat.lt_of_le_of_lt (Nat.le_of_not_lt fun hlt => ?_) (List.getElem?_eq_some_iff.1 hp).1
          have := h2 j k' j' hj p _ _ hlt hp
          cases this
        rw [List.getElem?_append_left (by omega)] at hv
        exact h2 j k' j' hj m v b hm hv
  all_goals first
    | exact ⟨h1, h2⟩
    | exact go _ _ (fun _ => rfl) rfl (by simp) (by simp)

theorem selfInv_init : SelfInv ({} : Pool α) := ⟨by simp, by simp⟩

/-- A task never comes to the end of its own joins. -/
theorem not_joined {s : Pool α} (hl : LockInv s) (ht : ThrInv s) (hi : SelfInv s) {i : Nat} {k : AfterStop} {j : Nat}
    (h : s.pcs (.worker i) = .stopJoin k j) : ¬ s.threads.length ≤ j := by
  intro hle
  obtain ⟨p, hp⟩ := List.getElem?_of_mem (own_handle hl ht (i := i) (by rw [h]; simp))
  have := hi.join i k j h p _ _ (Nat.lt_of_lt_of_le (List.getElem?_eq_some_iff.1 hp).1 hle) hp
  cases this

/-- If the pool is stopped, somebody called for it; if it was a task, the task is still in that call. -/
def StopBy (tr : List (PoolLabel α)) (s : Pool α) : Prop :=
  s.cont = false → ∃ b op, CanStop op ∧ .call b op ∈ tr ∧ ∀ i, b = .worker i → (s.pcs b).stopping = true

theorem stopBy_step {tr : List (PoolLabel α)} {s s' : Pool α} {l} (hl : LockInv s) (ht : ThrInv s) (hi : SelfInv s) (hd : DoingInv tr s)
    (hs : StopBy tr s) (h : Act s l s') : StopBy (tr ++ [l]) s' := by
  have keep : s'.cont = s.cont → (∀ i, (s.pcs (.worker i)).stopping = true → (s'.pcs (.worker i)).stopping = true) →
      StopBy (tr ++ [l]) s' := by
    intro e hp hc
    obtain ⟨b, op, h1, h2, h3⟩ := hs (e ▸ hc)
    exact ⟨b, op, h1, by simp [h2], fun i hb => by subst hb; exact hp i (h3 i rfl)⟩
  have go : ∀ (a : Agent) (c : CPc α), (∀ x, s'.pcs x = if x = a then c else s.pcs x) → s'.cont = s.cont →
      ((s.pcs a).stopping = true → c.stopping = true) → StopBy (tr ++ [l]) s' := by
    intro a c e1 e2 h
    refine keep e2 fun i hi => ?_
    rw [e1]
    split
    · rename_i e; subst e; exact h hi
    · exact hi
  cases h
  case stopFlag a k hpc =>
    intro _
    obtain ⟨op, h1, h2⟩ := hd a (by rw [hpc]; simp)
    refine ⟨a, op, ?_, by simp [lastCall_mem h1], fun i _ => by simp [CPc.stopping]⟩
    rw [hpc] at h2
    cases k <;> (simp only [CPc.doing] at h2; subst h2; trivial)
  case stopDone a k j hpc hlen =>
    cases a with
    | client a =>
      refine keep rfl fun i h => ?_
      simp [h]
    | worker w => exact absurd hlen (not_joined hl ht hi hpc)
  all_goals first
    | exact keep rfl (fun _ h => h)
    | exact go _ _ (fun _ => rfl) rfl (fun _ => rfl)
    | exact go _ _ (fun _ => rfl) rfl (fun h => by rw [‹s.pcs _ = _›] at h; cases h)
    | (rename_i hpc
       exact go _ _ (fun _ => rfl) rfl (fun h => by rw [hpc] at h; cases h))
    | (rename_i hpc _
       exact go _ _ (fun _ => rfl) rfl (fun h => by rw [hpc] at h; cases h))

/-- Everything above, for a run. -/
theorem task_run {tr : List (PoolLabel α)} {s : Pool α} (h : Run {} tr s) :
    LockInv s ∧ ThrInv s ∧ SelfInv s ∧ DoingInv tr s ∧ StopBy tr s := by
  have : ∀ {s0 s : Pool α} {tr}, Run s0 tr s → s0 = {} → LockInv s ∧ ThrInv s ∧ SelfInv s ∧ DoingInv tr s ∧ StopBy tr s := by
    intro s0 s tr h
    induction h with
    | nil =>
      intro e; subst e
      exact ⟨lockInv_init, thrInv_init, selfInv_init, doing_run (.nil _), fun h => by cases h⟩
    | snoc _ _ ha ih =>
      intro e
      obtain ⟨h1, h2, h3, h4, h5⟩ := ih e
      exact ⟨lockInv_step _ _ _ h1 ha, thrInv_step _ _ _ h2 ha, selfInv_step h1 h2 h3 ha, doing_step h4 ha, stopBy_step h1 h2 h3 h4 h5 ha⟩
  exact this h rfl

/-! ### Calls that always return -/

/-- The pool can by itself go on until agent `a` gets the answer of its call. -/
def Answered (s : Pool α) (a : Agent) : Prop :=
  ∃ tr s' r s'', Run s tr s' ∧ (∀ l ∈ tr, Quiet l) ∧ s'.phase = .live ∧ Act s' (.ret a r) s''

theorem answered_step {s s' : Pool α} {a : Agent} {l} (hl : s.phase = .live) (h : Act s l s') (hq : Quiet l) (ht : Answered s' a) : Answered s a := by
  obtain ⟨tr, s1, r, s2, h1, h2, h3, h4⟩ := ht
  exact ⟨l :: tr, s1, r, s2, pool_run_cons hl h h1, by
    intro l' hl'
    rcases List.mem_cons.1 hl' with rfl | hl'
    · exact hq
    · exact h2 l' hl', h3, h4⟩

theorem answered_addUnlock {s : Pool α} {a : Agent} (hl : s.phase = .live) (h : s.pcs a = .addUnlock) : Answered s a :=
  ⟨[], s, _, _, .nil _, by simp, hl, .addDone h⟩

theorem answered_addNotify {s : Pool α} {a : Agent} (hl : s.phase = .live) (h : s.pcs a = .addNotify) : Answered s a := by
  by_cases hw : ∃ i : Nat, s.workers[i]? = some .waiting
  · obtain ⟨i, hi⟩ := hw
    exact answered_step hl (.addNotified h hi) quiet_tau (answered_addUnlock (by simpa using hl) (by simp))
  · refine answered_step hl (.addNobody h fun w hw' e => hw ?_) quiet_tau (answered_addUnlock (by simpa using hl) (by simp))
    obtain ⟨i, hi⟩ := List.getElem?_of_mem hw'
    exact ⟨i, e ▸ hi⟩

theorem answered_addPush {s : Pool α} {a : Agent} {t : α} (hl : s.phase = .live) (h : s.pcs a = .addPush t) : Answered s a :=
  answered_step hl (.addPushed h) quiet_tau (answered_addNotify (by simpa using hl) (by simp))

theorem answered_numBusy {s : Pool α} {a : Agent} {k : Nat} (hl : s.phase = .live) (h : s.pcs a = .numBusy k) : Answered s a :=
  ⟨[], s, _, _, .nil _, by simp, hl, .numDone h⟩

theorem answered_numSize {s : Pool α} {a : Agent} (hl : s.phase = .live) (h : s.pcs a = .numSize) : Answered s a :=
  answered_step hl (.numSized h) quiet_tau (answered_numBusy (by simpa using hl) (if_pos rfl))

/-- The mutex can be given back without changing where the other agents are. -/
def Unlocks (s : Pool α) (b : Agent) : Prop :=
  ∃ tr s', Run s tr s' ∧ (∀ l ∈ tr, Quiet l) ∧ s'.phase = .live ∧ s'.lock = none ∧ ∀ a, a ≠ b → s'.pcs a = s.pcs a

theorem unlocks_step {s s' : Pool α} {b : Agent} {l} (hl : s.phase = .live) (h : Act s l s') (hq : Quiet l) (hp : ∀ a, a ≠ b → s'.pcs a = s.pcs a)
    (ht : Unlocks s' b) : Unlocks s b := by
  obtain ⟨tr, s1, h1, h2, h3, h4, h5⟩ := ht
  exact ⟨l :: tr, s1, pool_run_cons hl h h1, by
    intro l' hl'
    rcases List.mem_cons.1 hl' with rfl | hl'
    · exact hq
    · exact h2 l' hl', h3, h4, fun a ha => (h5 a ha).trans (hp a ha)⟩

theorem unlocks_last {s s' : Pool α} {b : Agent} {l} (hl : s.phase = .live) (h : Act s l s') (hq : Quiet l) (hp : ∀ a, a ≠ b → s'.pcs a = s.pcs a)
    (h1 : s'.phase = .live) (h2 : s'.lock = none) : Unlocks s b :=
  ⟨[l], s', pool_run_cons hl h (.nil _), by simpa using hq, h1, h2, hp⟩

theorem unlocks_size {s : Pool α} {b : Agent} (hl : s.phase = .live) {i : Nat} (h : s.workers[i]? = some .size) : Unlocks s b := by
  cases hq : s.queue with
  | nil => exact unlocks_last hl (.wEmpty h hq) quiet_tau (fun _ _ => rfl) hl rfl
  | cons t q => exact unlocks_last hl (.wPop h hq) quiet_tau (fun _ _ => rfl) hl rfl

theorem unlocks_cont {s : Pool α} {b : Agent} (hl : s.phase = .live) {i : Nat} (h : s.workers[i]? = some .cont) : Unlocks s b := by
  cases hc : s.cont with
  | false => exact unlocks_last hl (.wExit h hc) quiet_tau (fun _ _ => rfl) hl rfl
  | true => exact unlocks_step hl (.wGoOn h hc) quiet_tau (fun _ _ => rfl) (unlocks_size hl (set_self h))

theorem unlocks_pred {s : Pool α} {b : Agent} (hl : s.phase = .live) {i : Nat} (h : s.workers[i]? = some .pred) : Unlocks s b := by
  by_cases hc : s.queue ≠ [] ∨ s.cont = false
  · exact unlocks_step hl (.wPredTrue h hc) quiet_tau (fun _ _ => rfl) (unlocks_cont hl (set_self h))
  · have ha : Act s .tau _ := .wPredFalse h (by cases hq : s.queue <;> simp_all) (by cases hq : s.cont <;> simp_all)
    exact unlocks_step hl ha quiet_tau (fun _ _ => rfl) (unlocks_last hl (.wBlocked (set_self h)) quiet_tau (fun _ _ => rfl) hl rfl)

theorem unlocks_holder {s : Pool α} {b : Agent} (hl : s.phase = .live) {i : Nat} {w : WPc α} (h : s.workers[i]? = some w) (hh : w.holds = true) :
    Unlocks s b := by
  cases w <;> simp [WPc.holds] at hh
  · by_cases hc : s.cont = false ∨ s.queue ≠ []
    · exact unlocks_step hl (.wNoWait h hc) quiet_tau (fun _ _ => rfl) (unlocks_cont hl (set_self h))
    · have ha : Act s .tau _ := .wWait h (by cases hq : s.cont <;> simp_all) (by cases hq : s.queue <;> simp_all)
      exact unlocks_step hl ha quiet_tau (fun _ _ => rfl) (unlocks_pred hl (set_self h))
  · exact unlocks_pred hl h
  · exact unlocks_last hl (.wBlocked h) quiet_tau (fun _ _ => rfl) hl rfl
  · exact unlocks_cont hl h
  · exact unlocks_size hl h

theorem unlocks_agent {s : Pool α} {b : Agent} (hl : s.phase = .live) (hh : (s.pcs b).holds = true) : Unlocks s b := by
  have hu : ∀ {s : Pool α}, s.phase = .live → s.pcs b = .addUnlock → Unlocks s b := fun hl h =>
    unlocks_last hl (.addDone h) (quiet_ret _ _) (fun a e => by simp [e]) (by simpa using hl) rfl
  have hn : ∀ {s : Pool α}, s.phase = .live → s.pcs b = .addNotify → Unlocks s b := by
    intro s hl h
    by_cases hw : ∃ i : Nat, s.workers[i]? = some .waiting
    · obtain ⟨i, hi⟩ := hw
      exact unlocks_step hl (.addNotified h hi) quiet_tau (fun a e => by simp [e]) (hu (by simpa using hl) (by simp))
    · refine unlocks_step hl (.addNobody h fun w hw' e => hw ?_) quiet_tau (fun a e => by simp [e]) (hu (by simpa using hl) (by simp))
      obtain ⟨i, hi⟩ := List.getElem?_of_mem hw'
      exact ⟨i, e ▸ hi⟩
  have hb : ∀ {s : Pool α} {k}, s.phase = .live → s.pcs b = .numBusy k → Unlocks s b := fun hl h =>
    unlocks_last hl (.numDone h) (quiet_ret _ _) (fun a e => by simp [e]) (by simpa using hl) rfl
  cases h : s.pcs b <;> rw [h] at hh <;> simp [CPc.holds] at hh
  · exact unlocks_step hl (.addPushed h) quiet_tau (fun a e => by simp [e]) (hn (by simpa using hl) (by simp))
  · exact hn hl h
  · exact hu hl h
  · exact unlocks_step hl (.numSized h) quiet_tau (fun a e => by simp [e]) (hb (by simpa using hl) (if_pos rfl))
  · exact hb hl h

theorem answered_after {s s' : Pool α} {a : Agent} {tr} (h : Run s tr s') (hq : ∀ l ∈ tr, Quiet l) (ha : Answered s' a) : Answered s a := by
  obtain ⟨tr1, s1, r, s2, h1, h2, h3, h4⟩ := ha
  exact ⟨tr ++ tr1, s1, r, s2, pool_run_append h h1, by
    intro l hl
    rcases List.mem_append.1 hl with hl | hl
    · exact hq l hl
    · exact h2 l hl, h3, h4⟩

/-- An agent that waits for the mutex gets its answer. -/
theorem answered_lock {s : Pool α} (hi : LockInv s) (hl : s.phase = .live) {a : Agent} (hn : (s.pcs a).holds = false)
    (hf : ∀ s' : Pool α, s'.phase = .live → s'.lock = none → s'.pcs a = s.pcs a → Answered s' a) : Answered s a := by
  cases hk : s.lock with
  | none => exact hf s hl hk rfl
  | some b =>
    rcases hi.holder b hk with hb | ⟨i, w, rfl, hw, hh⟩
    · obtain ⟨tr, s', h1, h2, h3, h4, h5⟩ := unlocks_agent hl hb
      exact answered_after h1 h2 (hf s' h3 h4 (h5 a (by rintro rfl; rw [hn] at hb; cases hb)))
    · -- the worker holds it; no agent moves
      obtain ⟨tr, s', h1, h2, h3, h4, h5⟩ := unlocks_holder (b := if a = .client 0 then .client 1 else .client 0) hl hw hh
      exact answered_after h1 h2 (hf s' h3 h4 (h5 a (by split <;> simp_all)))

theorem answered_use {s : Pool α} (hi : LockInv s) (hl : s.phase = .live) {a : Agent} (hu : (s.pcs a).use = true) (hne : s.pcs a ≠ .idle) :
    Answered s a := by
  have hlk : ∀ {s : Pool α} {t}, s.phase = .live → LockInv s → s.pcs a = .addLock t → Answered s a := by
    intro s t hl hi h
    refine answered_lock hi hl (by rw [h]; rfl) fun s' h1 h2 h3 => ?_
    exact answered_step h1 (.addLocked (h3.trans h) h2) quiet_tau (answered_addPush (by simpa using h1) (if_pos rfl))
  cases h : s.pcs a <;> rw [h] at hu <;> first | (simp [CPc.use] at hu; done) | skip
  · exact absurd h hne
  · by_cases hc : s.cont = false ∨ s.threadNum = 0
    · exact ⟨[], s, _, _, .nil _, by simp, hl, .addRefused h hc⟩
    · have ha : Act s .tau _ := .addChecked h (by cases hq : s.cont <;> simp_all) (by simp_all)
      exact answered_step hl ha quiet_tau (hlk (by simpa using hl) (lockInv_step _ _ _ hi ha) (if_pos rfl))
  · exact hlk hl hi h
  · exact answered_addPush hl h
  · exact answered_addNotify hl h
  · exact answered_addUnlock hl h
  · refine answered_lock hi hl (by rw [h]; rfl) fun s' h1 h2 h3 => ?_
    exact answered_step h1 (.numLocked (h3.trans h) h2) quiet_tau (answered_numSize (by simpa using h1) (by simp))
  · exact answered_numSize hl h
  · exact answered_numBusy hl h

end Cppnet
