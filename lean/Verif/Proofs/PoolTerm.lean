import Verif.Proofs.PoolProgress

/-! # Termination of `Stop` -/

namespace Cppnet
open Spec Pool
variable {α : Type}

/-- In a pool with one controlling thread: threads are joined only by the `Stop` that cleared the flag,
each once. -/
structure JoinInv (ctl : Nat) (s : Pool α) : Prop where
  valid : ∀ w b, (w, b) ∈ s.threads → w < s.workers.length
  running : s.cont = true → ∀ x ∈ s.threads, x.2 = true
  notYet : ∀ k, s.pcs (.client ctl) = .stopNotify k → ∀ x ∈ s.threads, x.2 = true
  left : ∀ k i, s.pcs (.client ctl) = .stopJoin k i → ∀ m x, i ≤ m → s.threads[m]? = some x → x.2 = true
  flag : (s.pcs (.client ctl)).stopping = true → s.cont = false
  before : ∀ k, s.pcs (.client ctl) = .stopSet k → s.cont = true

theorem workers_length {s s' : Pool α} {l} (h : Act s l s') : s.workers.length ≤ s'.workers.length := by
  cases h <;> simp

theorem joinInv_step (ctl : Nat) (s : Pool α) (l) (s') (hs : StopInv ctl s) (hi : JoinInv ctl s)
    (h : Act s l s') : JoinInv ctl s' := by
  have hlen := workers_length h
  obtain ⟨h0, h1, h2, h3, h4, h5⟩ := hi
  have ctlOnly : ∀ a, (s.pcs a).use = false → a = .client ctl := by
    intro a ha
    by_cases e : a = .client ctl
    · exact e
    · rw [hs.others a e] at ha; cases ha
  have same : s'.pcs (.client ctl) = s.pcs (.client ctl) → s'.threads = s.threads → s'.cont = s.cont → JoinInv ctl s' := by
    intro e1 e2 e3
    refine ⟨?_, ?_, ?_, ?_, ?_, by rw [e1, e3]; exact h5⟩
    · rw [e2]; exact fun w b h => Nat.lt_of_lt_of_le (h0 w b h) hlen
    · rw [e2, e3]; exact h1
    · rw [e1, e2]; exact h2
    · rw [e1, e2]; exact h3
    · rw [e1, e3]; exact h4
  have upd : ∀ (a : Agent) (c : CPc α), (s.pcs a).stopping = false → c.stopping = false → (∀ b, s'.pcs b = if b = a then c else s.pcs b) →
      (∀ w b, (w, b) ∈ s'.threads → w < s'.workers.length) → (s'.cont = true → ∀ x ∈ s'.threads, x.2 = true) → s'.cont = s.cont →
      (a ≠ .client ctl → s'.threads = s.threads) → (∀ k, c = .stopSet k → s'.cont = true) → JoinInv ctl s' := by
    intro a c ha hc e2 e3 e4 e5 e6 e8
    by_cases e : a = .client ctl
    · have e7 : s'.pcs (.client ctl) = c := by rw [e2, if_pos e.symm]
      refine ⟨e3, e4, ?_, ?_, ?_, by rw [e7]; exact e8⟩
      · rw [e7]; rintro k rfl; simp [CPc.stopping] at hc
      · rw [e7]; rintro k i rfl; simp [CPc.stopping] at hc
      · rw [e7, hc]; simp
    · exact same (by rw [e2, if_neg (Ne.symm e)]) (e6 e) e5
  have thr : s'.threads = s.threads → ∀ w b, (w, b) ∈ s'.threads → w < s'.workers.length := by
    intro e w b h; rw [e] at h; exact Nat.lt_of_lt_of_le (h0 w b h) hlen
  cases h
  case call a op hidle hmay =>
    exact upd a _ (by simp [hidle, CPc.stopping]) (by cases op <;> rfl) (fun b => rfl) (thr rfl) h1 rfl (fun _ => rfl)
      (fun k e => by cases op <;> simp [entry] at e)
  case stopAlready a k hpc h =>
    exact upd a _ (by simp [hpc, CPc.stopping]) (by cases k <;> rfl) (fun b => rfl) (thr rfl) h1 rfl (fun _ => rfl)
      (fun k' e => by cases k <;> simp [afterStop] at e)
  case stopChecked a k hpc h =>
    exact upd a _ (by simp [hpc, CPc.stopping]) rfl (fun b => rfl) (thr rfl) h1 rfl (fun _ => rfl) (fun k' e => h)
  case stopFlag a k hpc =>
    have ha := ctlOnly a (by rw [hpc]; rfl)
    subst ha
    exact ⟨thr rfl, by simp, fun k' e => h1 (h5 k hpc), fun k' i e => by simp at e, fun _ => rfl, fun k e => by simp at e⟩
  case stopNotified a k hpc =>
    have ha := ctlOnly a (by rw [hpc]; rfl)
    subst ha
    have := h2 k hpc
    refine ⟨thr rfl, h1, fun k' e => by simp at e, fun k' i e m x hm hx => this x (List.mem_of_getElem? hx), fun _ => h4 (by rw [hpc]; rfl),
      fun k e => by simp at e⟩
  case stopJoined a k i w hpc h h' =>
    have ha := ctlOnly a (by rw [hpc]; rfl)
    subst ha
    have hc := h4 (by rw [hpc]; rfl)
    refine ⟨fun v b hv => ?_, fun e => ?_, fun k' e => by simp at e, fun k' j e m x hm hx => ?_, fun _ => hc,
      fun k e => by simp at e⟩
    · simp only [setPc_threads] at hv
      rcases List.mem_or_eq_of_mem_set hv with hh | hh
      · exact h0 v b hh
      · cases hh; exact h0 _ _ (List.mem_of_getElem? h)
    · simp [hc] at e
    · simp only [setPc_pcs, if_true] at e
      cases e
      simp only [setPc_threads] at hx
      rw [List.getElem?_set_ne (by omega)] at hx
      exact h3 k i hpc m x (by omega) hx
  case stopDone a k i hpc h =>
    have ha := ctlOnly a (by rw [hpc]; rfl)
    subst ha
    have hc := h4 (by rw [hpc]; rfl)
    refine ⟨thr rfl, h1, ?_, ?_, fun _ => hc, fun k' e => by cases k <;> simp [afterStop] at e⟩
    · intro k' e; cases k <;> simp [afterStop] at e
    · intro k' j e; cases k <;> simp [afterStop] at e
  case resizeCleared a n hpc h =>
    exact upd a _ (by simp [hpc, CPc.stopping]) rfl (fun b => rfl) (by simp) (by simp) rfl
      (fun e => absurd (ctlOnly a (by rw [hpc]; rfl)) e) (fun k e => by simp at e)
  case initCleared a r n hpc h =>
    exact upd a _ (by simp [hpc, CPc.stopping]) rfl (fun b => rfl) (by simp) (by simp) rfl
      (fun e => absurd (ctlOnly a (by rw [hpc]; rfl)) e) (fun k e => by simp at e)
  case initSpawned a r n hpc =>
    refine upd a _ (by simp [hpc, CPc.stopping]) rfl (fun b => rfl) (fun w b hw => ?_) (fun hc x hx => ?_) rfl
      (fun e => absurd (ctlOnly a (by rw [hpc]; rfl)) e) (fun k e => by simp at e)
    · simp only [setPc_threads, setPc_workers, List.mem_append, List.mem_singleton, Prod.mk.injEq, List.length_append, List.length_singleton] at hw ⊢
      rcases hw with hw | ⟨rfl, _⟩
      · have := h0 w b hw; omega
      · omega
    · simp only [setPc_threads, List.mem_append, List.mem_singleton] at hx
      rcases hx with hx | rfl
      · exact h1 hc x hx
      · rfl
  all_goals first
    | exact same rfl rfl rfl
    | exact upd _ _ (by simp [*, CPc.stopping]) rfl (fun b => rfl) (thr rfl) h1 rfl (fun _ => rfl) (fun k e => by simp at e)

theorem joinInv_init (ctl : Nat) : JoinInv ctl ({} : Pool α) :=
  ⟨by simp, by simp, by simp, by simp, by simp [CPc.stopping], by simp⟩

/-! ### Draining -/

/-- `Stop` has notified, and no worker is blocked or about to block: the workers have nothing to wait for. -/
structure Draining (ctl : Nat) (k : AfterStop) (s : Pool α) : Prop where
  live : s.phase = .live
  cont : s.cont = false
  joining : ∃ i, s.pcs (.client ctl) = .stopJoin k i
  awake : ∀ w ∈ s.workers, w ≠ .block ∧ w ≠ .waiting
  lockInv : LockInv s
  thrInv : ThrInv s
  stopInv : StopInv ctl s
  joinInv : JoinInv ctl s

/-- How many steps a worker is from returning, once the flag is cleared. -/
def rank : WPc α → Nat
  | .exited => 0
  | .cont => 1
  | .check => 2
  | .pred => 2
  | .lock => 3
  | .wake => 3
  | .done => 4
  | .block => 4
  | .waiting => 4
  | .run _ => 5
  | .start _ => 6
  | .taken _ => 7
  | .size => 8

/-- How many steps an agent is from returning, in `AddTask` or `GetBusyAndTaskNum`. -/
def crank : CPc α → Nat
  | .addUnlock => 1
  | .addNotify => 2
  | .addPush _ => 3
  | .addLock _ => 4
  | .addCheck _ => 5
  | .numBusy _ => 1
  | .numSize => 2
  | .numLock => 3
  | _ => 0

def joinIdx : CPc α → Nat
  | .stopJoin _ i => i
  | _ => 0

/-- Work left for the workers and for `Stop`. -/
def ownWork (ctl : Nat) (s : Pool α) : Nat :=
  (s.workers.map rank).sum + (s.threads.length + 1 - joinIdx (s.pcs (.client ctl)))

theorem sum_set (f : WPc α → Nat) : ∀ (ws : List (WPc α)) (i : Nat) (w w' : WPc α), ws[i]? = some w →
    ((ws.set i w').map f).sum + f w = (ws.map f).sum + f w'
  | [], _, _, _, h => by simp at h
  | x :: ws, 0, w, w', h => by
    simp only [List.getElem?_cons_zero, Option.some.injEq] at h
    subst h
    simp only [List.set_cons_zero, List.map_cons, List.sum_cons]
    omega
  | x :: ws, i + 1, w, w', h => by
    have := sum_set f ws i w w' (by simpa using h)
    simp only [List.set_cons_succ, List.map_cons, List.sum_cons]
    omega

/-- While `Stop` joins and nobody is blocked, nobody blocks; every step of a worker and every step of
`Stop` reduces the work left, and no step of another thread adds to it. -/
theorem draining_step {ctl : Nat} {k : AfterStop} {s s' : Pool α} {l} (hs : Draining ctl k s) (hd : Disciplined ctl l) (hnt : l ≠ .throws) (h : Act s l s') :
    s'.pcs (.client ctl) = afterStop k ∨
    (Draining ctl k s' ∧ (ownWork ctl s' < ownWork ctl s ∨
      (s'.workers = s.workers ∧ s'.pcs (.client ctl) = s.pcs (.client ctl) ∧ s'.threads = s.threads))) := by
  have hl' := lockInv_step _ _ _ hs.lockInv h
  have ht' := thrInv_step _ _ _ hs.thrInv h
  have hs' := stopInv_step ctl _ _ _ hs.thrInv hs.stopInv hd h
  have hj' := joinInv_step ctl _ _ _ hs.stopInv hs.joinInv h
  obtain ⟨i, hi⟩ := hs.joining
  have ctlOnly : ∀ a, (s.pcs a).use = false → a = .client ctl := by
    intro a ha
    by_cases e : a = .client ctl
    · exact e
    · rw [hs.stopInv.others a e] at ha; cases ha
  have notCtl : ∀ a, (s.pcs a).use = true → a ≠ .client ctl := by
    rintro a ha rfl
    rw [hi] at ha; cases ha
  have hcont : s.cont = true → False := by rw [hs.cont]; simp
  have finish : s'.phase = .live → s'.cont = false → (∃ i, s'.pcs (.client ctl) = .stopJoin k i) →
      (∀ w ∈ s'.workers, w ≠ .block ∧ w ≠ .waiting) → Draining ctl k s' :=
    fun e1 e2 e3 e4 => ⟨e1, e2, e3, e4, hl', ht', hs', hj'⟩
  have agent : ∀ a c, (s.pcs a).use = true → s'.phase = s.phase → s'.cont = s.cont → (∀ b, s'.pcs b = if b = a then c else s.pcs b) →
      s'.workers = s.workers → s'.threads = s.threads →
      Draining ctl k s' ∧ (ownWork ctl s' < ownWork ctl s ∨
        (s'.workers = s.workers ∧ s'.pcs (.client ctl) = s.pcs (.client ctl) ∧ s'.threads = s.threads)) := by
    intro a c ha e1 e2 e3 e4 e5
    have e6 : s'.pcs (.client ctl) = s.pcs (.client ctl) := by rw [e3, if_neg (Ne.symm (notCtl a ha))]
    exact ⟨finish (e1.trans hs.live) (e2.trans hs.cont) (by rw [e6]; exact hs.joining) (by rw [e4]; exact hs.awake), .inr ⟨e4, e6, e5⟩⟩
  have worker : ∀ (j : Nat) (w w' : WPc α), s.workers[j]? = some w → rank w' < rank w → w' ≠ .block → w' ≠ .waiting →
      s'.phase = s.phase → s'.cont = s.cont → s'.pcs = s.pcs → s'.workers = s.workers.set j w' → s'.threads = s.threads →
      Draining ctl k s' ∧ (ownWork ctl s' < ownWork ctl s ∨
        (s'.workers = s.workers ∧ s'.pcs (.client ctl) = s.pcs (.client ctl) ∧ s'.threads = s.threads)) := by
    intro j w w' hw hr hb hwt e1 e2 e3 e4 e5
    refine ⟨finish (e1.trans hs.live) (e2.trans hs.cont) (by rw [e3]; exact hs.joining) (fun v hv => ?_), .inl ?_⟩
    · rw [e4] at hv
      rcases List.mem_or_eq_of_mem_set hv with h | rfl
      · exact hs.awake v h
      · exact ⟨hb, hwt⟩
    · unfold ownWork
      rw [e3, e4, e5]
      have := sum_set rank s.workers j w w' hw
      omega
  cases h
  case call a op hidle hmay => exact .inr (agent a _ (by simp [hidle, CPc.use]) rfl rfl (fun b => rfl) rfl rfl)
  case addRefused a t hpc h => exact .inr (agent a _ (by simp [hpc, CPc.use]) rfl rfl (fun b => rfl) rfl rfl)
  case addChecked a t hpc h h' => exact .inr (agent a _ (by simp [hpc, CPc.use]) rfl rfl (fun b => rfl) rfl rfl)
  case addLocked a t hpc h => exact .inr (agent a _ (by simp [hpc, CPc.use]) rfl rfl (fun b => rfl) rfl rfl)
  case addPushed a t hpc => exact .inr (agent a _ (by simp [hpc, CPc.use]) rfl rfl (fun b => rfl) rfl rfl)
  case addNotified a i hpc h => exact absurd rfl (hs.awake _ (List.mem_of_getElem? h)).2
  case addNobody a hpc h => exact .inr (agent a _ (by simp [hpc, CPc.use]) rfl rfl (fun b => rfl) rfl rfl)
  case addDone a hpc => exact .inr (agent a _ (by simp [hpc, CPc.use]) rfl rfl (fun b => rfl) rfl rfl)
  case numLocked a hpc h => exact .inr (agent a _ (by simp [hpc, CPc.use]) rfl rfl (fun b => rfl) rfl rfl)
  case numSized a hpc => exact .inr (agent a _ (by simp [hpc, CPc.use]) rfl rfl (fun b => rfl) rfl rfl)
  case numDone a k hpc => exact .inr (agent a _ (by simp [hpc, CPc.use]) rfl rfl (fun b => rfl) rfl rfl)
  case stopJoined a k' i' w hpc h h' =>
    have ha := ctlOnly a (by rw [hpc]; rfl)
    subst ha
    rw [hi] at hpc
    cases hpc
    refine .inr ⟨finish hs.live hs.cont ⟨i + 1, by simp⟩ hs.awake, .inl ?_⟩
    have := (List.getElem?_eq_some_iff.1 h).1
    simp only [ownWork, setPc_workers, setPc_threads, setPc_pcs, List.length_set, if_true, hi, joinIdx]
    omega
  case stopBadJoin a k' i' w hpc h =>
    have ha := ctlOnly a (by rw [hpc]; rfl)
    subst ha
    have := hs.joinInv.left _ _ hpc i' _ (Nat.le_refl _) h
    cases this
  case stopSelfJoin k' i' w hpc h => exact absurd (ctlOnly _ (by rw [hpc]; rfl)) (by simp)
  case wThrow => exact absurd rfl hnt
  case stopDone a k' i' hpc h =>
    have ha := ctlOnly a (by rw [hpc]; rfl)
    subst ha
    rw [hi] at hpc
    cases hpc
    exact .inl (by simp)
  case wLocked j hpc h => exact .inr (worker j _ .check hpc (by simp [rank]) (by simp) (by simp) rfl rfl rfl rfl rfl)
  case wWait j hpc h h' => exact (hcont h).elim
  case wNoWait j hpc h => exact .inr (worker j _ .cont hpc (by simp [rank]) (by simp) (by simp) rfl rfl rfl rfl rfl)
  case wPredTrue j hpc h => exact .inr (worker j _ .cont hpc (by simp [rank]) (by simp) (by simp) rfl rfl rfl rfl rfl)
  case wPredFalse j hpc h h' => exact (hcont h').elim
  case wBlocked j hpc => exact absurd rfl (hs.awake _ (List.mem_of_getElem? hpc)).1
  case wSpurious j hpc => exact absurd rfl (hs.awake _ (List.mem_of_getElem? hpc)).2
  case wRelocked j hpc h => exact .inr (worker j _ .pred hpc (by simp [rank]) (by simp) (by simp) rfl rfl rfl rfl rfl)
  case wExit j hpc h => exact .inr (worker j _ .exited hpc (by simp [rank]) (by simp) (by simp) rfl rfl rfl rfl rfl)
  case wGoOn j hpc h => exact (hcont h).elim
  case wEmpty j hpc h => exact .inr (worker j _ .lock hpc (by simp [rank]) (by simp) (by simp) rfl rfl rfl rfl rfl)
  case wPop j t q hpc h => exact .inr (worker j _ (.taken t) hpc (by simp [rank]) (by simp) (by simp) rfl rfl rfl rfl rfl)
  case wBusy j t hpc => exact .inr (worker j _ (.start t) hpc (by simp [rank]) (by simp) (by simp) rfl rfl rfl rfl rfl)
  case wStart j t hpc => exact .inr (worker j _ (.run t) hpc (by simp [rank]) (by simp) (by simp) rfl rfl rfl rfl rfl)
  case wFinish j t hpc h => exact .inr (worker j _ .done hpc (by simp [rank]) (by simp) (by simp) rfl rfl rfl rfl rfl)
  case wUnbusy j hpc => exact .inr (worker j _ .lock hpc (by simp [rank]) (by simp) (by simp) rfl rfl rfl rfl rfl)
  all_goals
    exfalso
    have hpc := ‹s.pcs _ = _›
    have ha := ctlOnly _ (by rw [hpc]; rfl)
    rw [ha, hi] at hpc
    cases hpc

/-- Work left, with the calls that running tasks and the holder of the mutex still have to finish. -/
def allWork (ctl : Nat) (s : Pool α) : Nat :=
  10 * (s.workers.map rank).sum + ((List.range s.workers.length).map fun i => crank (s.pcs (.worker i))).sum +
  (match s.lock with | some (.client j) => crank (s.pcs (.client j)) | _ => 0) +
  (s.threads.length + 1 - joinIdx (s.pcs (.client ctl)))

theorem sum_range_update (f g : Nat → Nat) (i n : Nat) (hi : i < n) (h : ∀ j, j ≠ i → g j = f j) :
    ((List.range n).map g).sum + f i = ((List.range n).map f).sum + g i := by
  induction n with
  | zero => omega
  | succ n ih =>
    simp only [List.range_succ, List.map_append, List.map_singleton, List.sum_append, List.sum_singleton]
    by_cases e : i = n
    · subst e
      have : (List.range i).map g = (List.range i).map f := by
        apply List.map_congr_left
        intro j hj
        exact h j (by have := List.mem_range.1 hj; omega)
      rw [this]; omega
    · have := ih (by omega)
      rw [h n (Ne.symm e)]
      omega

/-- From every draining state some thread can take a step that brings the return of `Stop` closer. -/
theorem draining_progress {ctl : Nat} {k : AfterStop} {s : Pool α} (hs : Draining ctl k s) :
    ∃ l s', Act s l s' ∧ Quiet l ∧ ((l = stopLabel (.client ctl) k ∧ s'.pcs (.client ctl) = afterStop k) ∨
      (Draining ctl k s' ∧ allWork ctl s' < allWork ctl s)) := by
  obtain ⟨i, hi⟩ := hs.joining
  have dtau : Disciplined ctl (.tau : PoolLabel α) ∧ (.tau : PoolLabel α) ≠ .throws := ⟨by (intro a op h; cases h), by simp⟩
  have dret : ∀ a r, Disciplined ctl (.ret a r : PoolLabel α) ∧ (.ret a r : PoolLabel α) ≠ .throws := fun a r => ⟨by (intro b op h; cases h), by simp⟩
  have next : ∀ l s', Act s l s' → (Disciplined ctl l ∧ l ≠ .throws) → s'.pcs (.client ctl) = .stopJoin k (joinIdx (s'.pcs (.client ctl))) → Draining ctl k s' := by
    intro l s' ha hd hj
    rcases draining_step hs hd.1 hd.2 ha with h | h
    · rw [hj] at h; cases k <;> simp [afterStop] at h
    · exact h.1
  -- a step of a worker
  have worker : ∀ (j : Nat) (w w' : WPc α) s', s.workers[j]? = some w → Act s .tau s' → rank w' < rank w → s'.pcs = s.pcs →
      s'.workers = s.workers.set j w' → s'.threads = s.threads → (∀ c, s'.lock = some (.client c) → s.lock = some (.client c)) →
      Draining ctl k s' ∧ allWork ctl s' < allWork ctl s := by
    intro j w w' s' hw ha hr e3 e4 e5 e6
    refine ⟨next _ _ ha dtau (by rw [e3, hi]; rfl), ?_⟩
    unfold allWork
    rw [e3, e4, e5, List.length_set]
    have := sum_set rank s.workers j w w' hw
    have hlk : (match s'.lock with | some (.client j) => crank (s.pcs (.client j)) | _ => 0) ≤
        (match s.lock with | some (.client j) => crank (s.pcs (.client j)) | _ => 0) := by
      cases hl : s'.lock with
      | none => simp
      | some a =>
        cases a with
        | worker _ => simp
        | client c => rw [e6 c hl]; simp
    omega
  -- a step of a task inside a pool function
  have task : ∀ (j : Nat) (c : CPc α) l s', j < s.workers.length → Act s l s' → (Disciplined ctl l ∧ l ≠ .throws) → crank c < crank (s.pcs (.worker j)) →
      (∀ b, s'.pcs b = if b = .worker j then c else s.pcs b) →
      s'.workers = s.workers → s'.threads = s.threads → (∀ c, s'.lock = some (.client c) → s.lock = some (.client c)) →
      Draining ctl k s' ∧ allWork ctl s' < allWork ctl s := by
    intro j c l s' hj ha hd hr e3 e4 e5 e6
    have e7 : s'.pcs (.client ctl) = s.pcs (.client ctl) := by rw [e3]; simp
    refine ⟨next _ _ ha hd (by rw [e7, hi]; rfl), ?_⟩
    unfold allWork
    rw [e7, e4, e5]
    have h1 := sum_range_update (fun i => crank (s.pcs (.worker i))) (fun i => crank (s'.pcs (.worker i))) j s.workers.length hj
      (by intro m hm; rw [e3, if_neg (by simp [hm])])
    have h2 : crank (s'.pcs (.worker j)) = crank c := by rw [e3, if_pos rfl]
    have hlk : (match s'.lock with | some (.client j) => crank (s'.pcs (.client j)) | _ => 0) ≤
        (match s.lock with | some (.client j) => crank (s.pcs (.client j)) | _ => 0) := by
      cases hl : s'.lock with
      | none => simp
      | some a =>
        cases a with
        | worker _ => simp
        | client c => rw [e6 c hl]; simp [e3]
    omega
  -- a step of the client that holds the mutex
  have client : ∀ (j : Nat) (c : CPc α) l s', s.lock = some (.client j) → j ≠ ctl → Act s l s' → (Disciplined ctl l ∧ l ≠ .throws) →
      crank c < crank (s.pcs (.client j)) → (∀ b, s'.pcs b = if b = .client j then c else s.pcs b) →
      s'.workers = s.workers → s'.threads = s.threads → (s'.lock = s.lock ∨ s'.lock = none) →
      Draining ctl k s' ∧ allWork ctl s' < allWork ctl s := by
    intro j c l s' hl hj ha hd hr e3 e4 e5 e6
    have e7 : s'.pcs (.client ctl) = s.pcs (.client ctl) := by rw [e3, if_neg (by simpa using Ne.symm hj)]
    refine ⟨next _ _ ha hd (by rw [e7, hi]; rfl), ?_⟩
    unfold allWork
    rw [e7, e4, e5, hl]
    have h1 : ((List.range s.workers.length).map fun i => crank (s'.pcs (.worker i))) =
        ((List.range s.workers.length).map fun i => crank (s.pcs (.worker i))) := by
      apply List.map_congr_left
      intro m _
      rw [e3, if_neg (by simp)]
    rw [h1]
    rcases e6 with e6 | e6
    · rw [e6, hl]
      simp only [e3, if_true]
      omega
    · rw [e6]
      simp only
      omega
  have agentUse : ∀ a, (s.pcs a).holds = true → a ≠ .client ctl := by
    rintro a ha rfl
    rw [hi] at ha; cases ha
  cases hl : s.lock with
  | some a =>
    rcases hs.lockInv.holder a hl with h | ⟨j, w, _, h1, h2⟩
    · have hne := agentUse a h
      have key : ∀ c l s', Act s l s' → (Disciplined ctl l ∧ l ≠ .throws) → crank c < crank (s.pcs a) → (∀ b, s'.pcs b = if b = a then c else s.pcs b) →
          s'.workers = s.workers → s'.threads = s.threads → (s'.lock = s.lock ∨ s'.lock = none) →
          Draining ctl k s' ∧ allWork ctl s' < allWork ctl s := by
        intro c l s' ha hd hr e3 e4 e5 e6
        cases a with
        | client j => exact client j c l s' hl (by rintro rfl; exact hne rfl) ha hd hr e3 e4 e5 e6
        | worker j =>
          obtain ⟨t, ht⟩ := hs.lockInv.task j (by intro e; rw [e] at h; cases h)
          refine task j c l s' (List.getElem?_eq_some_iff.1 ht).1 ha hd hr e3 e4 e5 (fun c hc => ?_)
          rcases e6 with e6 | e6
          · rw [← e6]; exact hc
          · rw [e6] at hc; cases hc
      cases hpc : s.pcs a <;> rw [hpc] at h <;> simp [CPc.holds] at h
      case addPush t =>
        exact ⟨_, _, .addPushed hpc, quiet_tau, .inr (key .addNotify _ _ (.addPushed hpc) dtau (by simp [hpc, crank]) (fun b => rfl) rfl rfl (.inl rfl))⟩
      case addNotify =>
        have hn : ∀ w ∈ s.workers, w ≠ .waiting := fun w hw => (hs.awake w hw).2
        exact ⟨_, _, .addNobody hpc hn, quiet_tau, .inr (key .addUnlock _ _ (.addNobody hpc hn) dtau (by simp [hpc, crank]) (fun b => rfl) rfl rfl (.inl rfl))⟩
      case addUnlock =>
        exact ⟨_, _, .addDone hpc, quiet_ret _ _, .inr (key .idle _ _ (.addDone hpc) (dret _ _) (by simp [hpc, crank]) (fun b => rfl) rfl rfl (.inr rfl))⟩
      case numSize =>
        exact ⟨_, _, .numSized hpc, quiet_tau, .inr (key (.numBusy s.queue.length) _ _ (.numSized hpc) dtau (by simp [hpc, crank]) (fun b => rfl) rfl rfl (.inl rfl))⟩
      case numBusy n =>
        exact ⟨_, _, .numDone hpc, quiet_ret _ _, .inr (key .idle _ _ (.numDone hpc) (dret _ _) (by simp [hpc, crank]) (fun b => rfl) rfl rfl (.inr rfl))⟩
    · cases w <;> simp [WPc.holds] at h2
      · exact ⟨_, _, .wNoWait h1 (.inl hs.cont), quiet_tau, .inr (worker j _ .cont _ h1 (.wNoWait h1 (.inl hs.cont)) (by simp [rank]) rfl rfl rfl (fun c h => h))⟩
      · exact ⟨_, _, .wPredTrue h1 (.inr hs.cont), quiet_tau, .inr (worker j _ .cont _ h1 (.wPredTrue h1 (.inr hs.cont)) (by simp [rank]) rfl rfl rfl (fun c h => h))⟩
      · exact absurd rfl (hs.awake _ (List.mem_of_getElem? h1)).1
      · exact ⟨_, _, .wExit h1 hs.cont, quiet_tau, .inr (worker j _ .exited _ h1 (.wExit h1 hs.cont) (by simp [rank]) rfl rfl rfl (fun c h => by cases h))⟩
      · cases hq : s.queue with
        | nil => exact ⟨_, _, .wEmpty h1 hq, quiet_tau, .inr (worker j _ .lock _ h1 (.wEmpty h1 hq) (by simp [rank]) rfl rfl rfl (fun c h => by cases h))⟩
        | cons t q => exact ⟨_, _, .wPop h1 hq, quiet_tau, .inr (worker j _ (.taken t) _ h1 (.wPop h1 hq) (by simp [rank]) rfl rfl rfl (fun c h => by cases h))⟩
  | none =>
    by_cases hall : ∀ w ∈ s.workers, w = .exited
    · by_cases hlen : s.threads.length ≤ i
      · exact ⟨_, _, .stopDone hi hlen, by cases k <;> simp [Quiet, stopLabel], .inl ⟨rfl, by simp⟩⟩
      · obtain ⟨⟨w, b⟩, hx⟩ : ∃ x, s.threads[i]? = some x := ⟨_, List.getElem?_eq_getElem (by omega)⟩
        have hb := hs.joinInv.left k i hi i _ (Nat.le_refl _) hx
        simp only at hb
        subst hb
        have hlt := hs.joinInv.valid w true (List.mem_of_getElem? hx)
        have hw : s.workers[w]? = some .exited := by
          rw [List.getElem?_eq_getElem hlt, hall _ (List.getElem_mem hlt)]
        have ha : Act s .tau _ := .stopJoined hi hx hw
        refine ⟨_, _, ha, quiet_tau, .inr ⟨next _ _ ha dtau (by simp [joinIdx]), ?_⟩⟩
        unfold allWork
        simp only [setPc_workers, setPc_threads, setPc_pcs, setPc_lock, List.length_set, hl, if_true, hi, joinIdx]
        simp
        omega
    · have : ∃ w ∈ s.workers, w ≠ .exited := by
        apply Classical.byContradiction
        intro h
        exact hall fun w hw => Classical.byContradiction fun e => h ⟨w, hw, e⟩
      obtain ⟨w, hmem, hne⟩ := this
      obtain ⟨j, hj⟩ := List.getElem?_of_mem hmem
      have hlt := (List.getElem?_eq_some_iff.1 hj).1
      have nh : w.holds = false := by
        cases hh : w.holds with
        | false => rfl
        | true => have := hs.lockInv.worker j w hj hh; rw [hl] at this; cases this
      have haw := hs.awake w hmem
      cases w <;> simp [WPc.holds] at nh haw hne
      case lock => exact ⟨_, _, .wLocked hj hl, quiet_tau, .inr (worker j _ .check _ hj (.wLocked hj hl) (by simp [rank]) rfl rfl rfl (fun c h => by cases h))⟩
      case wake => exact ⟨_, _, .wRelocked hj hl, quiet_tau, .inr (worker j _ .pred _ hj (.wRelocked hj hl) (by simp [rank]) rfl rfl rfl (fun c h => by cases h))⟩
      case taken t => exact ⟨_, _, .wBusy hj, quiet_tau, .inr (worker j _ (.start t) _ hj (.wBusy hj) (by simp [rank]) rfl rfl rfl (fun c h => h))⟩
      case start t => exact ⟨_, _, .wStart hj, quiet_tau, .inr (worker j _ (.run t) _ hj (.wStart hj) (by simp [rank]) rfl rfl rfl (fun c h => h))⟩
      case done => exact ⟨_, _, .wUnbusy hj, quiet_tau, .inr (worker j _ .lock _ hj (.wUnbusy hj) (by simp [rank]) rfl rfl rfl (fun c h => h))⟩
      case run t =>
        have huse := hs.stopInv.others (.worker j) (by simp)
        have hnh : (s.pcs (.worker j)).holds = false := by
          cases hh : (s.pcs (.worker j)).holds with
          | false => rfl
          | true => have := hs.lockInv.agent _ hh; rw [hl] at this; cases this
        cases hpc : s.pcs (.worker j) <;> rw [hpc] at huse hnh <;> simp [CPc.use, CPc.holds] at huse hnh
        case idle => exact ⟨_, _, .wFinish hj hpc, quiet_tau, .inr (worker j _ .done _ hj (.wFinish hj hpc) (by simp [rank]) rfl rfl rfl (fun c h => h))⟩
        case addCheck t' =>
          exact ⟨_, _, .addRefused hpc (.inl hs.cont), quiet_ret _ _, .inr (task j .idle _ _ hlt (.addRefused hpc (.inl hs.cont)) (dret _ _)
            (by simp [hpc, crank]) (fun b => rfl) rfl rfl (fun c h => h))⟩
        case addLock t' =>
          exact ⟨_, _, .addLocked hpc hl, quiet_tau, .inr (task j (.addPush t') _ _ hlt (.addLocked hpc hl) dtau
            (by simp [hpc, crank]) (fun b => rfl) rfl rfl (fun c h => by cases h))⟩
        case numLock =>
          exact ⟨_, _, .numLocked hpc hl, quiet_tau, .inr (task j .numSize _ _ hlt (.numLocked hpc hl) dtau
            (by simp [hpc, crank]) (fun b => rfl) rfl rfl (fun c h => by cases h))⟩

/-- From every draining state the pool can get to the return of `Stop` by itself. -/
theorem draining_returns {ctl : Nat} {k : AfterStop} : ∀ (n : Nat) (s : Pool α), allWork ctl s = n → Draining ctl k s →
    ∃ tr s', Run s (tr ++ [stopLabel (.client ctl) k]) s' ∧ (∀ l ∈ tr, Quiet l) ∧ s'.pcs (.client ctl) = afterStop k := by
  intro n
  induction n using Nat.strongRecOn with
  | _ n ih =>
    intro s hn hs
    obtain ⟨l, s', ha, hq, h | ⟨h1, h2⟩⟩ := draining_progress hs
    · exact ⟨[], s', by rw [← h.1]; exact pool_run_cons hs.live ha (.nil _), by simp, h.2⟩
    · obtain ⟨tr, s'', h3, h4, h5⟩ := ih _ (by omega) s' rfl h1
      refine ⟨l :: tr, s'', pool_run_cons hs.live ha h3, ?_, h5⟩
      intro l' hl'
      rcases List.mem_cons.1 hl' with rfl | hl'
      · exact hq
      · exact h4 l' hl'

end Cppnet
