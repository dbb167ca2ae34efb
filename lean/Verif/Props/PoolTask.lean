import Verif.Proofs.PoolTask
import Verif.Props.Pool

/-!
# Tasks that use their own pool, and tasks that fail: C158

The theorems are about every execution of the transition system of `Verif/Model/ThreadPool.lean`, where a running task
may call every function of the pool and may throw.
-/

namespace Cppnet
open Spec Pool
variable {α : Type}

/-- C158, what a task gets back from its own pool, in every execution: from `AddTask` 0 or -2, from
`GetBusyAndTaskNum` two numbers; `Init` and the destructor never return to it; `Resize` returns only if it asked for
no change; `Stop` returns only if another thread or task has asked for the pool to be stopped. -/
theorem C158_gets_partial (tr : List (PoolLabel α)) (s s' : Pool α) (h : Run {} tr s) (i : Nat) (r : PoolRet)
    (ha : Act s (.ret (.worker i) r) s') : ∃ op, lastCall tr (.worker i) = some op ∧ TaskGets tr i s.threadNum op r := by
  obtain ⟨hl, ht, hs, hd, hb⟩ := task_run h
  have own : s.pcs (.worker i) ≠ .idle → (∀ x ∈ s.threads, x.2 = false) → False := by
    intro h h'
    have := h' _ (own_handle hl ht h)
    cases this
  have stopped : s.cont = false → (s.pcs (.worker i)).stopping = false →
      ∃ b op', b ≠ .worker i ∧ CanStop op' ∧ .call b op' ∈ tr := by
    intro hc hp
    obtain ⟨b, op, h1, h2, h3⟩ := hb hc
    refine ⟨b, op, fun e => ?_, h1, h2⟩
    have := h3 i e
    rw [e, hp] at this
    cases this
  generalize hlab : PoolLabel.ret (.worker i) r = l at ha
  cases ha <;> first | (cases hlab; done) | skip
  case addRefused a t hpc hc =>
    cases hlab
    obtain ⟨op, h1, h2⟩ := hd (.worker i) (by rw [hpc]; simp)
    rw [hpc] at h2
    obtain ⟨t, rfl⟩ := h2
    exact ⟨_, h1, .inr rfl⟩
  case addDone a hpc =>
    cases hlab
    obtain ⟨op, h1, h2⟩ := hd (.worker i) (by rw [hpc]; simp)
    rw [hpc] at h2
    obtain ⟨t, rfl⟩ := h2
    exact ⟨_, h1, .inl rfl⟩
  case stopAlready a k hpc hc =>
    cases k <;> simp [stopLabel] at hlab
    obtain ⟨rfl, rfl⟩ := hlab
    obtain ⟨op, h1, h2⟩ := hd (.worker i) (by rw [hpc]; simp)
    rw [hpc] at h2
    simp only [CPc.doing] at h2
    subst h2
    exact ⟨_, h1, rfl, stopped hc (by rw [hpc]; rfl)⟩
  case stopDone a k j hpc hlen =>
    cases k <;> simp [stopLabel] at hlab
    obtain ⟨rfl, rfl⟩ := hlab
    exact absurd hlen (not_joined hl ht hs hpc)
  case resizeSame a n hpc hn =>
    cases hlab
    obtain ⟨op, h1, h2⟩ := hd (.worker i) (by rw [hpc]; simp)
    rw [hpc] at h2
    simp only [CPc.doing] at h2
    subst h2
    exact ⟨_, h1, rfl, hn.symm.imp id Eq.symm⟩
  case initDone a q hpc =>
    cases hlab
    exact absurd hpc (hs.spawn i q 0)
  case destroyed a hpc hf =>
    cases hlab
    exact (own (by rw [hpc]; simp) hf).elim
  case numDone a k hpc =>
    cases hlab
    obtain ⟨op, h1, h2⟩ := hd (.worker i) (by rw [hpc]; simp)
    rw [hpc] at h2
    simp only [CPc.doing] at h2
    subst h2
    exact ⟨_, h1, _, _, rfl⟩

/-- C158, the calls that are safe: a call of `AddTask` or `GetBusyAndTaskNum`, made by a task (or any thread) at any time,
can always come to its answer without a new call, a spurious wake-up or an exception, and without any running
task having to end. -/
theorem C158_answered_partial (tr : List (PoolLabel α)) (s : Pool α) (h : Run {} tr s) (hl : s.phase = .live) (a : Agent) (op : PoolOp α)
    (hc : lastCall tr a = some op) (ho : Harmless op) (hin : s.pcs a ≠ .idle) :
    ∃ tr' s₁ r s₂, Run s tr' s₁ ∧ (∀ l ∈ tr', Quiet l) ∧ s₁.phase = .live ∧ Act s₁ (.ret a r) s₂ := by
  obtain ⟨hk, _, _, hd, _⟩ := task_run h
  obtain ⟨op', h1, h2⟩ := hd a hin
  rw [hc] at h1
  cases h1
  refine answered_use hk hl ?_ hin
  cases op <;> simp [Harmless] at ho <;> cases hp : s.pcs a <;> rw [hp] at h2 <;> simp [CPc.doing, CPc.use] at h2 ⊢
  all_goals (split at h2 <;> simp at h2)

theorem cmd_obtain {β : Type} {cs : List (Cmd α)} {f : Pool α × List (PoolLabel α) → β} {v : β} (h : (cmdRun {} cs).map f = some v) :
    ∃ s tr, Run {} tr s ∧ f (s, tr) = v := by
  obtain ⟨⟨s, tr⟩, h1, h2⟩ := Option.map_eq_some_iff.1 h
  exact ⟨s, tr, cmdRun_sound h1, h2⟩

/-- C158 is false for a task that fails: whatever the pool is doing, an exception that leaves a task ends the program;
and this happens while another task is running and one more is waiting. -/
theorem C158_throw_refuted : (∀ s s' : Pool α, Act s .throws s' → s'.phase = .terminated) ∧
    ∃ (s s' : Pool Nat), Reachable s ∧ s.phase = .live ∧ s.workers = [.run 1, .run 2] ∧ s.queue = [3] ∧ Act s .throws s' ∧
      s'.phase = .terminated := by
  constructor
  · intro s s' h
    generalize hlab : (PoolLabel.throws : PoolLabel α) = l at h
    cases h
    case stopAlready k _ _ => cases k <;> cases hlab
    case stopDone k _ _ _ => cases k <;> cases hlab
    all_goals first | rfl | cases hlab
  · obtain ⟨s, tr, h, hv⟩ := cmd_obtain (cs := initCmd 2 ++ addCmd 1 ++ addCmd 2 ++ addCmd 3 ++ wk 0 6 ++ wk 1 6)
      (f := fun x => (x.1.phase, x.1.workers, x.1.queue, x.1.pcs (.worker 0))) (v := (.live, [.run 1, .run 2], [3], .idle)) (by decide +kernel)
    simp only [Prod.mk.injEq] at hv
    exact ⟨s, _, ⟨tr, h⟩, hv.1, hv.2.1, hv.2.2.1, .wThrow (i := 0) (t := 1) (by rw [hv.2.1]; rfl) hv.2.2.2, rfl⟩

/-! ### How many threads there are after `Init` and `Resize` (C53) -/

/-- The number of threads, seen from the controlling thread. -/
def sizeOk (last : Option (PoolOp α)) (num len : Nat) : CPc α → Prop
  | .initClear r n => if r then num = n ∧ len = 0 else num = len
  | .initSpawn r k => len + k = num ∧ last = some (if r then .resize num else .init num)
  | _ => num = len

theorem sizeOk_other {last last' : Option (PoolOp α)} {num len : Nat} {c : CPc α} (h : sizeOk last num len c) (hc : ∀ r n, c ≠ .initClear r n)
    (hc' : ∀ r n, c ≠ .initSpawn r n) (c' : CPc α) (hd : ∀ n, c' ≠ .initClear true n) (hd' : ∀ r n, c' ≠ .initSpawn r n) : sizeOk last' num len c' := by
  have h' : num = len := by cases c <;> simp_all [sizeOk]
  cases c' <;> simp_all [sizeOk]

theorem size_step {ctl : Nat} {tr : List (PoolLabel α)} {s s' : Pool α} {l} (ho : ∀ a, a ≠ .client ctl → (s.pcs a).use = true)
    (hd : DoingInv tr s) (hq : Disciplined ctl l) (hi : sizeOk (lastCall tr (.client ctl)) s.threadNum s.threads.length (s.pcs (.client ctl)))
    (h : Act s l s') : sizeOk (lastCall (tr ++ [l]) (.client ctl)) s'.threadNum s'.threads.length (s'.pcs (.client ctl)) := by
  have keep : s'.pcs (.client ctl) = s.pcs (.client ctl) → s'.threads.length = s.threads.length → s'.threadNum = s.threadNum →
      (∀ op, l ≠ .call (.client ctl) op) →
      sizeOk (lastCall (tr ++ [l]) (.client ctl)) s'.threadNum s'.threads.length (s'.pcs (.client ctl)) := by
    intro e1 e2 e3 e4
    rw [e1, e2, e3]
    have : lastCall (tr ++ [l]) (.client ctl) = lastCall tr (.client ctl) := by
      rw [lastCall_append]
      split
      · split
        · subst_vars; exact absurd rfl (e4 _)
        · rfl
      · rfl
    rw [this]; exact hi
  have go : ∀ (a : Agent) (c' : CPc α), (∀ x, s'.pcs x = if x = a then c' else s.pcs x) → s'.threads.length = s.threads.length →
      s'.threadNum = s.threadNum → (a ≠ .client ctl → ∀ op, l ≠ .call (.client ctl) op) → (∀ r n, s.pcs a ≠ .initClear r n) → (∀ r n, s.pcs a ≠ .initSpawn r n) →
      (∀ n, c' ≠ .initClear true n) → (∀ r n, c' ≠ .initSpawn r n) →
      sizeOk (lastCall (tr ++ [l]) (.client ctl)) s'.threadNum s'.threads.length (s'.pcs (.client ctl)) := by
    intro a c' e1 e2 e3 e4 h1 h2 h3 h4
    by_cases e : a = .client ctl
    · subst e
      rw [e1, if_pos rfl, e2, e3]
      exact sizeOk_other hi h1 h2 c' h3 h4
    · exact keep (by rw [e1, if_neg (Ne.symm e)]) e2 e3 (e4 e)
  have ctlOnly : ∀ a, (s.pcs a).use = false → a = .client ctl := by
    intro a ha
    by_cases e : a = .client ctl
    · exact e
    · rw [ho a e] at ha; cases ha
  have last : ∀ l' : PoolLabel α, l = l' → (∀ a op, l' ≠ .call a op) → lastCall (tr ++ [l]) (.client ctl) = lastCall tr (.client ctl) := by
    intro l' e h
    subst e
    rw [lastCall_append]
    split
    · exact absurd rfl (h _ _)
    · rfl
  cases h
  case call a op hidle hmay =>
    refine go a _ (fun _ => rfl) rfl rfl (fun e op' h => ?_) (by rw [hidle]; simp) (by rw [hidle]; simp) (by cases op <;> simp [entry]) (by cases op <;> simp [entry])
    cases h; exact e rfl
  case resizeCleared a n hpc h =>
    have e := ctlOnly a (by rw [hpc]; rfl)
    subst e
    simp [sizeOk]
  case initCleared a r n hpc h =>
    have e := ctlOnly a (by rw [hpc]; rfl)
    subst e
    obtain ⟨op, h1, h2⟩ := hd _ (by rw [hpc]; simp)
    rw [hpc] at h2
    rw [last _ rfl (by simp), h1]
    cases r <;> simp_all [sizeOk, CPc.doing]
  case initSpawned a r n hpc =>
    have e := ctlOnly a (by rw [hpc]; rfl)
    subst e
    rw [hpc] at hi
    rw [last _ rfl (by simp)]
    simp only [sizeOk, setPc_pcs, if_pos, setPc_threads, setPc_threadNum, List.length_append, List.length_cons, List.length_nil] at hi ⊢
    exact ⟨by omega, hi.2⟩
  case initDone a r hpc =>
    have e := ctlOnly a (by rw [hpc]; rfl)
    subst e
    rw [hpc] at hi
    simp only [sizeOk] at hi
    simp [sizeOk]
    omega
  case stopAlready a k hpc hc =>
    refine go a _ (fun _ => rfl) rfl rfl (fun _ => by cases k <;> simp [stopLabel]) (by rw [hpc]; simp) (by rw [hpc]; simp) ?_ ?_ <;> cases k <;> simp [afterStop]
  case stopDone a k j hpc hc =>
    refine go a _ (fun _ => rfl) rfl rfl (fun _ => by cases k <;> simp [stopLabel]) (by rw [hpc]; simp) (by rw [hpc]; simp) ?_ ?_ <;> cases k <;> simp [afterStop]
  case stopJoined a k i w hpc h h' =>
    exact go a _ (fun _ => rfl) (by simp) rfl (fun _ => by simp) (by rw [hpc]; simp) (by rw [hpc]; simp) (by simp) (by simp)
  all_goals first
    | exact keep rfl rfl rfl (by simp)
    | (exact go _ _ (fun _ => rfl) rfl rfl (fun _ => by simp) (by rw [‹s.pcs _ = _›]; simp) (by rw [‹s.pcs _ = _›]; simp) (by simp) (by simp))
    | (rename_i hpc
       exact go _ _ (fun _ => rfl) rfl rfl (fun _ => by simp) (by rw [hpc]; simp) (by rw [hpc]; simp) (by simp) (by simp))
    | (rename_i hpc _
       exact go _ _ (fun _ => rfl) rfl rfl (fun _ => by simp) (by rw [hpc]; simp) (by rw [hpc]; simp) (by simp) (by simp))

theorem size_run {ctl : Nat} {tr : List (PoolLabel α)} {s : Pool α} (h : Run {} tr s) (hq : ∀ l ∈ tr, Disciplined ctl l) :
    sizeOk (lastCall tr (.client ctl)) s.threadNum s.threads.length (s.pcs (.client ctl)) := by
  have : ∀ {s0 s : Pool α} {tr}, Run s0 tr s → s0 = {} → (∀ l ∈ tr, Disciplined ctl l) →
      sizeOk (lastCall tr (.client ctl)) s.threadNum s.threads.length (s.pcs (.client ctl)) := by
    intro s0 s tr h
    induction h with
    | nil => intro e _; subst e; simp [sizeOk]
    | snoc hr hl ha ih =>
      intro e hq
      subst e
      have hq' := fun l h => hq l (List.mem_append_left _ h)
      exact size_step (disciplined_stop hr hq').2.others (doing_run hr) (hq _ (by simp)) (ih rfl hq') ha
  exact this h rfl hq

/-- C53, what holds of the size (one controlling thread): when `Resize(n)` with `n ≠ 0`, or `Init(n)`, returns, the pool has `n`
threads, and takes itself to have so many.  (Whether they still run is another matter, see `C53_always_refuses_partial`.) -/
theorem C53_size_partial (ctl : Nat) (tr : List (PoolLabel α)) (s s' : Pool α) (h : Run {} tr s) (hq : ∀ l ∈ tr, Disciplined ctl l) (r : PoolRet)
    (ha : Act s (.ret (.client ctl) r) s') (n : Nat)
    (hc : lastCall tr (.client ctl) = some (.resize n) ∧ n ≠ 0 ∨ lastCall tr (.client ctl) = some (.init n)) :
    s'.threads.length = n ∧ s'.threadNum = n := by
  have hz := size_run h hq
  have hd := doing_run h
  have wrong : s.pcs (.client ctl) ≠ .idle → (∀ n, ¬ (s.pcs (.client ctl)).doing (.resize n)) → (∀ n, ¬ (s.pcs (.client ctl)).doing (.init n)) → False := by
    intro h1 h2 h3
    obtain ⟨op, g1, g2⟩ := hd _ h1
    rcases hc with ⟨hc, _⟩ | hc <;> (rw [hc] at g1; cases g1)
    · exact h2 n g2
    · exact h3 n g2
  generalize hlab : PoolLabel.ret (.client ctl) r = l at ha
  cases ha <;> first | (cases hlab; done) | skip
  case resizeSame a m hpc hm =>
    cases hlab
    obtain ⟨op, g1, g2⟩ := hd _ (by rw [hpc]; simp)
    rw [hpc] at g2 hz
    simp only [sizeOk] at hz
    simp only [CPc.doing] at g2
    subst g2
    rcases hc with ⟨hc, hn⟩ | hc <;> (rw [hc] at g1; cases g1)
    simp only [setPc_threads, setPc_threadNum]
    omega
  case initDone a q hpc =>
    cases hlab
    rw [hpc] at hz
    simp only [sizeOk] at hz
    simp only [setPc_threads, setPc_threadNum]
    rcases hc with ⟨hc, hn⟩ | hc <;> (rw [hc] at hz; cases q <;> simp at hz)
    all_goals omega
  case stopAlready a k hpc hc' =>
    cases k <;> simp [stopLabel] at hlab
    obtain ⟨rfl, rfl⟩ := hlab
    exact (wrong (by rw [hpc]; simp) (by rw [hpc]; simp [CPc.doing]) (by rw [hpc]; simp [CPc.doing])).elim
  case stopDone a k j hpc hc' =>
    cases k <;> simp [stopLabel] at hlab
    obtain ⟨rfl, rfl⟩ := hlab
    exact (wrong (by rw [hpc]; simp) (by rw [hpc]; simp [CPc.doing]) (by rw [hpc]; simp [CPc.doing])).elim
  all_goals
    cases hlab
    exact (wrong (by rw [‹s.pcs _ = _›]; simp) (by rw [‹s.pcs _ = _›]; simp [CPc.doing]) (by rw [‹s.pcs _ = _›]; simp [CPc.doing])).elim

/-- The hypotheses are met: `Resize(2)` returns in a pool that had one thread. -/
example : ∃ (tr : List (PoolLabel Nat)) (s s' : Pool Nat), Run {} tr s ∧ (∀ l ∈ tr, Disciplined 0 l) ∧
    Act s (.ret (.client 0) .resized) s' ∧ lastCall tr (.client 0) = some (.resize 2) := by
  obtain ⟨s, tr, h, hv⟩ := cmd_obtain (cs := initCmd 1 ++ wk 0 4 ++ resizeCmd 2 ++ cl 4 ++ wk 0 3 ++ cl 6)
    (f := fun x => (x.1.pcs (.client 0), lastCall x.2 (.client 0), x.2.all fun l => match l with | .call a _ => decide (a = .client 0) | _ => true))
    (v := (.initSpawn true 0, some (.resize 2), true)) (by decide +kernel)
  simp only [Prod.mk.injEq] at hv
  refine ⟨tr, s, _, h, fun l hl a op e => ?_, .initDone (r := true) hv.1, hv.2.1⟩
  have := List.all_eq_true.1 hv.2.2 l hl
  subst e
  exact .inr (.inr (by simpa using this))

/-! ### Tasks that stop their pool -/

/-- `n` steps of the task of worker `i`, in a pool function. -/
def tk (i n : Nat) : List (Cmd Nat) := List.replicate n (.inTask i)

/-- C158 is false for a task that stops its own pool, resizes it, initialises it again or destroys it: each of these ends the
program, although no task throws. -/
theorem C158_stop_refuted (op : PoolOp Nat) (ho : op = .stop ∨ op = .resize 2 ∨ op = .init 1 ∨ op = .destroy) :
    ∃ (s : Pool Nat) (tr : List (PoolLabel Nat)), Run {} tr s ∧ s.phase = .terminated ∧ .throws ∉ tr ∧
      (∀ a op', .call a op' ∈ tr → a = .worker 0 ∧ op' = op ∨ a = .client 0 ∧ (op' = .init 1 ∨ op' = .add 7)) := by
  have key : ∀ n, (cmdRun {} (initCmd 1 ++ addCmd 7 ++ wk 0 6 ++ [.taskCall 0 op] ++ tk 0 n)).map
      (fun x => (x.1.phase, x.2.contains .throws, x.2.all fun l => match l with
        | .call a op' => a = .worker 0 && op' = op || a = .client 0 && (op' = .init 1 || op' = .add 7)
        | _ => true)) = some (.terminated, false, true) →
      ∃ (s : Pool Nat) (tr : List (PoolLabel Nat)), Run {} tr s ∧ s.phase = .terminated ∧ .throws ∉ tr ∧
        (∀ a op', .call a op' ∈ tr → a = .worker 0 ∧ op' = op ∨ a = .client 0 ∧ (op' = .init 1 ∨ op' = .add 7)) := by
    intro n hn
    obtain ⟨s, tr, h, hv⟩ := cmd_obtain hn
    simp only [Prod.mk.injEq] at hv
    refine ⟨s, tr, h, hv.1, fun hc => ?_, fun a op' hc => ?_⟩
    · have := hv.2.1
      rw [List.contains_iff_mem.2 hc] at this
      cases this
    · have := List.all_eq_true.1 hv.2.2 _ hc
      simpa using this
  rcases ho with rfl | rfl | rfl | rfl
  · exact key 4 (by decide +kernel)
  · exact key 5 (by decide +kernel)
  · exact key 1 (by decide +kernel)
  · exact key 4 (by decide +kernel)

/-- C158 is false in another way: a task that stops the pool and a client that stops it at the same time; the client's `Stop` has
returned, the task has not, and the task's thread is still running in the pool that the client takes for stopped. -/
theorem C158_left_refuted : ∃ (s : Pool Nat) (tr : List (PoolLabel Nat)), Run {} tr s ∧ .ret (.client 0) .stopped ∈ tr ∧
    s.phase = .live ∧ s.workers = [.run 7, .run 8] ∧ lastCall tr (.worker 1) = some .stop := by
  obtain ⟨s, tr, h, hv⟩ := cmd_obtain (cs := initCmd 2 ++ addCmd 7 ++ addCmd 8 ++ wk 0 6 ++ wk 1 6 ++ [.taskCall 1 .stop] ++ tk 1 3 ++ stopCmd 1)
    (f := fun x => (x.1.phase, x.1.workers, decide (PoolLabel.ret (.client 0) .stopped ∈ x.2), lastCall x.2 (.worker 1)))
    (v := (.live, [.run 7, .run 8], true, some .stop)) (by decide +kernel)
  simp only [Prod.mk.injEq] at hv
  exact ⟨s, tr, h, of_decide_eq_true hv.2.2.1, hv.1, hv.2.1, hv.2.2.2⟩

/-- The hypotheses are met: the task of worker 0 adds a task and gets 0, … -/
example : ∃ (tr : List (PoolLabel Nat)) (s s' : Pool Nat), Run {} tr s ∧ Act s (.ret (.worker 0) (.added 0)) s' ∧
    lastCall tr (.worker 0) = some (.add 8) ∧ s'.queue = [8] := by
  obtain ⟨s, tr, h, hv⟩ := cmd_obtain (cs := initCmd 1 ++ addCmd 7 ++ wk 0 6 ++ [.taskCall 0 (.add 8)] ++ tk 0 4)
    (f := fun x => (x.1.pcs (.worker 0), lastCall x.2 (.worker 0), x.1.queue)) (v := (.addUnlock, some (.add 8), [8])) (by decide +kernel)
  simp only [Prod.mk.injEq] at hv
  exact ⟨tr, s, _, h, .addDone hv.1, hv.2.1, hv.2.2⟩

/-- … the same task gets the return of `Stop`, because a client has stopped the pool (and waits for the task), … -/
example : ∃ (tr : List (PoolLabel Nat)) (s s' : Pool Nat), Run {} tr s ∧ Act s (.ret (.worker 0) .stopped) s' ∧
    lastCall tr (.worker 0) = some .stop ∧ .call (.client 0) .stop ∈ tr := by
  obtain ⟨s, tr, h, hv⟩ := cmd_obtain (cs := initCmd 1 ++ addCmd 7 ++ wk 0 6 ++ stopCmd 3 ++ [.taskCall 0 .stop])
    (f := fun x => (x.1.pcs (.worker 0), x.1.cont, lastCall x.2 (.worker 0), decide (PoolLabel.call (.client 0) .stop ∈ x.2)))
    (v := (.stopCheck .ret, false, some .stop, true)) (by decide +kernel)
  simp only [Prod.mk.injEq] at hv
  exact ⟨tr, s, _, h, .stopAlready (k := .ret) hv.1 hv.2.1, hv.2.2.1, of_decide_eq_true hv.2.2.2⟩

/-- … and a task asks for the numbers while a worker holds the mutex. -/
example : ∃ (tr : List (PoolLabel Nat)) (s : Pool Nat), Run {} tr s ∧ s.phase = .live ∧ lastCall tr (.worker 0) = some .numbers ∧
    s.pcs (.worker 0) ≠ .idle ∧ s.lock = some (.worker 1) := by
  obtain ⟨s, tr, h, hv⟩ := cmd_obtain (cs := initCmd 2 ++ addCmd 7 ++ wk 0 6 ++ [.taskCall 0 .numbers] ++ wk 1 2)
    (f := fun x => (x.1.phase, x.1.pcs (.worker 0), lastCall x.2 (.worker 0), x.1.lock))
    (v := (.live, .numLock, some .numbers, some (.worker 1))) (by decide +kernel)
  simp only [Prod.mk.injEq] at hv
  exact ⟨tr, s, h, hv.1, hv.2.2.1, by rw [hv.2.1]; simp, hv.2.2.2⟩

end Cppnet
