import Verif.Model.PoolCaught
import Verif.Props.PoolTask

/-!
# C158: a task that stops its pool and catches the exception
-/

namespace Cppnet
open Spec Pool
variable {α : Type}

/-- The pool is told to stop, nobody is joining its threads, and one of them is joinable. -/
structure Abandoned (i w : Nat) (s : Pool α) : Prop where
  cont : s.cont = false
  thread : s.threads[i]? = some (w, true)
  set : ∀ a k, s.pcs a ≠ .stopSet k
  quiet : ∀ a, (s.pcs a).stopping = false
  phase : s.phase ≠ .destroyed

theorem Abandoned.joinable {i w : Nat} {s : Pool α} (h : Abandoned i w s) : ∃ x ∈ s.threads, x.2 = true :=
  ⟨_, List.mem_of_getElem? h.thread, rfl⟩

theorem abandoned_step {i w : Nat} (s : Pool α) (l) (s' : Pool α) (hi : Abandoned i w s) (h : Act s l s') : Abandoned i w s' := by
  obtain ⟨x, hx, hx'⟩ := hi.joinable
  obtain ⟨h1, h2, h3, h4, h5⟩ := hi
  have go : ∀ (a : Agent) (c : CPc α), (∀ b, s'.pcs b = if b = a then c else s.pcs b) → (∀ k, c ≠ .stopSet k) → c.stopping = false →
      s'.cont = false → s'.threads[i]? = some (w, true) → s'.phase ≠ .destroyed → Abandoned i w s' := by
    intro a c e hc hc' g1 g2 g3
    refine ⟨g1, g2, fun b k => ?_, fun b => ?_, g3⟩ <;> rw [e] <;> split
    · exact hc k
    · exact h3 b k
    · exact hc'
    · exact h4 b
  have none : ∀ a, (s.pcs a).stopping = true → False := fun a e => by rw [h4 a] at e; cases e
  cases h
  case call a op _ _ => exact go a _ (fun _ => rfl) (by cases op <;> simp [entry]) (by cases op <;> rfl) h1 h2 h5
  case stopAlready a k _ _ => exact go a _ (fun _ => rfl) (by cases k <;> simp [afterStop]) (by cases k <;> rfl) h1 h2 h5
  case stopChecked a k _ hc => rw [h1] at hc; cases hc
  case stopFlag a k hpc => exact absurd hpc (h3 a k)
  case stopNotified a k hpc => exact (none a (by rw [hpc]; rfl)).elim
  case stopJoined a k j v hpc _ _ => exact (none a (by rw [hpc]; rfl)).elim
  case stopBadJoin a k j v hpc _ => exact (none a (by rw [hpc]; rfl)).elim
  case stopSelfJoin k j v hpc _ => exact (none _ (by rw [hpc]; rfl)).elim
  case stopDone a k j hpc _ => exact (none a (by rw [hpc]; rfl)).elim
  case resizeCleared a n _ hf => rw [hf x hx] at hx'; cases hx'
  case initCleared a r n _ hf => rw [hf x hx] at hx'; cases hx'
  case destroyed a _ hf => rw [hf x hx] at hx'; cases hx'
  case initSpawned a r n _ =>
    refine go a _ (fun _ => rfl) (by simp) rfl h1 ?_ h5
    simp only [setPc_threads]
    rw [List.getElem?_append_left (List.getElem?_eq_some_iff.1 h2).1]
    exact h2
  all_goals first
    | exact ⟨h1, h2, h3, h4, h5⟩
    | exact ⟨h1, h2, h3, h4, by simp⟩
    | exact go _ _ (fun _ => rfl) (by simp) rfl h1 h2 h5

/-- Whoever joins the threads has told them to stop. -/
theorem stopping_cont {tr : List (PoolLabel α)} {s : Pool α} (h : Run {} tr s) : ∀ a, (s.pcs a).stopping = true → s.cont = false := by
  refine pool_run_inv (P := fun s => ∀ a, (s.pcs a).stopping = true → s.cont = false) ?_ h (fun a h => by cases h)
  intro s l s' _ hi ha
  have go : ∀ (a : Agent) (c : CPc α), (∀ b, s'.pcs b = if b = a then c else s.pcs b) → (c.stopping = true → (s.pcs a).stopping = true) →
      s'.cont = s.cont → ∀ a, (s'.pcs a).stopping = true → s'.cont = false := by
    intro a c e hc hs b hb
    rw [hs]
    rw [e] at hb
    split at hb
    · exact hi a (hc hb)
    · exact hi b hb
  cases ha
  case call a op _ _ => exact go a _ (fun _ => rfl) (by cases op <;> simp [entry, CPc.stopping]) rfl
  case stopAlready a k _ _ => exact go a _ (fun _ => rfl) (by cases k <;> simp [afterStop, CPc.stopping]) rfl
  case stopDone a k j _ _ => exact go a _ (fun _ => rfl) (by cases k <;> simp [afterStop, CPc.stopping]) rfl
  case stopFlag a k _ => exact fun _ _ => rfl
  all_goals first
    | exact hi
    | (refine go _ _ (fun _ => rfl) ?_ rfl
       simp [CPc.stopping, *])

/-- In a call that has got past the point where a stopped pool turns it away. -/
def CPc.late : CPc α → Bool
  | .addLock _ | .addPush _ | .addNotify | .addUnlock | .initSpawn _ _ => true
  | _ => false

theorem caughtLate_step {i w : Nat} {tr : List (PoolLabel α)} {s s' : Pool α} {l} (hi : Abandoned i w s)
    (hL : ∀ a, lastCall tr a ≠ none → (s.pcs a).late = false) (h : Act s l s') :
    ∀ a, lastCall (tr ++ [l]) a ≠ none → (s'.pcs a).late = false := by
  obtain ⟨x, hx, hx'⟩ := hi.joinable
  obtain ⟨h1, h2, h3, h4, h5⟩ := hi
  have last : ∀ b, (∀ op, l ≠ .call b op) → lastCall (tr ++ [l]) b = lastCall tr b := by
    intro b hb
    rw [lastCall_append]
    split
    · split
      · subst_vars; exact absurd rfl (hb _)
      · rfl
    · rfl
  have go : ∀ (a : Agent) (c : CPc α), (∀ b, s'.pcs b = if b = a then c else s.pcs b) → (∀ b op, l ≠ .call b op) →
      (c.late = true → (s.pcs a).late = true) → ∀ a, lastCall (tr ++ [l]) a ≠ none → (s'.pcs a).late = false := by
    intro a c e hl hc b hb
    rw [last b (hl b)] at hb
    rw [e]
    split
    · subst_vars
      cases hc' : c.late
      · rfl
      · rw [hL _ hb] at hc; exact absurd (hc hc') (by simp)
    · exact hL b hb
  cases h
  case call a op _ _ =>
    intro b hb
    simp only [setPc_pcs]
    split
    · cases op <;> rfl
    · rename_i e
      rw [last b (fun op' h => by cases h; exact e rfl)] at hb
      exact hL b hb
  case stopAlready a k _ _ => exact go a _ (fun _ => rfl) (by cases k <;> simp [stopLabel]) (by cases k <;> simp [afterStop, CPc.late])
  case stopDone a k j _ _ => exact go a _ (fun _ => rfl) (by cases k <;> simp [stopLabel]) (by cases k <;> simp [afterStop, CPc.late])
  case addChecked a t _ hc _ => rw [h1] at hc; cases hc
  case initCleared a r n _ hf => rw [hf x hx] at hx'; cases hx'
  all_goals first
    | (intro b hb
       rw [last b (by simp)] at hb
       exact hL b hb)
    | (refine go _ _ (fun _ => rfl) (by simp) ?_
       simp [CPc.late, *])

theorem lastCall_later {tr tr' : List (PoolLabel α)} {a : Agent} {op} (h : lastCall tr' a = some op) : lastCall (tr ++ tr') a = some op := by
  have : ∀ (tr' : List (PoolLabel α)) (o o' : Option (PoolOp α)),
      (∀ op, tr'.foldl (fun o l => match l with
        | .call b op => if b = a then some op else o
        | _ => o) o' = some op → o' = none → tr'.foldl (fun o l => match l with
        | .call b op => if b = a then some op else o
        | _ => o) o = some op) := by
    intro tr'
    induction tr' with
    | nil => intro o o' op h e; rw [e] at h; cases h
    | cons l tr' ih =>
      intro o o' op h e
      simp only [List.foldl_cons] at h ⊢
      cases l
      case call b op' =>
        simp only at h ⊢
        by_cases hb : b = a
        · rw [if_pos hb] at h ⊢; exact h
        · rw [if_neg hb] at h ⊢; exact ih _ _ _ h e
      all_goals exact ih _ _ _ h e
  unfold lastCall at h ⊢
  rw [List.foldl_append]
  exact this tr' _ none op h rfl

theorem destroyed_phase {s s' : Pool α} {a : Agent} (h : Act s (.ret a .destroyed) s') : s'.phase = .destroyed := by
  generalize hlab : PoolLabel.ret a .destroyed = l at h
  cases h
  case stopAlready k _ _ => cases k <;> simp [stopLabel] at hlab
  case stopDone k _ _ _ => cases k <;> simp [stopLabel] at hlab
  case initDone r _ => cases r <;> simp at hlab
  case destroyed => rfl
  all_goals simp at hlab

/-- Everything that is known after the exception was caught. -/
theorem caught_run {i w : Nat} {tr0 tr : List (PoolLabel α)} {s s' : Pool α} (h : Run s tr s') (hi : Abandoned i w s) (hd : DoingInv tr0 s) :
    Abandoned i w s' ∧ DoingInv (tr0 ++ tr) s' ∧ (∀ a, lastCall tr a ≠ none → (s'.pcs a).late = false) ∧ ∀ a, .ret a .destroyed ∉ tr := by
  induction h with
  | nil => exact ⟨hi, by simpa using hd, fun a h => absurd rfl h, by simp⟩
  | snoc _ _ ha ih =>
    obtain ⟨g1, g2, g3, g4⟩ := ih
    have g1' := abandoned_step _ _ _ g1 ha
    refine ⟨g1', by rw [← List.append_assoc]; exact doing_step g2 ha, caughtLate_step g1 g3 ha, fun a hm => ?_⟩
    rcases List.mem_append.1 hm with hm | hm
    · exact g4 a hm
    · rw [List.mem_singleton] at hm
      exact g1'.phase (destroyed_phase (hm ▸ ha))

/-- C158 is false for a task that stops its own pool even if it catches the exception it gets.  The task of worker `w` has called
`Stop` (or `Resize`), nobody else has asked for the pool to be stopped, and the task catches what the call throws.
Whatever any thread does from then on, every new `AddTask` is refused, no new `Init` returns, and the pool is never
destroyed: a client that destroys it ends the program. -/
theorem C158_caught_refuted (tr : List (PoolLabel α)) (s s' : Pool α) (w : Nat) (h : Run {} tr s) (hl : s.phase = .live)
    (honly : ∀ a op, .call a op ∈ tr → CanStop op → a = .worker w) (hc : CaughtJoin w s s') (tr' : List (PoolLabel α)) (s'' : Pool α)
    (h' : Run s' tr' s'') :
    (∀ a, .ret a .destroyed ∉ tr') ∧
    (∀ a op r s₃, lastCall tr' a = some op → Act s'' (.ret a r) s₃ → (∀ t, op = .add t → r = .added (-2)) ∧ ∀ n, op ≠ .init n) ∧
    ∀ c, s''.phase = .live → s''.pcs (.client c) = .idle →
      ∃ s₃, Run s'' [.call (.client c) .destroy, .tau, .tau] s₃ ∧ s₃.phase = .terminated := by
  obtain ⟨hk, _, _, hd, _⟩ := task_run h
  obtain ⟨hpc, hth, hkd⟩ := hc
  rename_i k i
  have other : ∀ a, a ≠ .worker w → (∀ k, s.pcs a ≠ .stopSet k) ∧ (s.pcs a).stopping = false := by
    intro a ha
    by_cases hn : s.pcs a = .idle
    · rw [hn]; exact ⟨by simp, rfl⟩
    · obtain ⟨op, g1, g2⟩ := hd a hn
      have no : ¬ CanStop op := fun e => ha (honly a op (lastCall_mem g1) e)
      have key : ∀ k : AfterStop, (match k with | .ret => op = .stop | .resize n => op = .resize n | .destroy => op = .destroy) → False := by
        intro k hk
        cases k <;> (simp only at hk; subst hk; exact no trivial)
      cases hp : s.pcs a <;> rw [hp] at g2 <;> simp only [CPc.doing] at g2 <;>
        first
          | exact (key _ g2).elim
          | exact ⟨by simp, rfl⟩
  have hA : Abandoned i w (s.setPc (.worker w) .idle) := by
    have hcont : s.cont = false := stopping_cont h _ (by rw [hpc]; rfl)
    refine ⟨hcont, hth, fun a k => ?_, fun a => ?_, by rw [show (s.setPc (.worker w) .idle).phase = s.phase from rfl, hl]; simp⟩ <;>
      (simp only [setPc_pcs]; split)
    · simp
    · exact (other a ‹_›).1 k
    · rfl
    · exact (other a ‹_›).2
  have hD : DoingInv tr (s.setPc (.worker w) .idle) := by
    intro a ha
    simp only [setPc_pcs] at ha ⊢
    split at ha
    · exact absurd rfl ha
    · rw [if_neg ‹_›]; exact hd a ha
  obtain ⟨g1, g2, g3, g4⟩ := caught_run h' hA hD
  refine ⟨g4, fun a op r s₃ hlast ha => ?_, fun c hlive hidle => ?_⟩
  · have hlate := g3 a (by rw [hlast]; simp)
    have hop : s''.pcs a ≠ .idle → (s''.pcs a).doing op := by
      intro hn
      obtain ⟨op', e1, e2⟩ := g2 a hn
      rw [lastCall_later hlast] at e1
      cases e1
      exact e2
    obtain ⟨x, hx, hx'⟩ := g1.joinable
    have ans : ∀ c : CPc α, s''.pcs a = c → c ≠ .idle → (∀ t, c.doing (.add t) → r = .added (-2)) → (∀ n, ¬ c.doing (.init n)) →
        (∀ t, op = .add t → r = .added (-2)) ∧ ∀ n, op ≠ .init n := by
      intro c e hn k1 k2
      have := hop (by rw [e]; exact hn)
      rw [e] at this
      exact ⟨fun t e => k1 t (e ▸ this), fun n e => k2 n (e ▸ this)⟩
    generalize hlab : PoolLabel.ret a r = l at ha
    cases ha <;> first | (cases hlab; done) | skip
    case addRefused t hpc' _ => cases hlab; exact ans _ hpc' (by simp) (by simp) (by simp [CPc.doing])
    case addDone hpc' => cases hlab; rw [hpc'] at hlate; cases hlate
    case stopAlready k hpc' _ =>
      cases k <;> simp [stopLabel] at hlab
      obtain ⟨rfl, rfl⟩ := hlab
      exact ans _ hpc' (by simp) (by simp [CPc.doing]) (by simp [CPc.doing])
    case stopDone k j hpc' _ =>
      cases k <;> simp [stopLabel] at hlab
      obtain ⟨rfl, rfl⟩ := hlab
      exact ans _ hpc' (by simp) (by simp [CPc.doing]) (by simp [CPc.doing])
    case resizeSame n hpc' _ => cases hlab; exact ans _ hpc' (by simp) (by simp [CPc.doing]) (by simp [CPc.doing])
    case initDone q hpc' => cases hlab; rw [hpc'] at hlate; cases hlate
    case destroyed _ hf => rw [hf x hx] at hx'; cases hx'
    case numDone k hpc' => cases hlab; exact ans _ hpc' (by simp) (by simp [CPc.doing]) (by simp [CPc.doing])
  · refine ⟨_, .snoc (tr := [_, _]) (.snoc (tr := [_]) (.snoc (tr := []) (.nil _) hlive (.call hidle trivial)) hlive
      (.stopAlready (a := .client c) (k := .destroy) (if_pos rfl) g1.cont)) hlive (.destroyTerminates (a := .client c) (if_pos rfl) g1.joinable), rfl⟩

/-- The hypotheses are met: the only task of a pool with one thread stops the pool, catches the exception and returns; the client
destroys the pool, and the program ends. -/
example : ∃ (tr : List (PoolLabel Nat)) (s s' s₃ : Pool Nat), Run {} tr s ∧ s.phase = .live ∧
    (∀ a op, .call a op ∈ tr → CanStop op → a = .worker 0) ∧ CaughtJoin 0 s s' ∧
    Run s' [.call (.client 0) .destroy, .tau, .tau] s₃ ∧ s₃.phase = .terminated := by
  obtain ⟨s, tr, h, hv⟩ := cmd_obtain (cs := initCmd 1 ++ addCmd 7 ++ wk 0 6 ++ [.taskCall 0 .stop] ++ tk 0 3)
    (f := fun x => (x.1.phase, x.1.pcs (.worker 0), x.1.threads, decide (x.1.pcs (.client 0) = .idle) && x.2.all fun l => match l with
      | .call a op => decide (a = .worker 0) || decide (op = .init 1) || decide (op = .add 7)
      | _ => true))
    (v := (.live, .stopJoin .ret 0, [(0, true)], true)) (by decide +kernel)
  simp only [Prod.mk.injEq, Bool.and_eq_true, decide_eq_true_eq] at hv
  have honly : ∀ a op, .call a op ∈ tr → CanStop op → a = .worker 0 := by
    intro a op hm hs
    have := List.all_eq_true.1 hv.2.2.2.2 _ hm
    simp only [Bool.or_eq_true, decide_eq_true_eq] at this
    rcases this with (e | e) | e
    · exact e
    · subst e; cases hs
    · subst e; cases hs
  have hc : CaughtJoin 0 s (s.setPc (.worker 0) .idle) := .mk hv.2.1 (by rw [hv.2.2.1]; rfl) (by simp)
  obtain ⟨s₃, h1, h2⟩ := (C158_caught_refuted tr s _ 0 h hv.1 honly hc [] _ (.nil _)).2.2 0 hv.1 (by simp [hv.2.2.2.1])
  exact ⟨tr, s, _, s₃, h, hv.1, honly, hc, h1, h2⟩

end Cppnet
