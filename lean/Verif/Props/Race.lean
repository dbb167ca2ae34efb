import Verif.Props.Pool
import Verif.Spec.Race

/-!
# C134: the thread pool and data races
-/

namespace Cppnet
open Spec Pool
variable {α : Type}

/-- A location of `AddTask` or `GetBusyAndTaskNum`, or none. -/
def CPc.plain : CPc α → Bool
  | .idle | .addCheck _ | .addLock _ | .addPush _ | .addNotify | .addUnlock | .numLock | .numSize | .numBusy _ => true
  | _ => false

/-- A location of `Stop`. -/
def CPc.inStop : CPc α → Bool
  | .stopCheck .ret | .stopSet .ret | .stopNotify .ret | .stopJoin .ret _ => true
  | _ => false

attribute [local grind =] CPc.plain CPc.inStop entry afterStop mayCall
attribute [local grind cases] Agent PoolOp

theorem plain_step {ctl : Nat} {s : Pool α} {l} {s'} (hd : Disciplined ctl l) (hi : ∀ a, a ≠ .client ctl → (s.pcs a).plain = true)
    (h : Act s l s') : ∀ a, a ≠ .client ctl → (s'.pcs a).plain = true := by
  cases h
  case call a op hidle hmay =>
    intro b hb
    simp only [setPc_pcs]
    by_cases e : b = a
    · subst e
      rw [if_pos rfl]
      rcases hd _ _ rfl with ⟨t, rfl⟩ | rfl | h
      · rfl
      · rfl
      · exact absurd h hb
    · rw [if_neg e]; exact hi b hb
  case stopAlready a k hpc h =>
    cases k <;> intro b hb <;> simp only [setPc_pcs] <;> grind
  case stopDone a k i hpc h =>
    cases k <;> intro b hb <;> simp only [setPc_pcs] <;> grind
  all_goals
    intro b hb
    simp only [setPc_pcs, setW_pcs]
    grind

/-- Only the controlling thread is in a function other than `AddTask` and `GetBusyAndTaskNum`. -/
theorem plain_run {ctl : Nat} {s s' : Pool α} {tr} (h : Run s tr s') (hd : ∀ l ∈ tr, Disciplined ctl l)
    (h0 : ∀ a, a ≠ .client ctl → (s.pcs a).plain = true) : ∀ a, a ≠ .client ctl → (s'.pcs a).plain = true := by
  induction h with
  | nil => exact h0
  | snoc _ _ ha ih => exact plain_step (hd _ (by simp)) (ih (fun l hl => hd l (by simp [hl]))) ha

/-- While the pool is in use. -/
structure UseInv (ctl : Nat) (s : Pool α) : Prop where
  others : ∀ a, a ≠ .client ctl → (s.pcs a).plain = true
  ctl : (s.pcs (.client ctl)).plain = true ∨ (s.pcs (.client ctl)).inStop = true
  num : s.threadNum ≠ 0

theorem useInv_step {ctl : Nat} {s : Pool α} {l} {s'} (hd : InUse ctl l) (hi : UseInv ctl s) (h : Act s l s') : UseInv ctl s' := by
  have hd' : Disciplined ctl l := by
    intro a op e
    rcases hd a op e with h | h | h
    · exact .inl h
    · exact .inr (.inl h)
    · exact .inr (.inr h.1)
  refine ⟨plain_step hd' hi.others h, ?_, ?_⟩
  · obtain ⟨h1, h2, h3⟩ := hi
    cases h
    case call a op hidle hmay =>
      simp only [setPc_pcs]
      by_cases e : Agent.client ctl = a
      · rw [if_pos e]
        rcases hd _ _ rfl with ⟨t, rfl⟩ | rfl | ⟨_, rfl⟩
        · exact .inl rfl
        · exact .inl rfl
        · exact .inr rfl
      · rw [if_neg e]; exact h2
    case stopAlready a k hpc h =>
      cases k <;> simp only [setPc_pcs] <;> grind
    case stopDone a k i hpc h =>
      cases k <;> simp only [setPc_pcs] <;> grind
    case stopChecked a k hpc h => cases k <;> simp only [setPc_pcs] <;> grind
    case stopFlag a k hpc => cases k <;> simp only [setPc_pcs] <;> grind
    case stopNotified a k hpc => cases k <;> simp only [setPc_pcs] <;> grind
    case stopJoined a k i w hpc h h' => cases k <;> simp only [setPc_pcs] <;> grind
    all_goals
      simp only [setPc_pcs, setW_pcs]
      grind
  · obtain ⟨h1, h2, h3⟩ := hi
    have key : ∀ a, (s.pcs a).plain = true ∨ (s.pcs a).inStop = true := by
      intro a
      by_cases e : a = .client ctl
      · rw [e]; exact h2
      · exact .inl (h1 a e)
    cases h
    case resizeCleared a n hpc h => have := key a; rw [hpc] at this; simp [CPc.plain, CPc.inStop] at this
    case initCleared a r n hpc h => have := key a; rw [hpc] at this; simp [CPc.plain, CPc.inStop] at this
    all_goals exact h3

/-! ### The tables of accesses are right -/

/-- An agent inside a pool function accesses what the table says for its location. -/
theorem accesses_agent {s : Pool α} (hi : LockInv s) {a : Agent} {c : CPc α} (h : s.pcs a = c) (hc : c ≠ .idle) :
    s.accesses a = c.accesses s := by
  cases a with
  | client j => simp [Pool.accesses, h]
  | worker i =>
    obtain ⟨t, ht⟩ := hi.task i (by rw [h]; exact hc)
    simp [Pool.accesses, ht, h]


theorem blind_queue {s s' : Pool α} {l} (hi : LockInv s) (hv : ∀ a, .read .taskQue ∉ s.accesses a ∧ .write .taskQue ∉ s.accesses a)
    (h : Act s l s') (x : _) : ∃ t', Act { s with queue := x } l t' ∧ t' = { s' with queue := x } := by
  have no : ∀ (a : Agent) (c : CPc α), s.pcs a = c → c ≠ .idle → .read .taskQue ∉ c.accesses s ∧ .write .taskQue ∉ c.accesses s := by
    intro a c h1 h2
    have := hv a
    rwa [accesses_agent hi h1 h2] at this
  have now : ∀ (i : Nat) (w : WPc α), s.workers[i]? = some w → (∀ t, w ≠ .run t) → .read .taskQue ∉ w.accesses ∧ .write .taskQue ∉ w.accesses := by
    intro i w h1 h2
    have := hv (.worker i)
    simp only [Pool.accesses, h1] at this
    cases w <;> first | exact this | exact absurd rfl (h2 _)
  cases h
  case call => exact ⟨_, .call ‹_› ‹_›, rfl⟩
  case addRefused => exact ⟨_, .addRefused ‹_› ‹_›, rfl⟩
  case addChecked => exact ⟨_, .addChecked ‹_› ‹_› ‹_›, rfl⟩
  case addLocked => exact ⟨_, .addLocked ‹_› ‹_›, rfl⟩
  case addPushed =>
    have := no _ _ ‹_› (by simp)
    simp [CPc.accesses, *] at this
  case addNotified => exact ⟨_, .addNotified ‹_› ‹_›, rfl⟩
  case addNobody => exact ⟨_, .addNobody ‹_› ‹_›, rfl⟩
  case addDone => exact ⟨_, .addDone ‹_›, rfl⟩
  case stopAlready => exact ⟨_, .stopAlready ‹_› ‹_›, rfl⟩
  case stopChecked => exact ⟨_, .stopChecked ‹_› ‹_›, rfl⟩
  case stopFlag => exact ⟨_, .stopFlag ‹_›, rfl⟩
  case stopNotified => exact ⟨_, .stopNotified ‹_›, rfl⟩
  case stopJoined => exact ⟨_, .stopJoined ‹_› ‹_› ‹_›, rfl⟩
  case stopBadJoin => exact ⟨_, .stopBadJoin ‹_› ‹_›, rfl⟩
  case stopSelfJoin => exact ⟨_, .stopSelfJoin ‹_› ‹_›, rfl⟩
  case stopDone => exact ⟨_, .stopDone ‹_› ‹_›, rfl⟩
  case resizeSame => exact ⟨_, .resizeSame ‹_› ‹_›, rfl⟩
  case resizeStop => exact ⟨_, .resizeStop ‹_› ‹_› ‹_›, rfl⟩
  case resizeCleared => exact ⟨_, .resizeCleared ‹_› ‹_›, rfl⟩
  case resizeTerminates => exact ⟨_, .resizeTerminates ‹_› ‹_›, rfl⟩
  case initCleared => exact ⟨_, .initCleared ‹_› ‹_›, rfl⟩
  case initTerminates => exact ⟨_, .initTerminates ‹_› ‹_›, rfl⟩
  case initSpawned => exact ⟨_, .initSpawned ‹_›, rfl⟩
  case initDone => exact ⟨_, .initDone ‹_›, rfl⟩
  case destroyed =>
    have := no _ _ ‹_› (by simp)
    simp [CPc.accesses, *] at this
  case destroyTerminates =>
    have := no _ _ ‹_› (by simp)
    simp [CPc.accesses, *] at this
  case numLocked => exact ⟨_, .numLocked ‹_› ‹_›, rfl⟩
  case numSized =>
    have := no _ _ ‹_› (by simp)
    simp [CPc.accesses, *] at this
  case numDone => exact ⟨_, .numDone ‹_›, rfl⟩
  case wLocked => exact ⟨_, .wLocked ‹_› ‹_›, rfl⟩
  case wWait =>
    have := now _ _ ‹_› (by simp)
    simp [WPc.accesses] at this
  case wNoWait =>
    have := now _ _ ‹_› (by simp)
    simp [WPc.accesses] at this
  case wPredTrue =>
    have := now _ _ ‹_› (by simp)
    simp [WPc.accesses] at this
  case wPredFalse =>
    have := now _ _ ‹_› (by simp)
    simp [WPc.accesses] at this
  case wBlocked => exact ⟨_, .wBlocked ‹_›, rfl⟩
  case wSpurious => exact ⟨_, .wSpurious ‹_›, rfl⟩
  case wRelocked => exact ⟨_, .wRelocked ‹_› ‹_›, rfl⟩
  case wExit => exact ⟨_, .wExit ‹_› ‹_›, rfl⟩
  case wGoOn => exact ⟨_, .wGoOn ‹_› ‹_›, rfl⟩
  case wEmpty =>
    have := now _ _ ‹_› (by simp)
    simp [WPc.accesses] at this
  case wPop =>
    have := now _ _ ‹_› (by simp)
    simp [WPc.accesses] at this
  case wBusy => exact ⟨_, .wBusy ‹_›, rfl⟩
  case wStart => exact ⟨_, .wStart ‹_›, rfl⟩
  case wFinish => exact ⟨_, .wFinish ‹_› ‹_›, rfl⟩
  case wThrow => exact ⟨_, .wThrow ‹_› ‹_›, rfl⟩
  case wUnbusy => exact ⟨_, .wUnbusy ‹_›, rfl⟩

theorem blind_threadNum {s s' : Pool α} {l} (hi : LockInv s) (hv : ∀ a, .read .threadNum ∉ s.accesses a ∧ .write .threadNum ∉ s.accesses a)
    (h : Act s l s') (x : _) : ∃ t', Act { s with threadNum := x } l t' ∧ t' = { s' with threadNum := x } := by
  have no : ∀ (a : Agent) (c : CPc α), s.pcs a = c → c ≠ .idle → .read .threadNum ∉ c.accesses s ∧ .write .threadNum ∉ c.accesses s := by
    intro a c h1 h2
    have := hv a
    rwa [accesses_agent hi h1 h2] at this
  have now : ∀ (i : Nat) (w : WPc α), s.workers[i]? = some w → (∀ t, w ≠ .run t) → .read .threadNum ∉ w.accesses ∧ .write .threadNum ∉ w.accesses := by
    intro i w h1 h2
    have := hv (.worker i)
    simp only [Pool.accesses, h1] at this
    cases w <;> first | exact this | exact absurd rfl (h2 _)
  cases h
  case call => exact ⟨_, .call ‹_› ‹_›, rfl⟩
  case addRefused hpc h =>
    have := no _ _ hpc (by simp)
    by_cases hc : s.cont = false
    · exact ⟨_, .addRefused hpc (.inl hc), rfl⟩
    · simp [CPc.accesses, hc] at this
      split at this <;> simp at this
  case addChecked =>
    have := no _ _ ‹_› (by simp)
    simp [CPc.accesses, *] at this
  case addLocked => exact ⟨_, .addLocked ‹_› ‹_›, rfl⟩
  case addPushed => exact ⟨_, .addPushed ‹_›, rfl⟩
  case addNotified => exact ⟨_, .addNotified ‹_› ‹_›, rfl⟩
  case addNobody => exact ⟨_, .addNobody ‹_› ‹_›, rfl⟩
  case addDone => exact ⟨_, .addDone ‹_›, rfl⟩
  case stopAlready => exact ⟨_, .stopAlready ‹_› ‹_›, rfl⟩
  case stopChecked => exact ⟨_, .stopChecked ‹_› ‹_›, rfl⟩
  case stopFlag => exact ⟨_, .stopFlag ‹_›, rfl⟩
  case stopNotified => exact ⟨_, .stopNotified ‹_›, rfl⟩
  case stopJoined => exact ⟨_, .stopJoined ‹_› ‹_› ‹_›, rfl⟩
  case stopBadJoin => exact ⟨_, .stopBadJoin ‹_› ‹_›, rfl⟩
  case stopSelfJoin => exact ⟨_, .stopSelfJoin ‹_› ‹_›, rfl⟩
  case stopDone => exact ⟨_, .stopDone ‹_› ‹_›, rfl⟩
  case resizeSame =>
    have := no _ _ ‹_› (by simp)
    simp [CPc.accesses, *] at this
  case resizeStop =>
    have := no _ _ ‹_› (by simp)
    simp [CPc.accesses, *] at this
  case resizeCleared =>
    have := no _ _ ‹_› (by simp)
    simp [CPc.accesses, *] at this
  case resizeTerminates =>
    have := no _ _ ‹_› (by simp)
    simp [CPc.accesses, *] at this
  case initCleared =>
    have := no _ _ ‹_› (by simp)
    simp [CPc.accesses, *] at this
  case initTerminates =>
    have := no _ _ ‹_› (by simp)
    simp [CPc.accesses, *] at this
  case initSpawned => exact ⟨_, .initSpawned ‹_›, rfl⟩
  case initDone => exact ⟨_, .initDone ‹_›, rfl⟩
  case destroyed => exact ⟨_, .destroyed ‹_› ‹_›, rfl⟩
  case destroyTerminates => exact ⟨_, .destroyTerminates ‹_› ‹_›, rfl⟩
  case numLocked => exact ⟨_, .numLocked ‹_› ‹_›, rfl⟩
  case numSized => exact ⟨_, .numSized ‹_›, rfl⟩
  case numDone => exact ⟨_, .numDone ‹_›, rfl⟩
  case wLocked => exact ⟨_, .wLocked ‹_› ‹_›, rfl⟩
  case wWait => exact ⟨_, .wWait ‹_› ‹_› ‹_›, rfl⟩
  case wNoWait => exact ⟨_, .wNoWait ‹_› ‹_›, rfl⟩
  case wPredTrue => exact ⟨_, .wPredTrue ‹_› ‹_›, rfl⟩
  case wPredFalse => exact ⟨_, .wPredFalse ‹_› ‹_› ‹_›, rfl⟩
  case wBlocked => exact ⟨_, .wBlocked ‹_›, rfl⟩
  case wSpurious => exact ⟨_, .wSpurious ‹_›, rfl⟩
  case wRelocked => exact ⟨_, .wRelocked ‹_› ‹_›, rfl⟩
  case wExit => exact ⟨_, .wExit ‹_› ‹_›, rfl⟩
  case wGoOn => exact ⟨_, .wGoOn ‹_› ‹_›, rfl⟩
  case wEmpty => exact ⟨_, .wEmpty ‹_› ‹_›, rfl⟩
  case wPop => exact ⟨_, .wPop ‹_› ‹_›, rfl⟩
  case wBusy => exact ⟨_, .wBusy ‹_›, rfl⟩
  case wStart => exact ⟨_, .wStart ‹_›, rfl⟩
  case wFinish => exact ⟨_, .wFinish ‹_› ‹_›, rfl⟩
  case wThrow => exact ⟨_, .wThrow ‹_› ‹_›, rfl⟩
  case wUnbusy => exact ⟨_, .wUnbusy ‹_›, rfl⟩

theorem blind_threads {s s' : Pool α} {l} (hi : LockInv s) (hv : ∀ a, .read .threads ∉ s.accesses a ∧ .write .threads ∉ s.accesses a)
    (h : Act s l s') (x : _) : ∃ t', Act { s with threads := x } l t' ∧ t' = { s' with threads := x } := by
  have no : ∀ (a : Agent) (c : CPc α), s.pcs a = c → c ≠ .idle → .read .threads ∉ c.accesses s ∧ .write .threads ∉ c.accesses s := by
    intro a c h1 h2
    have := hv a
    rwa [accesses_agent hi h1 h2] at this
  have now : ∀ (i : Nat) (w : WPc α), s.workers[i]? = some w → (∀ t, w ≠ .run t) → .read .threads ∉ w.accesses ∧ .write .threads ∉ w.accesses := by
    intro i w h1 h2
    have := hv (.worker i)
    simp only [Pool.accesses, h1] at this
    cases w <;> first | exact this | exact absurd rfl (h2 _)
  cases h
  case call => exact ⟨_, .call ‹_› ‹_›, rfl⟩
  case addRefused => exact ⟨_, .addRefused ‹_› ‹_›, rfl⟩
  case addChecked => exact ⟨_, .addChecked ‹_› ‹_› ‹_›, rfl⟩
  case addLocked => exact ⟨_, .addLocked ‹_› ‹_›, rfl⟩
  case addPushed => exact ⟨_, .addPushed ‹_›, rfl⟩
  case addNotified => exact ⟨_, .addNotified ‹_› ‹_›, rfl⟩
  case addNobody => exact ⟨_, .addNobody ‹_› ‹_›, rfl⟩
  case addDone => exact ⟨_, .addDone ‹_›, rfl⟩
  case stopAlready => exact ⟨_, .stopAlready ‹_› ‹_›, rfl⟩
  case stopChecked => exact ⟨_, .stopChecked ‹_› ‹_›, rfl⟩
  case stopFlag => exact ⟨_, .stopFlag ‹_›, rfl⟩
  case stopNotified => exact ⟨_, .stopNotified ‹_›, rfl⟩
  case stopJoined =>
    have := no _ _ ‹_› (by simp)
    simp only [CPc.accesses] at this
    split at this <;> simp at this
  case stopBadJoin =>
    have := no _ _ ‹_› (by simp)
    simp only [CPc.accesses] at this
    split at this <;> simp at this
  case stopSelfJoin =>
    have := no _ _ ‹_› (by simp)
    simp only [CPc.accesses] at this
    split at this <;> simp at this
  case stopDone =>
    have := no _ _ ‹_› (by simp)
    simp only [CPc.accesses] at this
    split at this <;> simp at this
  case resizeSame => exact ⟨_, .resizeSame ‹_› ‹_›, rfl⟩
  case resizeStop => exact ⟨_, .resizeStop ‹_› ‹_› ‹_›, rfl⟩
  case resizeCleared =>
    have := no _ _ ‹_› (by simp)
    simp [CPc.accesses, *] at this
  case resizeTerminates =>
    have := no _ _ ‹_› (by simp)
    simp [CPc.accesses, *] at this
  case initCleared =>
    have := no _ _ ‹_› (by simp)
    simp [CPc.accesses, *] at this
  case initTerminates =>
    have := no _ _ ‹_› (by simp)
    simp [CPc.accesses, *] at this
  case initSpawned =>
    have := no _ _ ‹_› (by simp)
    simp [CPc.accesses, *] at this
  case initDone => exact ⟨_, .initDone ‹_›, rfl⟩
  case destroyed =>
    have := no _ _ ‹_› (by simp)
    simp [CPc.accesses, *] at this
  case destroyTerminates =>
    have := no _ _ ‹_› (by simp)
    simp [CPc.accesses, *] at this
  case numLocked => exact ⟨_, .numLocked ‹_› ‹_›, rfl⟩
  case numSized => exact ⟨_, .numSized ‹_›, rfl⟩
  case numDone => exact ⟨_, .numDone ‹_›, rfl⟩
  case wLocked => exact ⟨_, .wLocked ‹_› ‹_›, rfl⟩
  case wWait => exact ⟨_, .wWait ‹_› ‹_› ‹_›, rfl⟩
  case wNoWait => exact ⟨_, .wNoWait ‹_› ‹_›, rfl⟩
  case wPredTrue => exact ⟨_, .wPredTrue ‹_› ‹_›, rfl⟩
  case wPredFalse => exact ⟨_, .wPredFalse ‹_› ‹_› ‹_›, rfl⟩
  case wBlocked => exact ⟨_, .wBlocked ‹_›, rfl⟩
  case wSpurious => exact ⟨_, .wSpurious ‹_›, rfl⟩
  case wRelocked => exact ⟨_, .wRelocked ‹_› ‹_›, rfl⟩
  case wExit => exact ⟨_, .wExit ‹_› ‹_›, rfl⟩
  case wGoOn => exact ⟨_, .wGoOn ‹_› ‹_›, rfl⟩
  case wEmpty => exact ⟨_, .wEmpty ‹_› ‹_›, rfl⟩
  case wPop => exact ⟨_, .wPop ‹_› ‹_›, rfl⟩
  case wBusy => exact ⟨_, .wBusy ‹_›, rfl⟩
  case wStart => exact ⟨_, .wStart ‹_›, rfl⟩
  case wFinish => exact ⟨_, .wFinish ‹_› ‹_›, rfl⟩
  case wThrow => exact ⟨_, .wThrow ‹_› ‹_›, rfl⟩
  case wUnbusy => exact ⟨_, .wUnbusy ‹_›, rfl⟩

/-- **C134**: what the threads are said to access is what the pool's actions depend on.  An action changes a plain member
only if some thread is said to write it; and what happens next does not depend on a member that no thread is said to
access. -/
theorem C134_accesses (s s' : Pool α) (hs : Reachable s) (l : PoolLabel α) (h : Act s l s') (v : PoolVar) :
    ((∀ a, .write v ∉ s.accesses a) → SameAt v s s') ∧
    ((∀ a, .read v ∉ s.accesses a ∧ .write v ∉ s.accesses a) → ∀ t, SameBut v s t →
      ∃ t', Act t l t' ∧ SameBut v s' t' ∧ SameAt v t t') := by
  obtain ⟨tr, hr⟩ := hs
  have hi : LockInv s := pool_run_inv (P := LockInv) (fun s l s' _ hi ha => lockInv_step s l s' hi ha) hr lockInv_init
  refine ⟨fun hv => ?_, fun hv t ht => ?_⟩
  · have no : ∀ (a : Agent) (c : CPc α), s.pcs a = c → c ≠ .idle → .write v ∉ c.accesses s := by
      intro a c h1 h2
      have := hv a
      rwa [accesses_agent hi h1 h2] at this
    have now : ∀ (i : Nat), s.workers[i]? = some .size → v ≠ .taskQue := by
      intro i h1 e
      have := hv (.worker i)
      simp [Pool.accesses, h1, WPc.accesses, e] at this
    cases v with
    | errMsg => trivial
    | taskQue =>
      cases h <;> first | rfl | skip
      case addPushed hpc => exact absurd (by simp [CPc.accesses]) (no _ _ hpc (by simp))
      case wPop hpc h => exact absurd rfl (now _ hpc)
    | threadNum =>
      cases h <;> first | rfl | skip
      case resizeCleared hpc h => exact absurd (by simp [CPc.accesses]) (no _ _ hpc (by simp))
      case initCleared hpc h => exact absurd (by simp [CPc.accesses]) (no _ _ hpc (by simp))
    | threads =>
      cases h <;> first | rfl | skip
      case stopJoined hpc h h' =>
        have hlt := (List.getElem?_eq_some_iff.1 h).1
        exact absurd (by simp [CPc.accesses, hlt]) (no _ _ hpc (by simp))
      case resizeCleared hpc h => exact absurd (by simp [CPc.accesses]) (no _ _ hpc (by simp))
      case initCleared hpc h => exact absurd (by simp [CPc.accesses]) (no _ _ hpc (by simp))
      case initSpawned hpc => exact absurd (by simp [CPc.accesses]) (no _ _ hpc (by simp))
  · cases v with
    | errMsg => cases ht; exact ⟨s', h, rfl, trivial⟩
    | taskQue =>
      obtain ⟨t', h1, h2⟩ := blind_queue hi hv h t.queue
      refine ⟨t', by rw [show t = _ from ht]; exact h1, by rw [h2]; rfl, by rw [h2]; rfl⟩
    | threadNum =>
      obtain ⟨t', h1, h2⟩ := blind_threadNum hi hv h t.threadNum
      refine ⟨t', by rw [show t = _ from ht]; exact h1, by rw [h2]; rfl, by rw [h2]; rfl⟩
    | threads =>
      obtain ⟨t', h1, h2⟩ := blind_threads hi hv h t.threads
      refine ⟨t', by rw [show t = _ from ht]; exact h1, by rw [h2]; rfl, by rw [h2]; rfl⟩

/-- Hypotheses met: nobody accesses the queue of a new pool when `Init` is called on it, so the call does the same whatever is
in the queue; but the number of threads, which it is about to write, it does access. -/
example : (∀ a, .read .taskQue ∉ ({} : Pool Nat).accesses a ∧ .write .taskQue ∉ ({} : Pool Nat).accesses a) ∧
    Act ({} : Pool Nat) (.call (.client 0) (.init 1)) (Pool.setPc {} (.client 0) (.initClear false 1)) ∧
    .write .threadNum ∈ (Pool.setPc ({} : Pool Nat) (.client 0) (.initClear false 1)).accesses (.client 0) :=
  ⟨fun a => by cases a <;> simp [Pool.accesses, CPc.accesses], .call rfl trivial, by decide +kernel⟩

/-- Who touches the queue holds the mutex, unless the pool is being destroyed. -/
theorem queue_locked {s : Pool α} (hi : LockInv s) {a : Agent} (hm : s.pcs a ≠ .members)
    (h : .write .taskQue ∈ s.accesses a ∨ .read .taskQue ∈ s.accesses a) : s.lock = some a := by
  have agent : (.write .taskQue ∈ (s.pcs a).accesses s ∨ .read .taskQue ∈ (s.pcs a).accesses s) → s.lock = some a := by
    intro h
    apply hi.agent
    cases hp : s.pcs a with
    | addCheck t =>
      rw [hp] at h
      simp only [CPc.accesses] at h
      split at h
      · simp at h
      · split at h <;> simp at h
    | members => exact absurd hp hm
    | stopJoin k i =>
      rw [hp] at h
      simp only [CPc.accesses] at h
      split at h <;> simp at h
    | initSpawn r n => rw [hp] at h; cases n <;> simp [CPc.accesses] at h
    | _ => rw [hp] at h; first | rfl | (simp [CPc.accesses] at h)
  cases a with
  | client j => exact agent h
  | worker i =>
    simp only [Pool.accesses] at h
    cases hw : s.workers[i]? with
    | none => rw [hw] at h; simp at h
    | some w =>
      rw [hw] at h
      cases w with
      | run t => exact agent h
      | _ => first | (simp [WPc.accesses] at h; done) | exact hi.worker i _ hw rfl

/-- C134, what holds of the queue: however the pool is used, by any number of threads, as long as nobody is destroying it no
two threads race for the task queue. -/
theorem C134_queue_partial (s : Pool α) (h : Reachable s) (hm : ∀ a, s.pcs a ≠ .members) : ¬ Race s .taskQue := by
  obtain ⟨tr, hr⟩ := h
  have hi : LockInv s := pool_run_inv (P := LockInv) (fun s l s' _ hi ha => lockInv_step s l s' hi ha) hr lockInv_init
  rintro ⟨a, b, hne, h1, h2⟩
  have e1 := queue_locked hi (hm a) (.inl h1)
  have e2 := queue_locked hi (hm b) h2
  rw [e1] at e2
  exact hne (Option.some.inj e2)

/-- A location of `AddTask` or `GetBusyAndTaskNum` does not touch the thread objects. -/
theorem plain_threads {s : Pool α} {a : Agent} (h : (s.pcs a).plain = true) :
    .write .threads ∉ s.accesses a ∧ .read .threads ∉ s.accesses a := by
  have agent : .write .threads ∉ (s.pcs a).accesses s ∧ .read .threads ∉ (s.pcs a).accesses s := by
    cases hp : s.pcs a with
    | addCheck t =>
      simp only [CPc.accesses]
      split
      · simp
      · split <;> simp
    | _ => rw [hp] at h; first | (simp [CPc.plain] at h; done) | simp [CPc.accesses]
  cases a with
  | client j => exact agent
  | worker i =>
    simp only [Pool.accesses]
    cases hw : s.workers[i]? with
    | none => simp
    | some w =>
      cases w with
      | run t => exact agent
      | _ => simp [WPc.accesses]

/-- C134, what holds of the thread objects: as long as one thread makes all calls but `AddTask` and `GetBusyAndTaskNum`, no two
threads race for them. -/
theorem C134_threads_partial (ctl : Nat) (s : Pool α) (tr : List (PoolLabel α)) (h : Run {} tr s)
    (hd : ∀ l ∈ tr, Disciplined ctl l) : ¬ Race s .threads := by
  have hp := plain_run h hd (fun _ _ => rfl)
  rintro ⟨a, b, hne, h1, h2⟩
  by_cases ea : a = .client ctl
  · have eb : b ≠ .client ctl := fun e => hne (ea.trans e.symm)
    have := plain_threads (hp b eb)
    rcases h2 with h2 | h2
    · exact this.1 h2
    · exact this.2 h2
  · exact (plain_threads (hp a ea)).1 h1

/-- C134, what holds while the pool is in use: a pool that has been set up with at least one thread (nobody is in a call; how it
came to this does not matter), then `AddTask` and `GetBusyAndTaskNum` from any threads and tasks and `Stop` from one thread,
in any interleaving: no two threads race for anything until `Stop` has cleared the flag; and after that at most for the error
text. -/
theorem C134_in_use_partial (ctl : Nat) (s₀ s : Pool α) (tr : List (PoolLabel α)) (h₀ : Reachable s₀)
    (hidle : ∀ a, s₀.pcs a = .idle) (hn : s₀.threadNum ≠ 0) (h : Run s₀ tr s) (hd : ∀ l ∈ tr, InUse ctl l) :
    (∀ v, v ≠ .errMsg → ¬ Race s v) ∧ (s.cont = true → ∀ v, ¬ Race s v) := by
  obtain ⟨tr₀, hr₀⟩ := h₀
  have hl0 : LockInv s₀ := pool_run_inv (P := LockInv) (fun s l s' _ hi ha => lockInv_step s l s' hi ha) hr₀ lockInv_init
  have hl : LockInv s := pool_run_inv (P := LockInv) (fun s l s' _ hi ha => lockInv_step s l s' hi ha) h hl0
  have hu : UseInv ctl s := by
    clear hl hl0 hr₀
    induction h with
    | nil => exact ⟨fun a _ => by rw [hidle]; rfl, .inl (by rw [hidle]; rfl), hn⟩
    | snoc _ _ ha ih => exact useInv_step (hd _ (by simp)) (ih (fun l hl => hd l (by simp [hl]))) ha
  have hloc : ∀ a, (s.pcs a).plain = true ∨ (s.pcs a).inStop = true := by
    intro a
    by_cases e : a = .client ctl
    · rw [e]; exact hu.ctl
    · exact .inl (hu.others a e)
  have hmem : ∀ a, s.pcs a ≠ .members := by
    intro a e
    have := hloc a
    rw [e] at this
    simp [CPc.plain, CPc.inStop] at this
  have hqueue : ¬ Race s .taskQue := by
    rintro ⟨a, b, hne, h1, h2⟩
    have e1 := queue_locked hl (hmem a) (.inl h1)
    have e2 := queue_locked hl (hmem b) h2
    rw [e1] at e2
    exact hne (Option.some.inj e2)
  have hthreads : ¬ Race s .threads := by
    rintro ⟨a, b, hne, h1, h2⟩
    by_cases ea : a = .client ctl
    · have eb : b ≠ .client ctl := fun e => hne (ea.trans e.symm)
      have := plain_threads (hu.others b eb)
      rcases h2 with h2 | h2
      · exact this.1 h2
      · exact this.2 h2
    · exact (plain_threads (hu.others a ea)).1 h1
  have writes : ∀ a v, .write v ∈ (s.pcs a).accesses s → v = .taskQue ∨ v = .threads ∨ (v = .errMsg ∧ s.cont = false) := by
    intro a v hv
    have hla := hloc a
    cases hp : s.pcs a with
    | addCheck t =>
      rw [hp] at hv
      simp only [CPc.accesses] at hv
      split at hv
      · rename_i hc
        simp only [List.mem_cons, Access.write.injEq, List.not_mem_nil, or_false] at hv
        exact .inr (.inr ⟨hv, hc⟩)
      · rw [if_neg hu.num] at hv; simp at hv
    | addPush t => rw [hp] at hv; simp [CPc.accesses] at hv; exact .inl hv
    | stopJoin k i =>
      rw [hp] at hv
      simp only [CPc.accesses] at hv
      split at hv <;> simp at hv
      exact .inr (.inl hv)
    | initSpawn r n => rw [hp] at hla; simp [CPc.plain, CPc.inStop] at hla
    | _ =>
      rw [hp] at hv hla
      first
        | (simp [CPc.accesses] at hv; done)
        | (simp [CPc.plain, CPc.inStop] at hla; done)
  have writes' : ∀ a v, .write v ∈ s.accesses a → v = .taskQue ∨ v = .threads ∨ (v = .errMsg ∧ s.cont = false) := by
    intro a v hv
    cases a with
    | client j => exact writes _ v hv
    | worker i =>
      simp only [Pool.accesses] at hv
      cases hw : s.workers[i]? with
      | none => rw [hw] at hv; simp at hv
      | some w =>
        rw [hw] at hv
        cases w with
        | run t => exact writes _ v hv
        | size => simp [WPc.accesses] at hv; exact .inl hv
        | _ => simp [WPc.accesses] at hv
  refine ⟨fun v hv hr => ?_, fun hc v hr => ?_⟩
  · obtain ⟨a, b, hne, h1, h2⟩ := id hr
    rcases writes' a v h1 with rfl | rfl | ⟨e, _⟩
    · exact hqueue hr
    · exact hthreads hr
    · exact hv e
  · obtain ⟨a, b, hne, h1, h2⟩ := id hr
    rcases writes' a v h1 with rfl | rfl | ⟨_, e⟩
    · exact hqueue hr
    · exact hthreads hr
    · rw [hc] at e; cases e

/-- Two calls begun in an idle state. -/
theorem two_calls (s : Pool α) (i j : Nat) (hij : i ≠ j) (op op' : PoolOp α) (hl : s.phase = .live)
    (hi : s.pcs (.client i) = .idle) (hj : s.pcs (.client j) = .idle) :
    ∃ s', Run s [.call (.client i) op, .call (.client j) op'] s' ∧ s' = (s.setPc (.client i) (entry op)).setPc (.client j) (entry op') := by
  refine ⟨_, ?_, rfl⟩
  have h1 : Run s [.call (.client i) op] (s.setPc (.client i) (entry op)) := .snoc (tr := []) (.nil s) hl (.call hi trivial)
  exact .snoc (tr := [.call (.client i) op]) h1 hl (.call (by
    have : ¬ (Agent.client j = Agent.client i) := fun e => hij (Agent.client.inj e).symm
    simp [this, hj]) trivial)

/-- C134 is false for every pool that is stopped or not set up: two threads that call `AddTask` at the same time both write the
error text. -/
theorem C134_refused_refuted (s : Pool α) (i j : Nat) (hij : i ≠ j) (t t' : α) (hl : s.phase = .live)
    (hs : s.cont = false ∨ s.threadNum = 0) (hi : s.pcs (.client i) = .idle) (hj : s.pcs (.client j) = .idle) :
    ∃ s', Run s [.call (.client i) (.add t), .call (.client j) (.add t')] s' ∧ Race s' .errMsg := by
  obtain ⟨s', h1, h2⟩ := two_calls s i j hij (.add t) (.add t') hl hi hj
  have hne : Agent.client i ≠ Agent.client j := fun e => hij (Agent.client.inj e)
  have key : .write .errMsg ∈ (CPc.addCheck t).accesses s' ∧ .write .errMsg ∈ (CPc.addCheck t').accesses s' := by
    have e1 : s'.cont = s.cont := by rw [h2]; rfl
    have e2 : s'.threadNum = s.threadNum := by rw [h2]; rfl
    simp only [CPc.accesses, e1, e2]
    rcases hs with h | h
    · simp [h]
    · by_cases hc : s.cont = false <;> simp [h, hc]
  refine ⟨s', h1, .client i, .client j, hne, ?_, .inl ?_⟩
  · have : s'.pcs (.client i) = .addCheck t := by rw [h2]; simp [hne, entry]
    simp only [Pool.accesses, this]
    exact key.1
  · have : s'.pcs (.client j) = .addCheck t' := by rw [h2]; simp [entry]
    simp only [Pool.accesses, this]
    exact key.2

/-- C134 is false for every running pool: `AddTask` in one thread and `Init` in another race for the number of threads. -/
theorem C134_init_refuted (s : Pool α) (i j : Nat) (hij : i ≠ j) (n : Nat) (t : α) (hl : s.phase = .live) (hc : s.cont = true)
    (hi : s.pcs (.client i) = .idle) (hj : s.pcs (.client j) = .idle) :
    ∃ s', Run s [.call (.client i) (.init n), .call (.client j) (.add t)] s' ∧ Race s' .threadNum := by
  obtain ⟨s', h1, h2⟩ := two_calls s i j hij (.init n) (.add t) hl hi hj
  have hne : Agent.client i ≠ Agent.client j := fun e => hij (Agent.client.inj e)
  refine ⟨s', h1, .client i, .client j, hne, ?_, .inr ?_⟩
  · have : s'.pcs (.client i) = .initClear false n := by rw [h2]; simp [hne, entry]
    simp [Pool.accesses, this, CPc.accesses]
  · have : s'.pcs (.client j) = .addCheck t := by rw [h2]; simp [entry]
    have e1 : s'.cont = true := by rw [h2]; exact hc
    simp only [Pool.accesses, this, CPc.accesses, e1]
    by_cases h0 : s'.threadNum = 0 <;> simp [h0]

/-- C134 is false for every running pool: two threads that call `Stop` at the same time can both join the same thread. -/
theorem C134_two_stops_refuted (s : Pool α) (i j : Nat) (hij : i ≠ j) (hl : s.phase = .live) (hc : s.cont = true)
    (ht : s.threads ≠ []) (hi : s.pcs (.client i) = .idle) (hj : s.pcs (.client j) = .idle) :
    ∃ s', Run s [.call (.client i) .stop, .call (.client j) .stop, .tau, .tau, .tau, .tau, .tau, .tau] s' ∧ Race s' .threads := by
  obtain ⟨s₁, h1, h2⟩ := two_calls s i j hij .stop .stop hl hi hj
  have hne : Agent.client i ≠ Agent.client j := fun e => hij (Agent.client.inj e)
  have hne' : Agent.client j ≠ Agent.client i := hne.symm
  have f1 : s₁.phase = .live ∧ s₁.cont = true ∧ s₁.threads = s.threads ∧ s₁.pcs (.client i) = .stopCheck .ret ∧
      s₁.pcs (.client j) = .stopCheck .ret := by
    subst h2; exact ⟨hl, hc, rfl, by simp [hne, entry], by simp [entry]⟩
  clear h2
  obtain ⟨s₂, h2, f2⟩ : ∃ x, Act s₁ .tau x ∧ x.phase = .live ∧ x.cont = true ∧ x.threads = s.threads ∧
      x.pcs (.client i) = .stopSet .ret ∧ x.pcs (.client j) = .stopCheck .ret :=
    ⟨_, .stopChecked f1.2.2.2.1 f1.2.1, f1.1, f1.2.1, f1.2.2.1, by simp, by simp [hne', f1.2.2.2.2]⟩
  obtain ⟨s₃, h3, f3⟩ : ∃ x, Act s₂ .tau x ∧ x.phase = .live ∧ x.threads = s.threads ∧
      x.pcs (.client i) = .stopSet .ret ∧ x.pcs (.client j) = .stopSet .ret :=
    ⟨_, .stopChecked f2.2.2.2.2 f2.2.1, f2.1, f2.2.2.1, by simp [hne, f2.2.2.2.1], by simp⟩
  obtain ⟨s₄, h4, f4⟩ : ∃ x, Act s₃ .tau x ∧ x.phase = .live ∧ x.threads = s.threads ∧
      x.pcs (.client i) = .stopNotify .ret ∧ x.pcs (.client j) = .stopSet .ret :=
    ⟨_, .stopFlag f3.2.2.1, f3.1, f3.2.1, by simp, by simp [hne', f3.2.2.2]⟩
  obtain ⟨s₅, h5, f5⟩ : ∃ x, Act s₄ .tau x ∧ x.phase = .live ∧ x.threads = s.threads ∧
      x.pcs (.client i) = .stopNotify .ret ∧ x.pcs (.client j) = .stopNotify .ret :=
    ⟨_, .stopFlag f4.2.2.2, f4.1, f4.2.1, by simp [hne, f4.2.2.1], by simp⟩
  obtain ⟨s₆, h6, f6⟩ : ∃ x, Act s₅ .tau x ∧ x.phase = .live ∧ x.threads = s.threads ∧
      x.pcs (.client i) = .stopJoin .ret 0 ∧ x.pcs (.client j) = .stopNotify .ret :=
    ⟨_, .stopNotified f5.2.2.1, f5.1, f5.2.1, by simp, by simp [hne', f5.2.2.2]⟩
  obtain ⟨s₇, h7, f7⟩ : ∃ x, Act s₆ .tau x ∧ x.phase = .live ∧ x.threads = s.threads ∧
      x.pcs (.client i) = .stopJoin .ret 0 ∧ x.pcs (.client j) = .stopJoin .ret 0 :=
    ⟨_, .stopNotified f6.2.2.2, f6.1, f6.2.1, by simp [hne, f6.2.2.1], by simp⟩
  refine ⟨s₇, .snoc (.snoc (.snoc (.snoc (.snoc (.snoc h1 f1.1 h2) f2.1 h3) f3.1 h4) f4.1 h5) f5.1 h6) f6.1 h7,
    .client i, .client j, hne, ?_, .inl ?_⟩
  all_goals
    have hlen : 0 < s.threads.length := List.length_pos_iff.2 ht
    simp [Pool.accesses, CPc.accesses, f7.2.2.1, f7.2.2.2, f7.2.1, hlen]

/-- A pool that was set up with a thread and is idle: the hypotheses above are met. -/
example : ∃ (s : Pool Nat), Reachable s ∧ s.phase = .live ∧ s.cont = true ∧ s.threads ≠ [] ∧ s.threadNum ≠ 0 ∧
    ∀ a, s.pcs a = .idle := by
  have h0 : Run ({} : Pool Nat) [.call (.client 0) (.init 1)] _ := .snoc (tr := []) (.nil _) rfl (.call rfl trivial)
  have h1 := Run.snoc h0 rfl (.initCleared (a := .client 0) (r := false) (n := 1) rfl (by simp))
  have h2 := Run.snoc h1 rfl (.initSpawned (a := .client 0) (r := false) (n := 0) rfl)
  have h3 := Run.snoc h2 rfl (.initDone (a := .client 0) (r := false) rfl)
  refine ⟨_, ⟨_, h3⟩, rfl, rfl, ?_, ?_, ?_⟩
  · simp
  · simp
  · intro a
    simp only [setPc_pcs]
    by_cases e : a = .client 0 <;> simp [e]

end Cppnet
