import Verif.Spec.Pool

/-! # Invariants of the thread pool -/

namespace Cppnet
open Spec Pool
variable {α : Type}

/-- The worker holds the mutex. -/
def WPc.holds : WPc α → Bool
  | .check | .pred | .block | .cont | .size => true
  | _ => false

/-- The agent holds the mutex. -/
def CPc.holds : CPc α → Bool
  | .addPush _ | .addNotify | .addUnlock | .numSize | .numBusy _ => true
  | _ => false

@[simp] theorem setPc_pcs (s : Pool α) (a b : Agent) (c : CPc α) : (s.setPc a c).pcs b = if b = a then c else s.pcs b := rfl
@[simp] theorem setPc_lock (s : Pool α) (a : Agent) (c : CPc α) : (s.setPc a c).lock = s.lock := rfl
@[simp] theorem setPc_workers (s : Pool α) (a : Agent) (c : CPc α) : (s.setPc a c).workers = s.workers := rfl
@[simp] theorem setPc_queue (s : Pool α) (a : Agent) (c : CPc α) : (s.setPc a c).queue = s.queue := rfl
@[simp] theorem setPc_cont (s : Pool α) (a : Agent) (c : CPc α) : (s.setPc a c).cont = s.cont := rfl
@[simp] theorem setPc_busy (s : Pool α) (a : Agent) (c : CPc α) : (s.setPc a c).busy = s.busy := rfl
@[simp] theorem setPc_threads (s : Pool α) (a : Agent) (c : CPc α) : (s.setPc a c).threads = s.threads := rfl
@[simp] theorem setPc_threadNum (s : Pool α) (a : Agent) (c : CPc α) : (s.setPc a c).threadNum = s.threadNum := rfl
@[simp] theorem setPc_phase (s : Pool α) (a : Agent) (c : CPc α) : (s.setPc a c).phase = s.phase := rfl
@[simp] theorem setPc_accepted (s : Pool α) (a : Agent) (c : CPc α) : (s.setPc a c).accepted = s.accepted := rfl
@[simp] theorem setPc_popped (s : Pool α) (a : Agent) (c : CPc α) : (s.setPc a c).popped = s.popped := rfl
@[simp] theorem setPc_started (s : Pool α) (a : Agent) (c : CPc α) : (s.setPc a c).started = s.started := rfl
@[simp] theorem setPc_finished (s : Pool α) (a : Agent) (c : CPc α) : (s.setPc a c).finished = s.finished := rfl
@[simp] theorem setW_pcs (s : Pool α) (i : Nat) (w : WPc α) : (s.setW i w).pcs = s.pcs := rfl
@[simp] theorem setW_lock (s : Pool α) (i : Nat) (w : WPc α) : (s.setW i w).lock = s.lock := rfl
@[simp] theorem setW_workers (s : Pool α) (i : Nat) (w : WPc α) : (s.setW i w).workers = s.workers.set i w := rfl
@[simp] theorem setW_queue (s : Pool α) (i : Nat) (w : WPc α) : (s.setW i w).queue = s.queue := rfl
@[simp] theorem setW_cont (s : Pool α) (i : Nat) (w : WPc α) : (s.setW i w).cont = s.cont := rfl
@[simp] theorem setW_busy (s : Pool α) (i : Nat) (w : WPc α) : (s.setW i w).busy = s.busy := rfl
@[simp] theorem setW_threads (s : Pool α) (i : Nat) (w : WPc α) : (s.setW i w).threads = s.threads := rfl
@[simp] theorem setW_threadNum (s : Pool α) (i : Nat) (w : WPc α) : (s.setW i w).threadNum = s.threadNum := rfl
@[simp] theorem setW_phase (s : Pool α) (i : Nat) (w : WPc α) : (s.setW i w).phase = s.phase := rfl
@[simp] theorem setW_accepted (s : Pool α) (i : Nat) (w : WPc α) : (s.setW i w).accepted = s.accepted := rfl
@[simp] theorem setW_popped (s : Pool α) (i : Nat) (w : WPc α) : (s.setW i w).popped = s.popped := rfl
@[simp] theorem setW_started (s : Pool α) (i : Nat) (w : WPc α) : (s.setW i w).started = s.started := rfl
@[simp] theorem setW_finished (s : Pool α) (i : Nat) (w : WPc α) : (s.setW i w).finished = s.finished := rfl

theorem pool_run_inv {P : Pool α → Prop} (hstep : ∀ s l s', s.phase = .live → P s → Act s l s' → P s') {s tr s'} (h : Run s tr s')
    (h0 : P s) : P s' := by
  induction h with
  | nil => exact h0
  | snoc _ hl ha ih => exact hstep _ _ _ hl ih ha

/-- The mutex is held by exactly the thread that is in a critical section. -/
structure LockInv (s : Pool α) : Prop where
  worker : ∀ i w, s.workers[i]? = some w → w.holds = true → s.lock = some (.worker i)
  agent : ∀ a, (s.pcs a).holds = true → s.lock = some a
  task : ∀ i, s.pcs (.worker i) ≠ .idle → ∃ t, s.workers[i]? = some (WPc.run t)
  holder : ∀ a, s.lock = some a → (s.pcs a).holds = true ∨ ∃ i w, a = .worker i ∧ s.workers[i]? = some w ∧ w.holds = true
  empty : ∀ i : Nat, s.workers[i]? = some WPc.block → s.queue = []

theorem getElem?_notify (ws : List (WPc α)) (i : Nat) (w : WPc α) :
    (ws.map WPc.notify)[i]? = some w ↔ ∃ w', ws[i]? = some w' ∧ w = w'.notify := by
  rw [List.getElem?_map, Option.map_eq_some_iff]
  constructor <;> rintro ⟨x, h1, h2⟩ <;> exact ⟨x, h1, h2.symm⟩

theorem notify_holds (w : WPc α) : w.notify.holds = w.holds := by cases w <;> rfl
theorem notify_eq_run (w : WPc α) (t : α) : w.notify = .run t ↔ w = .run t := by cases w <;> simp [WPc.notify]
theorem notify_eq_block (w : WPc α) : w.notify = .block ↔ w = .block := by cases w <;> simp [WPc.notify]

attribute [local grind =] List.getElem?_set List.getElem?_append WPc.holds CPc.holds WPc.notify entry afterStop mayCall
attribute [local grind cases] Agent PoolOp

theorem lockInv_step (s : Pool α) (l) (s') (hi : LockInv s) (h : Act s l s') : LockInv s' := by
  obtain ⟨h1, h2, h3, h4, h5⟩ := hi
  cases h
  case call a op hidle hmay =>
    constructor <;> simp only [setPc_pcs, setPc_lock, setPc_workers, setPc_queue]
    all_goals grind
  case stopNotified a k hpc =>
    constructor <;> simp only [setPc_pcs, setPc_lock, setPc_workers, setPc_queue, getElem?_notify]
    · rintro i w ⟨w', e1, rfl⟩
      rw [notify_holds]; exact h1 i w' e1
    · grind
    · intro i hi
      obtain ⟨t, ht⟩ := h3 i (by grind)
      exact ⟨t, _, ht, rfl⟩
    · intro b hb
      rcases h4 b hb with h | ⟨i, w, e1, e2, e3⟩
      · exact .inl (by grind)
      · exact .inr ⟨i, w.notify, e1, ⟨w, e2, rfl⟩, by rw [notify_holds]; exact e3⟩
    · rintro i ⟨w', e1, e2⟩
      exact h5 i (by rw [e1, (notify_eq_block w').1 e2.symm])
  case stopAlready a k hpc h =>
    cases k <;> constructor <;> simp only [setPc_pcs, setPc_lock, setPc_workers, setPc_queue] <;> grind
  case stopDone a k i hpc h =>
    cases k <;> constructor <;> simp only [setPc_pcs, setPc_lock, setPc_workers, setPc_queue] <;> grind
  all_goals
    have h3' : ∀ i, (s.pcs (.worker i)).holds = true → ∃ t, s.workers[i]? = some (WPc.run t) := by
      intro i hi; exact h3 i (by intro e; rw [e] at hi; cases hi)
    constructor <;> simp only [setPc_pcs, setPc_lock, setPc_workers, setPc_queue, setW_pcs, setW_lock, setW_workers, setW_queue]
    all_goals grind

theorem lockInv_init : LockInv ({} : Pool α) := by constructor <;> simp [CPc.holds]

end Cppnet
