import Verif.Props.Pool
import Verif.Spec.Logger

/-! # Invariants of the file logger -/

namespace Cppnet
open Spec Pool FLog

/-- Inside `AddTask(b)`, the task not yet pushed. -/
def CPc.pre : CPc Nat → Nat → Bool
  | .addCheck t, b | .addLock t, b | .addPush t, b => t == b
  | _, _ => false

/-- Inside `Stop`, as part of what. -/
def CPc.stopOf : CPc Nat → Option AfterStop
  | .stopCheck k | .stopSet k | .stopNotify k | .stopJoin k _ => some k
  | _ => none

/-- The pool function the logger's thread is in. -/
def CRel : LPc → CPc Nat → Prop
  | .adding b, c => c.pre b = true ∨ c = .addNotify ∨ c = .addUnlock
  | .stopping _, c => c.stopOf = some .ret
  | .destroying, c => c.stopOf = some .destroy ∨ c = .members
  | .initing, c => ∃ n, c = .initClear false n ∨ c = .initSpawn false n
  | _, c => c = .idle

theorem internal_step {s s' : Pool Nat} {l} (h : Act s l s') (hl : l = .tau ∨ l = .spurious)
    (ho : ∀ a, a ≠ .client 0 → s.pcs a = .idle) {pc : LPc} (hc : CRel pc (s.pcs (.client 0))) :
    (∀ a, a ≠ .client 0 → s'.pcs a = .idle) ∧ CRel pc (s'.pcs (.client 0)) ∧
    ((s'.accepted = s.accepted ∧ ∀ b, (s'.pcs (.client 0)).pre b = (s.pcs (.client 0)).pre b) ∨
     ∃ b, pc = .adding b ∧ (s.pcs (.client 0)).pre b = true ∧ s'.accepted = s.accepted ++ [b] ∧
       ∀ b, (s'.pcs (.client 0)).pre b = false) := by
  have who : ∀ a, s.pcs a ≠ .idle → a = .client 0 := fun a ha => Classical.byContradiction fun e => ha (ho a e)
  have mine : ∀ (a : Agent) (c : CPc Nat), s.pcs a ≠ .idle → (∀ b, s'.pcs b = if b = a then c else s.pcs b) →
      (∀ a, a ≠ .client 0 → s'.pcs a = .idle) ∧ s'.pcs (.client 0) = c ∧ a = .client 0 := by
    intro a c ha e
    obtain rfl := who a ha
    refine ⟨fun b hb => ?_, by rw [e]; simp, rfl⟩
    rw [e, if_neg hb]; exact ho b hb
  have notmine : s'.pcs = s.pcs → s'.accepted = s.accepted → (∀ a, a ≠ .client 0 → s'.pcs a = .idle) ∧ CRel pc (s'.pcs (.client 0)) ∧
    ((s'.accepted = s.accepted ∧ ∀ b, (s'.pcs (.client 0)).pre b = (s.pcs (.client 0)).pre b) ∨
     ∃ b, pc = .adding b ∧ (s.pcs (.client 0)).pre b = true ∧ s'.accepted = s.accepted ++ [b] ∧
       ∀ b, (s'.pcs (.client 0)).pre b = false) := by
    intro e1 e2
    rw [e1, e2]
    exact ⟨ho, hc, .inl ⟨rfl, fun _ => rfl⟩⟩
  have move : ∀ (a : Agent) (c c' : CPc Nat), s.pcs a = c → c ≠ .idle → (∀ b, s'.pcs b = if b = a then c' else s.pcs b) →
      s'.accepted = s.accepted → (∀ b, c'.pre b = c.pre b) → (CRel pc c → CRel pc c') →
      (∀ a, a ≠ .client 0 → s'.pcs a = .idle) ∧ CRel pc (s'.pcs (.client 0)) ∧
    ((s'.accepted = s.accepted ∧ ∀ b, (s'.pcs (.client 0)).pre b = (s.pcs (.client 0)).pre b) ∨
     ∃ b, pc = .adding b ∧ (s.pcs (.client 0)).pre b = true ∧ s'.accepted = s.accepted ++ [b] ∧
       ∀ b, (s'.pcs (.client 0)).pre b = false) := by
    intro a c c' hpc hne e1 e2 e3 e4
    obtain ⟨h1, h2, h3⟩ := mine a c' (by rw [hpc]; exact hne) e1
    subst h3
    rw [hpc] at hc
    rw [h2, hpc]
    exact ⟨h1, e4 hc, .inl ⟨e2, e3⟩⟩
  cases h
  case call => rcases hl with hl | hl <;> cases hl
  case addRefused => rcases hl with hl | hl <;> cases hl
  case addDone => rcases hl with hl | hl <;> cases hl
  case resizeSame => rcases hl with hl | hl <;> cases hl
  case initDone r _ => rcases hl with hl | hl <;> cases hl
  case destroyed => rcases hl with hl | hl <;> cases hl
  case numDone => rcases hl with hl | hl <;> cases hl
  case addChecked a t hpc _ _ =>
    exact move _ _ _ hpc (by simp) (fun _ => rfl) rfl (fun _ => rfl) (by cases pc <;> simp [CRel, CPc.pre, CPc.stopOf])
  case addLocked a t hpc _ =>
    exact move _ _ _ hpc (by simp) (fun _ => rfl) rfl (fun _ => rfl) (by cases pc <;> simp [CRel, CPc.pre, CPc.stopOf])
  case addPushed a t hpc =>
    obtain ⟨h1, h2, h3⟩ := mine a .addNotify (by rw [hpc]; simp) (fun _ => rfl)
    subst h3
    rw [hpc] at hc ⊢
    rw [h2]
    cases pc <;> simp [CRel, CPc.pre, CPc.stopOf] at hc
    subst hc
    exact ⟨h1, .inr (.inl rfl), .inr ⟨_, rfl, by simp [CPc.pre], rfl, fun _ => rfl⟩⟩
  case addNotified a i hpc _ =>
    exact move _ _ _ hpc (by simp) (fun _ => rfl) rfl (fun _ => rfl) (by cases pc <;> simp [CRel, CPc.pre, CPc.stopOf])
  case addNobody a hpc _ =>
    exact move _ _ _ hpc (by simp) (fun _ => rfl) rfl (fun _ => rfl) (by cases pc <;> simp [CRel, CPc.pre, CPc.stopOf])
  case stopAlready a k hpc _ =>
    cases k
    · rcases hl with hl | hl <;> cases hl
    · exact move _ _ _ hpc (by simp) (fun _ => rfl) rfl (fun _ => rfl) (by cases pc <;> simp [CRel, CPc.pre, CPc.stopOf])
    · exact move _ _ _ hpc (by simp) (fun _ => rfl) rfl (fun _ => rfl) (by cases pc <;> simp [CRel, CPc.pre, CPc.stopOf, afterStop])
  case stopDone a k i hpc _ =>
    cases k
    · rcases hl with hl | hl <;> cases hl
    · exact move _ _ _ hpc (by simp) (fun _ => rfl) rfl (fun _ => rfl) (by cases pc <;> simp [CRel, CPc.pre, CPc.stopOf])
    · exact move _ _ _ hpc (by simp) (fun _ => rfl) rfl (fun _ => rfl) (by cases pc <;> simp [CRel, CPc.pre, CPc.stopOf, afterStop])
  case initCleared a r n hpc _ =>
    exact move _ _ _ hpc (by simp) (fun _ => rfl) rfl (fun _ => rfl) (by cases pc <;> simp [CRel, CPc.pre, CPc.stopOf])
  case initSpawned a r n hpc =>
    exact move _ _ _ hpc (by simp) (fun _ => rfl) rfl (fun _ => rfl) (by cases pc <;> simp [CRel, CPc.pre, CPc.stopOf])
  all_goals first
    | exact notmine rfl rfl
    | (have hpc := ‹s.pcs _ = _›
       exact move _ _ _ hpc (by simp) (fun _ => rfl) rfl (fun _ => rfl) (by cases pc <;> simp [CRel, CPc.pre, CPc.stopOf]))

/-! ### The invariant -/

/-- The task the worker is executing. -/
def FlushPc.task : FlushPc → List Nat
  | .none => []
  | .start b | .written b | .cleared b | .unmarked b | .ended b => [b]

/-- The task that is through with its buffer. -/
def FlushPc.gone : FlushPc → List Nat
  | .unmarked b | .ended b => [b]
  | _ => []

/-- The buffer the worker still works on. -/
def FlushPc.busy : FlushPc → Option Nat
  | .start b | .written b | .cleared b => some b
  | _ => Option.none

/-- The pool has been stopped: no worker has or takes a task. -/
def Dead (p : Pool Nat) : Prop := p.cont = false ∧ ∀ w ∈ p.workers, noTask w = true

theorem Dead.step {p p' : Pool Nat} {l} (h : Dead p) (ha : Act p l p') :
    Dead p' ∧ p'.started = p.started ∧ p'.finished = p.finished := by
  obtain ⟨h1, h2, _, h3, h4⟩ := noTask_step ha h.1 h.2
  exact ⟨⟨h1, h2⟩, h3, h4⟩

/-- Buffer `b` has been marked and not yet been given to the pool. -/
def Hand (s : FLog) (b : Nat) : Prop :=
  s.pc = .next b ∨ s.pc = .add b ∨ (s.pc = .adding b ∧ (s.pool.pcs (.client 0)).pre b = true)

/-- The lines of buffer `b` that are not in the file. -/
def held (s : FLog) (b : Nat) : List Str := if s.fl = .written b then [] else (s.bufs b).lines

/-- The tasks given to the pool that are still to do: their buffers are marked and distinct. -/
def Tasks (s : FLog) : Prop := ∃ todo, s.pool.accepted.Perm (s.pool.finished ++ s.fl.gone ++ todo) ∧ todo.Nodup ∧
  (∀ b ∈ todo, b ∈ s.ring ∧ (s.bufs b).need = true ∧ ¬ Hand s b) ∧ ∀ b, s.fl.busy = some b → b ∈ todo

/-- Places where `cur_buffer_` is not null. -/
def LPc.usesCur : LPc → Bool
  | .check | .next _ | .add _ | .adding _ | .flush _ _ => true
  | _ => false

structure FInv (ok : Prop) (prev : Str) (log : List Str) (s : FLog) : Prop where
  run : ∃ tr, Run {} tr s.pool ∧ ∀ l ∈ tr, Disciplined 0 l
  others : ∀ a, a ≠ .client 0 → s.pool.pcs a = .idle
  client : CRel s.pc (s.pool.pcs (.client 0))
  nodup : s.ring.Nodup
  made : ∀ b ∈ s.ring, b < s.made
  curLt : ∀ c, s.cur = some c → c < s.ring.length
  curNone : s.cur = none → s.ring = []
  num1 : 1 ≤ s.num
  numLen : s.cur ≠ none → s.num = s.ring.length
  pcCur : s.pc.usesCur = true → s.cur ≠ none
  lines : ∀ b, ∀ x ∈ (s.bufs b).lines, x ≠ []
  exec : s.pool.started = s.pool.finished ++ s.fl.task
  tasks : Dead s.pool ∨ Tasks s
  curNeed : ∀ c b, s.cur = some c → s.ring[c]? = some b → (∀ b', s.pc ≠ .next b') → (s.bufs b).need = false
  next : ∀ b, s.pc = .next b → ∃ c, s.cur = some c ∧ s.ring[c]? = some b
  hand : ∀ b, Hand s b → b ∈ s.ring ∧ (s.bufs b).need = true
  flush : ∀ d i, s.pc = .flush d i → Dead s.pool ∧ ∀ j b, j < i → s.ring[j]? = some b → ok → (s.bufs b).lines = []
  fin : ∀ d, s.pc = .fin d → s.cur = none ∧ Dead s.pool
  keep : ok → ∃ written, s.file = prev ++ written.flatten ∧ (written ++ s.ring.flatMap (held s)).Perm log

theorem Buf.data_nil {b : Buf} (h : ∀ x ∈ b.lines, x ≠ []) : b.data = [] ↔ b.lines = [] := by
  unfold Buf.data
  constructor
  · intro e
    cases hl : b.lines with
    | nil => rfl
    | cons x xs =>
      rw [hl] at e
      simp only [List.flatten_cons, List.append_eq_nil_iff] at e
      exact absurd e.1 (h x (by rw [hl]; simp))
  · intro e; rw [e]; rfl

theorem FInv.hist {ok prev log} {s : FLog} (h : FInv ok prev log s) : HistInv s.pool := by
  obtain ⟨tr, hr, _⟩ := h.run
  exact reachable_hist ⟨tr, hr⟩

theorem dead_fl {p : Pool Nat} (hh : HistInv p) (hd : Dead p) : p.started.Perm p.finished := by
  have : p.workers.flatMap executing = [] := by
    simp only [List.flatMap_eq_nil_iff]
    intro w hw
    have := hd.2 w hw
    cases w <;> simp [noTask] at this <;> rfl
  have h := hh.started
  rwa [this, List.append_nil] at h

theorem FInv.deadFl {ok prev log} {s : FLog} (h : FInv ok prev log s) (hd : Dead s.pool) : s.fl = .none := by
  have h1 := dead_fl h.hist hd
  rw [h.exec] at h1
  have := h1.length_eq
  cases hf : s.fl <;> simp [hf, FlushPc.task] at this ⊢

/-- Changing one element's image in a `flatMap` over distinct elements. -/
theorem flatMap_change {β : Type} (f g : Nat → List β) (b : Nat) : ∀ (l : List Nat), l.Nodup → b ∈ l →
    (∀ x, x ≠ b → g x = f x) → ∃ rest, (l.flatMap f).Perm (f b ++ rest) ∧ (l.flatMap g).Perm (g b ++ rest)
  | [], _, hb, _ => by simp at hb
  | x :: l, hn, hb, hf => by
    obtain ⟨hx, hn⟩ := List.nodup_cons.1 hn
    by_cases e : b = x
    · subst e
      refine ⟨l.flatMap f, by simp, ?_⟩
      have : l.flatMap g = l.flatMap f := by
        have : ∀ y ∈ l, g y = f y := fun y hy => hf y (by rintro rfl; exact hx hy)
        clear hx hn hb hf
        induction l with
        | nil => rfl
        | cons y l ih => simp_all
      simp [this]
    · obtain ⟨rest, h1, h2⟩ := flatMap_change f g b l hn (by simpa [e] using hb) hf
      refine ⟨f x ++ rest, ?_, ?_⟩
      · rw [List.flatMap_cons]
        exact (h1.append_left _).trans (by rw [← List.append_assoc, ← List.append_assoc]; exact List.perm_append_comm.append_right _)
      · rw [List.flatMap_cons, hf x (Ne.symm e)]
        exact (h2.append_left _).trans (by rw [← List.append_assoc, ← List.append_assoc]; exact List.perm_append_comm.append_right _)

theorem flatMap_same {β : Type} (f g : Nat → List β) (l : List Nat) (h : ∀ x ∈ l, g x = f x) : l.flatMap g = l.flatMap f := by
  induction l with
  | nil => rfl
  | cons y l ih => simp_all

/-! ### Preservation -/

theorem FInv.run_step {ok prev log} {s : FLog} (hi : FInv ok prev log s) (hlive : s.pool.phase = .live) {l p} (ha : Act s.pool l p)
    (hd : Disciplined 0 l) : ∃ tr, Run {} tr p ∧ ∀ l ∈ tr, Disciplined 0 l := by
  obtain ⟨tr, h1, h2⟩ := hi.run
  refine ⟨tr ++ [l], .snoc h1 hlive ha, fun x hx => ?_⟩
  rcases List.mem_append.1 hx with hx | hx
  · exact h2 x hx
  · simp only [List.mem_singleton] at hx; exact hx ▸ hd

theorem disc_tau : Disciplined 0 (.tau : PoolLabel Nat) := by intro a op e; cases e
theorem disc_spurious : Disciplined 0 (.spurious : PoolLabel Nat) := by intro a op e; cases e
theorem disc_ret (a : Agent) (r : PoolRet) : Disciplined 0 (.ret a r : PoolLabel Nat) := by intro a op e; cases e
theorem disc_call (op : PoolOp Nat) : Disciplined 0 (.call (.client 0) op : PoolLabel Nat) := by
  intro a op' e; cases e; exact .inr (.inr rfl)

/-- The tasks after a step of the pool in which the logger's thread neither calls nor returns. -/
theorem FInv.pool_tasks {ok prev log} {s : FLog} (hi : FInv ok prev log s) {l p} (ha : Act s.pool l p)
    (hl : l = .tau ∨ l = .spurious) :
    Dead p ∨ ∃ todo, p.accepted.Perm (s.pool.finished ++ s.fl.gone ++ todo) ∧ todo.Nodup ∧
      (∀ b ∈ todo, b ∈ s.ring ∧ (s.bufs b).need = true ∧ ¬ Hand { s with pool := p } b) ∧ ∀ b, s.fl.busy = some b → b ∈ todo := by
  rcases hi.tasks with hd | ⟨todo, h1, h2, h3, h4⟩
  · exact .inl (hd.step ha).1
  right
  obtain ⟨_, _, hh | ⟨b, hpc, hpre, hacc, hnp⟩⟩ := internal_step ha hl hi.others hi.client
  · refine ⟨todo, by rw [hh.1]; exact h1, h2, fun b hb => ?_, h4⟩
    obtain ⟨j1, j2, j3⟩ := h3 b hb
    refine ⟨j1, j2, fun hn => j3 ?_⟩
    simp only [Hand] at hn ⊢
    rw [hh.2] at hn
    exact hn
  · have hhand : Hand s b := .inr (.inr ⟨hpc, hpre⟩)
    have hnh : ∀ x, ¬ Hand { s with pool := p } x := by
      intro x hx
      rcases hx with hx | hx | hx
      · simp [hpc] at hx
      · simp [hpc] at hx
      · have := hnp x
        rw [hx.2] at this; cases this
    have hb : b ∉ todo := fun hb => (h3 b hb).2.2 hhand
    refine ⟨todo ++ [b], ?_, ?_, fun x hx => ?_, fun x hx => List.mem_append_left _ (h4 x hx)⟩
    · rw [hacc, ← List.append_assoc]; exact h1.append_right _
    · rw [List.nodup_append]
      refine ⟨h2, by simp, fun x hx y hy e => hb ?_⟩
      simp only [List.mem_singleton] at hy
      rw [← hy, ← e]; exact hx
    · rcases List.mem_append.1 hx with hx | hx
      · exact ⟨(h3 x hx).1, (h3 x hx).2.1, hnh x⟩
      · simp only [List.mem_singleton] at hx
        subst hx
        exact ⟨(hi.hand _ hhand).1, (hi.hand _ hhand).2, hnh _⟩

theorem FInv.hand_pool {ok prev log} {s : FLog} (hi : FInv ok prev log s) {l p} (ha : Act s.pool l p)
    (hl : l = .tau ∨ l = .spurious) : ∀ b, Hand { s with pool := p } b → b ∈ s.ring ∧ (s.bufs b).need = true := by
  intro b hb
  apply hi.hand
  obtain ⟨_, _, hh | ⟨_, hpc, hpre, hacc, hnp⟩⟩ := internal_step ha hl hi.others hi.client
  · simp only [Hand] at hb ⊢
    rw [hh.2] at hb
    exact hb
  · rcases hb with hx | hx | hx
    · exact .inl hx
    · exact .inr (.inl hx)
    · rw [hnp] at hx; simp at hx

/-- A step of the pool on its own, together with a change of `fl` that does not touch the buffers. -/
theorem FInv.pool_step {ok prev log} {s : FLog} (hi : FInv ok prev log s) (hlive : s.pool.phase = .live) {l p} (ha : Act s.pool l p)
    (hl : l = .tau ∨ l = .spurious) (fl : FlushPc) (hex : p.started = p.finished ++ fl.task)
    (hfin : s.pool.finished ++ s.fl.gone = p.finished ++ fl.gone)
    (hbusy : ∀ b, fl.busy = some b → s.fl.busy = some b ∨ fl = .start b ∧ s.fl = .none) (hw : ∀ b, fl ≠ .written b ∧ s.fl ≠ .written b ∨ fl = s.fl)  :
    FInv ok prev log { s with pool := p, fl := fl } := by
  obtain ⟨i1, i2, _⟩ := internal_step ha hl hi.others hi.client
  have hrun := hi.run_step hlive ha (by rcases hl with rfl | rfl <;> first | exact disc_tau | exact disc_spurious)
  have hp : HistInv p := by obtain ⟨tr, hr, _⟩ := hrun; exact reachable_hist ⟨tr, hr⟩
  refine { hi with run := hrun, others := i1, client := i2, exec := hex, hand := hi.hand_pool ha hl, tasks := ?_, flush := ?_,
                   fin := fun d h => ⟨(hi.fin d h).1, ((hi.fin d h).2.step ha).1⟩, keep := ?_ }
  · rcases hi.pool_tasks ha hl with h | ⟨todo, h1, h2, h3, h4⟩
    · exact .inl h
    · refine .inr ⟨todo, by rw [← hfin]; exact h1, h2, h3, fun b hb => ?_⟩
      rcases hbusy b hb with h | ⟨rfl, hn⟩
      · exact h4 b h
      · -- the task that was started is one of those to do
        have e : (p.workers.flatMap executing).Perm [b] := by
          have := hp.started
          rw [hex] at this
          exact ((List.perm_append_left_iff _).1 this).symm
        have hb1 : b ∈ p.workers.flatMap executing := e.symm.subset (by simp)
        obtain ⟨w, hw1, hw2⟩ := List.mem_flatMap.1 hb1
        have hb2 : b ∈ p.workers.flatMap inHand := by
          refine List.mem_flatMap.2 ⟨w, hw1, ?_⟩
          cases w <;> simp [executing] at hw2 <;> simpa [inHand] using hw2
        have e2 : (p.finished ++ (p.workers.flatMap inHand ++ p.queue)).Perm (p.finished ++ todo) := by
          rw [← List.append_assoc]
          refine ((hp.popped.append_right _).symm.trans ?_)
          rw [← hp.fifo]
          refine h1.trans ?_
          rw [hfin]; simp [FlushPc.gone]
        exact ((List.perm_append_left_iff _).1 e2).subset (List.mem_append_left _ hb2)
  · intro d i h
    obtain ⟨j1, j2⟩ := hi.flush d i h
    exact ⟨(j1.step ha).1, j2⟩
  · intro hok
    obtain ⟨w, k1, k2⟩ := hi.keep hok
    refine ⟨w, k1, ?_⟩
    have : held { s with pool := p, fl := fl } = held s := by
      funext b
      simp only [held]
      rcases hw b with ⟨h1, h2⟩ | h
      · rw [if_neg h1, if_neg h2]
      · rw [h]
    rw [this]; exact k2

theorem FInv.busy_tasks {ok prev log} {s : FLog} (hi : FInv ok prev log s) {b : Nat} (hb : s.fl.busy = some b) :
    ∃ todo, s.pool.accepted.Perm (s.pool.finished ++ todo) ∧ todo.Nodup ∧
      (∀ b ∈ todo, b ∈ s.ring ∧ (s.bufs b).need = true ∧ ¬ Hand s b) ∧ b ∈ todo := by
  rcases hi.tasks with hd | ⟨todo, h1, h2, h3, h4⟩
  · have := hi.deadFl hd
    rw [this] at hb; cases hb
  · refine ⟨todo, ?_, h2, h3, h4 b hb⟩
    have : s.fl.gone = [] := by cases hf : s.fl <;> simp [hf, FlushPc.busy] at hb <;> rfl
    simpa [this] using h1

theorem FInv.busy_buf {ok prev log} {s : FLog} (hi : FInv ok prev log s) {b : Nat} (hb : s.fl.busy = some b) :
    b ∈ s.ring ∧ (s.bufs b).need = true ∧ ¬ Hand s b := by
  obtain ⟨todo, _, _, h3, h4⟩ := hi.busy_tasks hb
  exact h3 b h4

/-- The buffer the worker works on is not the current one. -/
theorem FInv.busy_cur {ok prev log} {s : FLog} (hi : FInv ok prev log s) {b c : Nat} (hb : s.fl.busy = some b) (hc : s.cur = some c) :
    s.ring[c]? ≠ some b := by
  intro e
  obtain ⟨_, h2, h3⟩ := hi.busy_buf hb
  by_cases hn : ∃ b', s.pc = .next b'
  · obtain ⟨b', hn⟩ := hn
    obtain ⟨c', e1, e2⟩ := hi.next b' hn
    rw [hc] at e1; cases e1
    rw [e] at e2; cases e2
    exact h3 (.inl hn)
  · have := hi.curNeed c b hc e (fun b' h => hn ⟨b', h⟩)
    rw [h2] at this; cases this

theorem FInv.flush_end {ok prev log} {s : FLog} (hi : FInv ok prev log s) {b : Nat} (hb : s.fl = .start b) :
    FInv ok prev log { s with fl := .ended b } := by
  have hbz : s.fl.busy = some b := by rw [hb]; rfl
  refine { hi with exec := by have := hi.exec; rw [hb] at this; exact this, tasks := .inr ?_, keep := ?_ }
  · obtain ⟨todo, h1, h2, h3, h4⟩ := hi.busy_tasks hbz
    refine ⟨todo.erase b, ?_, h2.erase b, fun x hx => h3 x (List.mem_of_mem_erase hx), by simp [FlushPc.busy]⟩
    refine h1.trans ?_
    simp only [FlushPc.gone, List.append_assoc]
    exact (List.perm_cons_erase h4).append_left _
  · intro hok
    obtain ⟨w, k1, k2⟩ := hi.keep hok
    refine ⟨w, k1, ?_⟩
    have : held { s with fl := .ended b } = held s := by funext x; simp [held, hb]
    rw [this]; exact k2

theorem FInv.flush_written {ok prev log} {s : FLog} (hi : FInv ok prev log s) {b : Nat} (hb : s.fl = .start b) :
    FInv ok prev log { s with fl := .written b, file := s.file ++ (s.bufs b).data } := by
  have hbz : s.fl.busy = some b := by rw [hb]; rfl
  refine { hi with exec := by have := hi.exec; rw [hb] at this; exact this, tasks := .inr ?_, keep := ?_ }
  · obtain ⟨todo, h1, h2, h3, h4⟩ := hi.busy_tasks hbz
    exact ⟨todo, by simpa [FlushPc.gone] using h1, h2, h3, fun x hx => by simp [FlushPc.busy] at hx; exact hx ▸ h4⟩
  · intro hok
    obtain ⟨w, k1, k2⟩ := hi.keep hok
    refine ⟨w ++ (s.bufs b).lines, by simp [k1, Buf.data], ?_⟩
    obtain ⟨rest, e1, e2⟩ := flatMap_change (held s) (held { s with fl := .written b, file := s.file ++ (s.bufs b).data }) b s.ring
      hi.nodup (hi.busy_buf hbz).1 (fun x hx => by simp [held, hb, Ne.symm hx])
    have a1 : held s b = (s.bufs b).lines := by simp [held, hb]
    have a2 : held { s with fl := .written b, file := s.file ++ (s.bufs b).data } b = [] := by simp [held]
    rw [a1] at e1
    rw [a2] at e2
    refine List.Perm.trans ?_ k2
    rw [List.append_assoc]
    refine List.Perm.append_left _ ?_
    exact (e2.append_left _).trans (by simpa using e1.symm)

theorem FInv.flush_clear {ok prev log} {s : FLog} (hi : FInv ok prev log s) {b : Nat} (hb : s.fl = .written b) :
    FInv ok prev log { s.setBuf b { s.bufs b with lines := [] } with fl := .cleared b } := by
  have hbz : s.fl.busy = some b := by rw [hb]; rfl
  have hneed : ∀ x, ((s.setBuf b { s.bufs b with lines := [] }).bufs x).need = (s.bufs x).need := by
    intro x; simp only [setBuf]; by_cases e : x = b <;> simp [e]
  refine { hi with exec := by have := hi.exec; rw [hb] at this; exact this, tasks := .inr ?_, keep := ?_,
                   lines := ?_, curNeed := ?_, hand := ?_, flush := ?_ }
  · intro x y hy
    simp only [setBuf] at hy
    by_cases e : x = b
    · simp [e] at hy
    · rw [if_neg e] at hy; exact hi.lines x y hy
  · obtain ⟨todo, h1, h2, h3, h4⟩ := hi.busy_tasks hbz
    refine ⟨todo, by simpa [FlushPc.gone, setBuf] using h1, h2, fun x hx => ?_, fun x hx => by simp [FlushPc.busy] at hx; exact hx ▸ h4⟩
    obtain ⟨j1, j2, j3⟩ := h3 x hx
    exact ⟨j1, (hneed x).trans j2, j3⟩
  · intro c x h1 h2 h3
    exact (hneed x).trans (hi.curNeed c x h1 h2 h3)
  · intro x hx
    exact ⟨(hi.hand x hx).1, (hneed x).trans (hi.hand x hx).2⟩
  · intro d i h
    have := hi.deadFl (hi.flush d i h).1
    rw [hb] at this; cases this
  · intro hok
    obtain ⟨w, k1, k2⟩ := hi.keep hok
    refine ⟨w, k1, ?_⟩
    have : held { s.setBuf b { s.bufs b with lines := [] } with fl := .cleared b } = held s := by
      funext x
      simp only [held, setBuf, hb]
      by_cases e : x = b
      · simp [e]
      · simp [e, Ne.symm e]
    rw [this]; exact k2

theorem FInv.flush_timed {ok prev log} {s : FLog} (hi : FInv ok prev log s) {b : Nat} (hb : s.fl = .unmarked b) :
    FInv ok prev log { s with fl := .ended b } := by
  refine { hi with exec := by have := hi.exec; rw [hb] at this; exact this, tasks := ?_, keep := ?_ }
  · rcases hi.tasks with hd | ⟨todo, h1, h2, h3, h4⟩
    · exact .inl hd
    · rw [hb] at h1
      exact .inr ⟨todo, h1, h2, h3, by simp [FlushPc.busy]⟩
  · intro hok
    obtain ⟨w, k1, k2⟩ := hi.keep hok
    refine ⟨w, k1, ?_⟩
    have : held { s with fl := .ended b } = held s := by funext x; simp [held, hb]
    rw [this]; exact k2

theorem FInv.flush_unmark {ok prev log} {s : FLog} (hi : FInv ok prev log s) {b : Nat} (hb : s.fl = .cleared b) :
    FInv ok prev log { s.setBuf b { s.bufs b with need := false } with fl := .unmarked b } := by
  have hbz : s.fl.busy = some b := by rw [hb]; rfl
  obtain ⟨b1, b2, b3⟩ := hi.busy_buf hbz
  have hneed : ∀ x, x ≠ b → ((s.setBuf b { s.bufs b with need := false }).bufs x).need = (s.bufs x).need := by
    intro x e; simp only [setBuf]; simp [e]
  have hlines : ∀ x, ((s.setBuf b { s.bufs b with need := false }).bufs x).lines = (s.bufs x).lines := by
    intro x; simp only [setBuf]; by_cases e : x = b <;> simp [e]
  refine { hi with exec := by have := hi.exec; rw [hb] at this; exact this, tasks := .inr ?_, keep := ?_,
                   lines := fun x => by simp only [hlines]; exact hi.lines x, curNeed := ?_, hand := ?_, flush := ?_ }
  · obtain ⟨todo, h1, h2, h3, h4⟩ := hi.busy_tasks hbz
    refine ⟨todo.erase b, ?_, h2.erase b, fun x hx => ?_, by simp [FlushPc.busy]⟩
    · refine h1.trans ?_
      simp only [FlushPc.gone, List.append_assoc]
      exact (List.perm_cons_erase h4).append_left _
    · obtain ⟨e, hx⟩ := h2.mem_erase_iff.1 hx
      obtain ⟨j1, j2, j3⟩ := h3 x hx
      exact ⟨j1, (hneed x e).trans j2, j3⟩
  · intro c x h1 h2 h3
    have : x ≠ b := by rintro rfl; exact hi.busy_cur hbz h1 h2
    exact (hneed x this).trans (hi.curNeed c x h1 h2 h3)
  · intro x hx
    have : x ≠ b := by rintro rfl; exact b3 hx
    exact ⟨(hi.hand x hx).1, (hneed x this).trans (hi.hand x hx).2⟩
  · intro d i h
    have := hi.deadFl (hi.flush d i h).1
    rw [hb] at this; cases this
  · intro hok
    obtain ⟨w, k1, k2⟩ := hi.keep hok
    refine ⟨w, k1, ?_⟩
    have : held { s.setBuf b { s.bufs b with need := false } with fl := .unmarked b } = held s := by
      funext x
      simp only [held, hb]
      simp [hlines]
    rw [this]; exact k2

/-! Calls and returns -/

theorem call_step {p p' : Pool Nat} {op} (h : Act p (.call (.client 0) op) p') :
    p.pcs (.client 0) = .idle ∧ p' = p.setPc (.client 0) (entry op) := by
  generalize hl : PoolLabel.call (.client 0) op = l at h
  cases h <;> first | cases hl | skip
  case call h _ => exact ⟨h, rfl⟩
  case stopAlready a k _ _ => cases k <;> cases hl
  case stopDone a k _ _ _ => cases k <;> cases hl

theorem ret_step {p p' : Pool Nat} {r} (h : Act p (.ret (.client 0) r) p') (ho : ∀ a, a ≠ .client 0 → p.pcs a = .idle) :
    (∀ a, a ≠ .client 0 → p'.pcs a = .idle) ∧ p'.pcs (.client 0) = .idle ∧
      p'.accepted = p.accepted ∧ p'.started = p.started ∧ p'.finished = p.finished := by
  have mine : ∀ a, a = Agent.client 0 → (∀ b, p'.pcs b = if b = a then .idle else p.pcs b) →
      (∀ a, a ≠ .client 0 → p'.pcs a = .idle) ∧ p'.pcs (.client 0) = .idle := by
    intro a ha e
    subst ha
    refine ⟨fun b hb => ?_, by rw [e]; simp⟩
    rw [e, if_neg hb]; exact ho b hb
  generalize hl : PoolLabel.ret (.client 0) r = l at h
  cases h <;> first | cases hl | skip
  case stopAlready a k _ _ =>
    cases k <;> cases hl
    exact ⟨(mine _ rfl (fun _ => rfl)).1, (mine _ rfl (fun _ => rfl)).2, rfl, rfl, rfl⟩
  case stopDone a k _ _ _ =>
    cases k <;> cases hl
    exact ⟨(mine _ rfl (fun _ => rfl)).1, (mine _ rfl (fun _ => rfl)).2, rfl, rfl, rfl⟩
  all_goals exact ⟨(mine _ rfl (fun _ => rfl)).1, (mine _ rfl (fun _ => rfl)).2, rfl, rfl, rfl⟩

/-- A step that changes the pool's program counters (a call or a return of the logger's thread) and the logger's. -/
theorem FInv.ext_step {ok prev log} {s : FLog} (hi : FInv ok prev log s) (hlive : s.pool.phase = .live) {l p} (ha : Act s.pool l p)
    (hd : Disciplined 0 l) (pc : LPc) (ho : ∀ a, a ≠ .client 0 → p.pcs a = .idle) (hc : CRel pc (p.pcs (.client 0)))
    (h1 : p.accepted = s.pool.accepted) (h2 : p.started = s.pool.started) (h3 : p.finished = s.pool.finished)
    (hcur : pc.usesCur = true → s.cur ≠ none)
    (hn : ∀ b, s.pc ≠ .next b) (hn' : ∀ b, pc ≠ .next b) (hh : ∀ b, Hand { s with pool := p, pc := pc } b → Hand s b)
    (hf : ∀ d i, pc = .flush d i → Dead p ∧ i = 0) (hfin : ∀ d, pc = .fin d → s.cur = none ∧ Dead p) :
    FInv ok prev log { s with pool := p, pc := pc } := by
  refine { hi with run := hi.run_step hlive ha hd, others := ho, client := hc, pcCur := hcur, exec := ?_, tasks := ?_,
                   curNeed := fun c b e1 e2 _ => hi.curNeed c b e1 e2 hn, next := fun b h => absurd h (hn' b),
                   hand := fun b hb => hi.hand b (hh b hb), flush := ?_, fin := hfin }
  · show p.started = p.finished ++ s.fl.task
    rw [h2, h3]; exact hi.exec
  · rcases hi.tasks with hd | ⟨todo, t1, t2, t3, t4⟩
    · exact .inl (hd.step ha).1
    · refine .inr ⟨todo, ?_, t2, fun b hb => ⟨(t3 b hb).1, (t3 b hb).2.1, fun h => (t3 b hb).2.2 (hh b h)⟩, t4⟩
      show p.accepted.Perm (p.finished ++ s.fl.gone ++ todo)
      rw [h1, h3]; exact t1
  · intro d i e
    obtain ⟨f1, f2⟩ := hf d i e
    exact ⟨f1, fun j b hj => by omega⟩

/-- A step that only changes where the logger's thread is. -/
theorem FInv.pc_step {ok prev log} {s : FLog} (hi : FInv ok prev log s) (pc : LPc) (hc : CRel pc (s.pool.pcs (.client 0)))
    (hcur : pc.usesCur = true → s.cur ≠ none)
    (hn : ∀ b, s.pc ≠ .next b) (hn' : ∀ b, pc ≠ .next b) (hh : ∀ b, Hand { s with pc := pc } b → Hand s b)
    (hf : ∀ d i, pc = .flush d i → Dead s.pool ∧ ∀ j b, j < i → s.ring[j]? = some b → ok → (s.bufs b).lines = [])
    (hfin : ∀ d, pc = .fin d → s.cur = none ∧ Dead s.pool) :
    FInv ok prev log { s with pc := pc } := by
  refine { hi with client := hc, pcCur := hcur, tasks := ?_,
                   curNeed := fun c b e1 e2 _ => hi.curNeed c b e1 e2 hn, next := fun b h => absurd h (hn' b),
                   hand := fun b hb => hi.hand b (hh b hb), flush := hf, fin := hfin }
  rcases hi.tasks with hd | ⟨todo, t1, t2, t3, t4⟩
  · exact .inl hd
  · exact .inr ⟨todo, t1, t2, fun b hb => ⟨(t3 b hb).1, (t3 b hb).2.1, fun h => (t3 b hb).2.2 (hh b h)⟩, t4⟩

theorem FInv.log_step {ok prev log} {s : FLog} (hi : FInv ok prev log s) {c b : Nat} {line : Str} (hpc : s.pc = .idle)
    (hc : s.cur = some c) (hb : s.ring[c]? = some b) (hline : line ≠ []) :
    FInv ok prev (log ++ [line]) { s.setBuf b { s.bufs b with lines := (s.bufs b).lines ++ [line] } with pc := .check } := by
  have hneed : ∀ x, ((s.setBuf b { s.bufs b with lines := (s.bufs b).lines ++ [line] }).bufs x).need = (s.bufs x).need := by
    intro x; simp only [setBuf]; by_cases e : x = b <;> simp [e]
  have hnw : s.fl ≠ .written b := fun e => hi.busy_cur (b := b) (by rw [e]; rfl) hc hb
  have hnh : ∀ x, ¬ Hand { s.setBuf b { s.bufs b with lines := (s.bufs b).lines ++ [line] } with pc := .check } x := by
    intro x hx; simp [Hand] at hx
  refine { hi with client := by have := hi.client; rw [hpc] at this; exact this, pcCur := fun _ => by show s.cur ≠ none; rw [hc]; simp,
                   lines := ?_, tasks := ?_, curNeed := ?_, next := fun b h => (by cases h), hand := fun x hx => absurd hx (hnh x),
                   flush := fun d i h => (by cases h), fin := fun d h => (by cases h), keep := ?_ }
  · intro x y hy
    simp only [setBuf] at hy
    by_cases e : x = b
    · simp only [e, if_true, List.mem_append, List.mem_singleton] at hy
      rcases hy with hy | hy
      · exact hi.lines b y hy
      · exact hy ▸ hline
    · rw [if_neg e] at hy; exact hi.lines x y hy
  · rcases hi.tasks with hd | ⟨todo, t1, t2, t3, t4⟩
    · exact .inl hd
    · exact .inr ⟨todo, t1, t2, fun x hx => ⟨(t3 x hx).1, (hneed x).trans (t3 x hx).2.1, hnh x⟩, t4⟩
  · intro c' x e1 e2 _
    exact (hneed x).trans (hi.curNeed c' x e1 e2 (by simp [hpc]))
  · intro hok
    obtain ⟨w, k1, k2⟩ := hi.keep hok
    refine ⟨w, k1, ?_⟩
    obtain ⟨rest, e1, e2⟩ := flatMap_change (held s)
      (held { s.setBuf b { s.bufs b with lines := (s.bufs b).lines ++ [line] } with pc := .check }) b s.ring
      hi.nodup (List.mem_of_getElem? hb) (fun x hx => by simp [held, setBuf, hx])
    have a1 : held s b = (s.bufs b).lines := by simp [held, hnw]
    have a2 : held { s.setBuf b { s.bufs b with lines := (s.bufs b).lines ++ [line] } with pc := .check } b =
        (s.bufs b).lines ++ [line] := by simp [held, setBuf, hnw]
    rw [a1] at e1
    rw [a2] at e2
    refine List.Perm.trans (List.Perm.append_left _ e2) ?_
    refine List.Perm.trans ?_ ((List.Perm.append_left w e1).symm.trans k2 |>.append_right [line])
    simp only [List.append_assoc]
    exact List.Perm.append_left _ (List.Perm.append_left _ List.perm_append_comm)

theorem FInv.mark_step {ok prev log} {s : FLog} (hi : FInv ok prev log s) {c b : Nat} (hpc : s.pc = .check)
    (hc : s.cur = some c) (hb : s.ring[c]? = some b) :
    FInv ok prev log { s.setBuf b { s.bufs b with need := true } with pc := .next b } := by
  have hneed : ∀ x, (s.bufs x).need = true → ((s.setBuf b { s.bufs b with need := true }).bufs x).need = true := by
    intro x h; simp only [setBuf]; by_cases e : x = b <;> simp [e, h]
  have hlines : ∀ x, ((s.setBuf b { s.bufs b with need := true }).bufs x).lines = (s.bufs x).lines := by
    intro x; simp only [setBuf]; by_cases e : x = b <;> simp [e]
  have hold : (s.bufs b).need = false := hi.curNeed c b hc hb (by simp [hpc])
  have hh : ∀ x, Hand { s.setBuf b { s.bufs b with need := true } with pc := .next b } x → x = b := by
    intro x hx; simp [Hand] at hx; exact hx.symm
  refine { hi with client := by have := hi.client; rw [hpc] at this; exact this, pcCur := fun _ => by show s.cur ≠ none; rw [hc]; simp,
                   lines := fun x => by simp only [hlines]; exact hi.lines x, tasks := ?_, curNeed := fun _ _ _ _ h => absurd rfl (h b),
                   next := fun b' h => by cases h; exact ⟨c, hc, hb⟩, hand := fun x hx => ?_,
                   flush := fun d i h => (by cases h), fin := fun d h => (by cases h), keep := ?_ }
  · rcases hi.tasks with hd | ⟨todo, t1, t2, t3, t4⟩
    · exact .inl hd
    · refine .inr ⟨todo, t1, t2, fun x hx => ⟨(t3 x hx).1, hneed x (t3 x hx).2.1, fun h => ?_⟩, t4⟩
      have := (t3 x hx).2.1
      rw [hh x h, hold] at this; cases this
  · rw [hh x hx]
    exact ⟨List.mem_of_getElem? hb, by simp [setBuf]⟩
  · intro hok
    obtain ⟨w, k1, k2⟩ := hi.keep hok
    refine ⟨w, k1, ?_⟩
    have : held { s.setBuf b { s.bufs b with need := true } with pc := .next b } = held s := by
      funext x; simp only [held, hlines]; rfl
    rw [this]; exact k2

theorem FInv.free_step {ok prev log} {s : FLog} (hi : FInv ok prev log s) {c b n : Nat} (hpc : s.pc = .next b)
    (hc : s.cur = some c) (hn : s.ring[s.nextPos c]? = some n) (h : (s.bufs n).need = false) :
    FInv ok prev log { s with pc := .add b, cur := some (s.nextPos c) } := by
  have hh : ∀ x, Hand { s with pc := .add b, cur := some (s.nextPos c) } x → Hand s x := by
    intro x hx; simp [Hand] at hx; exact hx ▸ .inl hpc
  refine { hi with client := by have := hi.client; rw [hpc] at this; exact this, pcCur := fun _ => by simp,
                   curLt := fun c' e => ?_, curNone := fun e => by simp at e, numLen := fun _ => hi.numLen (by rw [hc]; simp),
                   tasks := ?_, curNeed := ?_, next := fun b' h => (by cases h), hand := fun x hx => hi.hand x (hh x hx),
                   flush := fun d i h => (by cases h), fin := fun d h => (by cases h) }
  · cases e
    exact (List.getElem?_eq_some_iff.1 hn).1
  · rcases hi.tasks with hd | ⟨todo, t1, t2, t3, t4⟩
    · exact .inl hd
    · exact .inr ⟨todo, t1, t2, fun x hx => ⟨(t3 x hx).1, (t3 x hx).2.1, fun h => (t3 x hx).2.2 (hh x h)⟩, t4⟩
  · intro c' x e1 e2 _
    cases e1
    have : some x = some n := e2.symm.trans hn
    cases this
    exact h

theorem FInv.full_step {ok prev log} {s : FLog} (hi : FInv ok prev log s) {c b : Nat} (hpc : s.pc = .next b)
    (hc : s.cur = some c) :
    FInv ok prev log { s.setBuf s.made {} with
        pc := .add b, cur := some (c + 1), ring := s.ring.take (c + 1) ++ s.made :: s.ring.drop (c + 1),
        made := s.made + 1, num := s.num + 1 } := by
  have hlt := hi.curLt c hc
  have hne : ∀ x ∈ s.ring, x ≠ s.made := fun x hx e => by have := hi.made x hx; omega
  have hmem : ∀ x, x ∈ s.ring.take (c + 1) ++ s.made :: s.ring.drop (c + 1) ↔ x = s.made ∨ x ∈ s.ring := by
    intro x
    conv => rhs; rhs; rw [← List.take_append_drop (c + 1) s.ring]
    simp only [List.mem_append, List.mem_cons]
    constructor
    · rintro (h | h | h) <;> simp [h]
    · rintro (h | h | h) <;> simp [h]
  have hsame : ∀ x ∈ s.ring, (s.setBuf s.made {}).bufs x = s.bufs x := by
    intro x hx; simp [setBuf, hne x hx]
  have hlen : (s.ring.take (c + 1)).length = c + 1 := by rw [List.length_take]; omega
  have hnew : (s.ring.take (c + 1) ++ s.made :: s.ring.drop (c + 1))[c + 1]? = some s.made := by
    rw [List.getElem?_append_right (by omega), hlen]; simp
  have hh : ∀ x, Hand { s.setBuf s.made {} with
        pc := .add b, cur := some (c + 1), ring := s.ring.take (c + 1) ++ s.made :: s.ring.drop (c + 1),
        made := s.made + 1, num := s.num + 1 } x → Hand s x := by
    intro x hx; simp [Hand] at hx; exact hx ▸ .inl hpc
  have hw : ∀ b, s.fl = .written b → b ∈ s.ring := fun b e => (hi.busy_buf (b := b) (by rw [e]; rfl)).1
  refine { hi with client := by have := hi.client; rw [hpc] at this; exact this, pcCur := fun _ => by simp,
                   nodup := ?_, made := fun x hx => ?_, lines := fun x y hy => ?_,
                   curLt := fun c' e => ?_, curNone := fun e => by simp at e, num1 := ?_, numLen := fun _ => ?_,
                   tasks := ?_, curNeed := ?_, next := fun b' h => (by cases h), hand := fun x hx => ?_,
                   flush := fun d i h => (by cases h), fin := fun d h => (by cases h), keep := ?_ }
  · have : (s.ring.take (c + 1) ++ s.made :: s.ring.drop (c + 1)).Perm (s.made :: s.ring) := by
      refine List.perm_middle.trans ?_
      rw [List.take_append_drop]
    rw [this.nodup_iff, List.nodup_cons]
    exact ⟨fun h => hne _ h rfl, hi.nodup⟩
  · rcases (hmem x).1 hx with h | h
    · show x < s.made + 1; omega
    · have := hi.made x h
      show x < s.made + 1; omega
  · cases e
    simp only [List.length_append, List.length_cons, List.length_take, List.length_drop]
    omega
  · have := hi.num1
    show 1 ≤ s.num + 1; omega
  · have := hi.numLen (by rw [hc]; simp)
    show s.num + 1 = _
    simp only [List.length_append, List.length_cons, List.length_take, List.length_drop]
    omega
  · simp only [setBuf] at hy
    by_cases e : x = s.made
    · simp [e] at hy
    · rw [if_neg e] at hy; exact hi.lines x y hy
  · rcases hi.tasks with hd | ⟨todo, t1, t2, t3, t4⟩
    · exact .inl hd
    · refine .inr ⟨todo, t1, t2, fun x hx => ⟨(hmem x).2 (.inr (t3 x hx).1), ?_, fun h => (t3 x hx).2.2 (hh x h)⟩, t4⟩
      show ((s.setBuf s.made {}).bufs x).need = true
      rw [hsame x (t3 x hx).1]; exact (t3 x hx).2.1
  · intro c' x e1 e2 _
    cases e1
    have : some x = some s.made := e2.symm.trans hnew
    cases this
    simp [setBuf]
  · obtain ⟨j1, j2⟩ := hi.hand x (hh x hx)
    refine ⟨(hmem x).2 (.inr j1), ?_⟩
    show ((s.setBuf s.made {}).bufs x).need = true
    rw [hsame x j1]; exact j2
  · intro hok
    obtain ⟨w, k1, k2⟩ := hi.keep hok
    refine ⟨w, k1, ?_⟩
    generalize hs' : ({ s.setBuf s.made {} with
        pc := .add b, cur := some (c + 1), ring := s.ring.take (c + 1) ++ s.made :: s.ring.drop (c + 1),
        made := s.made + 1, num := s.num + 1 } : FLog) = s'
    have er : s'.ring = s.ring.take (c + 1) ++ s.made :: s.ring.drop (c + 1) := by rw [← hs']
    have e0 : held s' s.made = [] := by
      subst hs'; simp only [held, setBuf]; split <;> simp
    have e1 : ∀ x ∈ s.ring, held s' x = held s x := by
      intro x hx
      subst hs'
      show (if s.fl = .written x then [] else ((s.setBuf s.made {}).bufs x).lines) = held s x
      rw [hsame x hx]; rfl
    have : s'.ring.flatMap (held s') = s.ring.flatMap (held s) := by
      rw [er, List.flatMap_append, List.flatMap_cons, e0, List.nil_append, ← List.flatMap_append, List.take_append_drop]
      exact flatMap_same _ _ _ e1
    rw [this]; exact k2

/-! ### While the logger is initialised its pool has a joinable thread -/

def Joinable (p : Pool Nat) : Prop := ∃ x ∈ p.threads, x.2 = true

structure JInv (s : FLog) : Prop where
  join : s.cur ≠ none → (s.pool.pcs (.client 0)).stopOf = none → (∀ d i, s.pc ≠ .flush d i) → Joinable s.pool
  init : s.pc = .initing → s.pool.pcs (.client 0) = .initClear false 1 ∨
    (s.cur = none ∧ s.pool.pcs (.client 0) = .initSpawn false 1) ∨
    (s.cur = none ∧ s.pool.pcs (.client 0) = .initSpawn false 0 ∧ Joinable s.pool)
  dest : s.pc = .destroying ∨ s.pc = .gone → s.cur = none

theorem joinable_step {p p' : Pool Nat} {l} (h : Act p l p') (ho : ∀ a, a ≠ .client 0 → p.pcs a = .idle)
    (hs : (p.pcs (.client 0)).stopOf = none) (hj : Joinable p) : Joinable p' := by
  obtain ⟨x, h1, h2⟩ := hj
  cases h
  case stopJoined a k i w hpc _ _ =>
    have : a = .client 0 := Classical.byContradiction fun e => by rw [ho a e] at hpc; cases hpc
    subst this
    rw [hpc] at hs; cases hs
  case resizeCleared h => rw [h x h1] at h2; cases h2
  case initCleared h => rw [h x h1] at h2; cases h2
  case initSpawned => exact ⟨x, List.mem_append_left _ h1, h2⟩
  all_goals exact ⟨x, h1, h2⟩

/-- A step of the pool on its own. -/
theorem JInv.pool_step {ok prev log} {s : FLog} (hi : FInv ok prev log s) (hj : JInv s) {l p} (ha : Act s.pool l p)
    (hl : l = .tau ∨ l = .spurious) (fl : FlushPc) : JInv { s with pool := p, fl := fl } := by
  obtain ⟨j1, j2, j3⟩ := hj
  have hc := hi.client
  refine ⟨fun e1 e2 e3 => ?_, fun e => ?_, j3⟩
  · refine joinable_step ha hi.others ?_ (j1 e1 ?_ e3)
    all_goals
      have i2 := (internal_step ha hl hi.others hc).2.1
      revert hc i2 e2
      cases hpc : s.pc <;> simp only [CRel] <;> intro hc e2 i2
      case stopping => exact absurd (i2.symm.trans e2) (by simp)
      case destroying => exact absurd (j3 (.inl hpc)) e1
      case adding => rcases hc with hc | hc | hc
                     · cases hq : s.pool.pcs (.client 0) <;> simp [hq, CPc.pre] at hc <;> rfl
                     · rw [hc]; rfl
                     · rw [hc]; rfl
      case initing => obtain ⟨n, hc | hc⟩ := hc <;> rw [hc] <;> rfl
      all_goals (rw [hc]; rfl)
  · have e : s.pc = .initing := e
    have hmove : p.pcs (.client 0) = s.pool.pcs (.client 0) ∧ (Joinable s.pool → Joinable p) ∨
        (∃ n, s.pool.pcs (.client 0) = .initClear false n ∧ p.pcs (.client 0) = .initSpawn false n ∧ ¬ Joinable s.pool) ∨
        (∃ n, s.pool.pcs (.client 0) = .initSpawn false (n + 1) ∧ p.pcs (.client 0) = .initSpawn false n ∧ Joinable p) := by
      have hns : (s.pool.pcs (.client 0)).stopOf = none := by
        rcases j2 e with h | h | h
        · rw [h]; rfl
        · rw [h.2]; rfl
        · rw [h.2.1]; rfl
      have hjs := joinable_step ha hi.others hns
      have who : ∀ a, s.pool.pcs a ≠ .idle → a = .client 0 := fun a ha => Classical.byContradiction fun e => ha (hi.others a e)
      have bad : ∀ a c, s.pool.pcs a = c → c ≠ .idle → (∀ n, c ≠ .initClear false n ∧ c ≠ .initSpawn false n) → False := by
        intro a c h1 h2 h3
        have := who a (by rw [h1]; exact h2)
        subst this
        rw [e] at hc
        obtain ⟨n, hc | hc⟩ := hc
        · exact (h3 n).1 (h1.symm.trans hc)
        · exact (h3 n).2 (h1.symm.trans hc)
      cases ha
      case call => rcases hl with hl | hl <;> cases hl
      case initDone r _ => rcases hl with hl | hl <;> cases hl
      case initCleared a r n hpc h =>
        have := who a (by rw [hpc]; simp)
        subst this
        rw [e, hpc] at hc
        obtain ⟨m, hc | hc⟩ := hc
        · cases hc
          exact .inr (.inl ⟨_, hpc, by simp, fun ⟨x, h1, h2⟩ => by rw [h x h1] at h2; cases h2⟩)
        · cases hc
      case initSpawned a r n hpc =>
        have := who a (by rw [hpc]; simp)
        subst this
        rw [e, hpc] at hc
        obtain ⟨m, hc | hc⟩ := hc
        · cases hc
        · cases hc
          exact .inr (.inr ⟨_, hpc, by simp, ⟨(s.pool.workers.length, true), by simp, rfl⟩⟩)
      case initTerminates a r n hpc h => exact .inl ⟨rfl, id⟩
      all_goals first
        | exact .inl ⟨rfl, hjs⟩
        | (exfalso; have hpc := ‹s.pool.pcs _ = _›; exact bad _ _ hpc (by simp) (by simp))
    rcases hmove with ⟨m1, m2⟩ | ⟨n, m1, m2, m3⟩ | ⟨n, m1, m2, m3⟩
    · rcases j2 e with h | h | h
      · exact .inl (m1.trans h)
      · exact .inr (.inl ⟨h.1, m1.trans h.2⟩)
      · exact .inr (.inr ⟨h.1, m1.trans h.2.1, m2 h.2.2⟩)
    · have hcn : s.cur = none := Classical.byContradiction fun hcn => m3 (j1 hcn (by rw [m1]; rfl) (by simp [e]))
      rcases j2 e with h | h | h
      · rw [m1] at h; cases h
        exact .inr (.inl ⟨hcn, m2⟩)
      · rw [m1] at h; cases h.2
      · rw [m1] at h; cases h.2.1
    · rcases j2 e with h | h | h
      · rw [m1] at h; cases h
      · rw [m1] at h
        have h1 := h.1
        cases h.2
        exact .inr (.inr ⟨h1, m2, m3⟩)
      · rw [m1] at h; cases h.2.1

/-! ### The remaining steps -/

theorem FInv.inited_step {ok prev log} {s : FLog} (hi : FInv ok prev log s) (hj : JInv s) (hlive : s.pool.phase = .live) {p}
    (hpc : s.pc = .initing) (h : Act s.pool (.ret (.client 0) .inited) p) :
    FInv ok prev log { s with
        pool := p, pc := .idle, cur := some 0, ring := List.range' s.made (max 1 s.num.toNat),
        made := s.made + max 1 s.num.toNat,
        bufs := fun i => if s.made ≤ i ∧ i < s.made + max 1 s.num.toNat then {} else s.bufs i } ∧ Joinable p := by
  obtain ⟨r1, r2, r3, r4, r5⟩ := ret_step h hi.others
  have hspawn : s.cur = none ∧ Joinable p := by
    have : s.pool.pcs (.client 0) = .initSpawn false 0 ∧ p.threads = s.pool.threads := by
      generalize hl : PoolLabel.ret (.client 0) PoolRet.inited = l at h
      cases h <;> first | cases hl | skip
      case stopAlready a k _ _ => cases k <;> cases hl
      case stopDone a k _ _ _ => cases k <;> cases hl
      case initDone a r h' =>
        cases r <;> cases hl
        exact ⟨h', rfl⟩
    rcases hj.init hpc with e | e | e
    · rw [this.1] at e; cases e
    · rw [this.1] at e; cases e.2
    · refine ⟨e.1, ?_⟩
      unfold Joinable
      rw [this.2]; exact e.2.2
  have hring := hi.curNone hspawn.1
  have hnum := hi.num1
  have hlen : 1 ≤ max 1 s.num.toNat := by omega
  have hnh : ∀ x, ¬ Hand s x := by intro x hx; simp [Hand, hpc] at hx
  refine ⟨{ hi with run := hi.run_step hlive h (disc_ret _ _), others := r1, client := r2, nodup := List.nodup_range',
                    made := ?_, curLt := ?_, curNone := fun e => by simp at e, numLen := fun _ => ?_,
                    pcCur := fun e => (by cases e), lines := fun x y hy => ?_, exec := by show p.started = p.finished ++ s.fl.task; rw [r4, r5]; exact hi.exec,
                    tasks := ?_, curNeed := fun c b e1 e2 _ => ?_, next := fun b e => (by cases e), hand := fun b hb => ?_,
                    flush := fun d i e => (by cases e), fin := fun d e => (by cases e), keep := ?_ }, hspawn.2⟩
  · intro b hb
    simp only [List.mem_range'_1] at hb
    exact hb.2
  · intro c e
    cases e
    simp only [List.length_range']
    omega
  · simp only [List.length_range']
    omega
  · by_cases e : s.made ≤ x ∧ x < s.made + max 1 s.num.toNat
    · simp [e] at hy
    · simp only [if_neg e] at hy; exact hi.lines x y hy
  · rcases hi.tasks with hd | ⟨todo, t1, t2, t3, t4⟩
    · exact .inl (hd.step h).1
    · right
      have : todo = [] := by
        cases todo with
        | nil => rfl
        | cons x xs => have := (t3 x (by simp)).1; rw [hring] at this; simp at this
      subst this
      exact ⟨[], by show p.accepted.Perm (p.finished ++ s.fl.gone ++ []); rw [r3, r5]; exact t1, t2, by simp, t4⟩
  · cases e1
    have hb := List.mem_of_getElem? e2
    simp only [List.mem_range'_1] at hb
    simp [hb]
  · simp [Hand] at hb
  · intro hok
    obtain ⟨w, k1, k2⟩ := hi.keep hok
    refine ⟨w, k1, ?_⟩
    rw [hring] at k2
    have : (List.range' s.made (max 1 s.num.toNat)).flatMap (held { s with
        pool := p, pc := .idle, cur := some 0, ring := List.range' s.made (max 1 s.num.toNat),
        made := s.made + max 1 s.num.toNat,
        bufs := fun i => if s.made ≤ i ∧ i < s.made + max 1 s.num.toNat then {} else s.bufs i }) = [] := by
      simp only [List.flatMap_eq_nil_iff, List.mem_range'_1]
      intro x hx
      simp [held, hx]
    simp only [this]
    simpa using k2

theorem FInv.stop_write {ok prev log} {s : FLog} (hi : FInv ok prev log s) {d : Bool} {i b : Nat} (hpc : s.pc = .flush d i)
    (hi' : (i : Int) < s.num) (hb : s.ring[i % s.ring.length]? = some b) :
    FInv ok prev log { s.setBuf b {} with pc := .flush d (i + 1), file := s.file ++ (s.bufs b).data } := by
  obtain ⟨hdead, hdone⟩ := hi.flush d i hpc
  have hcur := hi.pcCur (by rw [hpc]; rfl)
  have hlt : i < s.ring.length := by have := hi.numLen hcur; omega
  rw [Nat.mod_eq_of_lt hlt] at hb
  have hfl := hi.deadFl hdead
  have hne : ∀ x, x ≠ b → (s.setBuf b {}).bufs x = s.bufs x := by intro x e; simp [setBuf, e]
  have hnh : ∀ x, ¬ Hand { s.setBuf b {} with pc := .flush d (i + 1), file := s.file ++ (s.bufs b).data } x := by
    intro x hx; simp [Hand] at hx
  refine { hi with client := by have := hi.client; rw [hpc] at this; exact this, pcCur := fun _ => hcur,
                   lines := fun x y hy => ?_, tasks := .inl hdead, curNeed := fun c x e1 e2 _ => ?_, next := fun b e => (by cases e),
                   hand := fun x hx => absurd hx (hnh x), flush := fun d' i' e => ?_, fin := fun d e => (by cases e), keep := ?_ }
  · by_cases e : x = b
    · simp [setBuf, e] at hy
    · have hy : y ∈ ((s.setBuf b {}).bufs x).lines := hy
      rw [hne x e] at hy; exact hi.lines x y hy
  · show ((s.setBuf b {}).bufs x).need = false
    by_cases e : x = b
    · simp [setBuf, e]
    · rw [hne x e]; exact hi.curNeed c x e1 e2 (by simp [hpc])
  · cases e
    refine ⟨hdead, fun j x hj hx hok => ?_⟩
    show ((s.setBuf b {}).bufs x).lines = []
    by_cases e : x = b
    · simp [setBuf, e]
    · rw [hne x e]
      refine hdone j x ?_ hx hok
      have : j ≠ i := by
        rintro rfl
        exact e (Option.some.inj (hx.symm.trans hb))
      omega
  · intro hok
    obtain ⟨w, k1, k2⟩ := hi.keep hok
    refine ⟨w ++ (s.bufs b).lines, by simp [k1, Buf.data], ?_⟩
    obtain ⟨rest, e1, e2⟩ := flatMap_change (held s)
      (held { s.setBuf b {} with pc := .flush d (i + 1), file := s.file ++ (s.bufs b).data }) b s.ring
      hi.nodup (List.mem_of_getElem? hb) (fun x hx => by simp [held, setBuf, hx])
    have a1 : held s b = (s.bufs b).lines := by simp [held, hfl]
    have a2 : held { s.setBuf b {} with pc := .flush d (i + 1), file := s.file ++ (s.bufs b).data } b = [] := by
      simp [held, setBuf]
    rw [a1] at e1
    rw [a2] at e2
    refine List.Perm.trans ?_ k2
    rw [List.append_assoc]
    refine List.Perm.append_left _ ?_
    exact (e2.append_left _).trans (by simpa using e1.symm)

theorem FInv.stop_skip {ok prev log} {s : FLog} (hi : FInv ok prev log s) {d : Bool} {i b : Nat} (hpc : s.pc = .flush d i)
    (hi' : (i : Int) < s.num) (hb : s.ring[i % s.ring.length]? = some b) (h : (s.bufs b).data = []) :
    FInv ok prev log { s with pc := .flush d (i + 1) } := by
  obtain ⟨hdead, hdone⟩ := hi.flush d i hpc
  have hcur := hi.pcCur (by rw [hpc]; rfl)
  have hlt : i < s.ring.length := by have := hi.numLen hcur; omega
  rw [Nat.mod_eq_of_lt hlt] at hb
  refine hi.pc_step _ (by have := hi.client; rw [hpc] at this; exact this) (fun _ => hcur) (by simp [hpc]) (by simp)
    (fun b hb => by simp [Hand] at hb) (fun d' i' e => ?_) (by simp)
  cases e
  refine ⟨hdead, fun j x hj hx hok => ?_⟩
  by_cases e : j = i
  · subst e
    have : x = b := Option.some.inj (hx.symm.trans hb)
    subst this
    exact (Buf.data_nil (hi.lines _)).1 h
  · exact hdone j x (by omega) hx hok

theorem FInv.stop_end {ok prev log} {s : FLog} (hi : FInv ok prev log s) {d : Bool} {i : Nat} (hpc : s.pc = .flush d i)
    (hi' : ¬ (i : Int) < s.num) : FInv ok prev log { s with pc := .fin d, cur := none, ring := [] } := by
  obtain ⟨hdead, hdone⟩ := hi.flush d i hpc
  have hcur := hi.pcCur (by rw [hpc]; rfl)
  have hnum := hi.numLen hcur
  refine { hi with client := by have := hi.client; rw [hpc] at this; exact this, nodup := List.nodup_nil, made := by simp,
                   curLt := by simp, curNone := fun _ => rfl, numLen := fun e => absurd rfl e, pcCur := by simp [LPc.usesCur],
                   tasks := .inl hdead, curNeed := by simp, next := fun b e => (by cases e),
                   hand := fun x hx => by simp [Hand] at hx, flush := fun d' i' e => (by cases e),
                   fin := fun _ _ => ⟨rfl, hdead⟩, keep := ?_ }
  intro hok
  obtain ⟨w, k1, k2⟩ := hi.keep hok
  refine ⟨w, k1, ?_⟩
  have : s.ring.flatMap (held s) = [] := by
    simp only [List.flatMap_eq_nil_iff]
    intro x hx
    obtain ⟨j, hj⟩ := List.getElem?_of_mem hx
    have hlt := (List.getElem?_eq_some_iff.1 hj).1
    have := hdone j x (by omega) hj hok
    unfold held
    split
    · rfl
    · exact this
  rw [this] at k2
  simpa using k2

theorem stop_dead {ok prev log} {s : FLog} (hi : FInv ok prev log s) {p} (h : Act s.pool (.ret (.client 0) .stopped) p) : Dead p := by
  obtain ⟨tr, h1, h2⟩ := hi.run
  obtain ⟨e1, e2, _⟩ := stopped_states h1 h2 h
  exact ⟨e1, e2⟩

/-- The labels under which nothing is lost. -/
def GoodLabel (l : LLabel) : Prop := NumOk l ∧ l ≠ .cut ∧ l ≠ .stopOpenFailed

theorem line_ne (lvl : Level) (time msg : Str) : FLog.line lvl time msg ≠ [] := by
  simp [FLog.line]

theorem finv_step {ok prev log} {s s' : FLog} {l} (hi : FInv ok prev log s) (hj : JInv s) (hlive : s.pool.phase = .live)
    (hnum : NumOk l) (hg : ok → l ≠ .cut ∧ l ≠ .stopOpenFailed) (h : Step s l s') : FInv ok prev (log ++ loggedLines [l]) s' ∧ JInv s' := by
  have hcall : ∀ {op p}, Act s.pool (.call (.client 0) op) p → (∀ a, a ≠ .client 0 → p.pcs a = .idle) ∧ p.pcs (.client 0) = entry op ∧
      p.accepted = s.pool.accepted ∧ p.started = s.pool.started ∧ p.finished = s.pool.finished ∧ p.threads = s.pool.threads ∧
      s.pool.pcs (.client 0) = .idle := by
    intro op p h
    obtain ⟨e0, e⟩ := call_step h
    subst e
    exact ⟨fun a ha => by simp [ha, hi.others a ha], by simp, rfl, rfl, rfl, rfl, e0⟩
  have jpc : ∀ pc : LPc, (∀ d i, s.pc ≠ .flush d i) → pc ≠ .initing → (pc = .destroying ∨ pc = .gone → s.cur = none) → JInv { s with pc := pc } := by
    intro pc h1 h2 h3
    exact ⟨fun e1 e2 e3 => hj.join e1 e2 h1, fun e => absurd e h2, h3⟩
  cases h
  case pool p h h1 h2 =>
    simp only [loggedLines, List.flatMap_cons, List.flatMap_nil, List.append_nil]
    exact ⟨hi.pool_step hlive h (.inl rfl) s.fl (by rw [h1, h2]; exact hi.exec) (by rw [h2]) (fun b hb => .inl hb) (fun _ => .inr rfl),
      JInv.pool_step hi hj h (.inl rfl) s.fl⟩
  case spurious p h =>
    simp only [loggedLines, List.flatMap_cons, List.flatMap_nil, List.append_nil]
    have : p.started = s.pool.started ∧ p.finished = s.pool.finished := by
      generalize hl : (PoolLabel.spurious : PoolLabel Nat) = l at h
      cases h <;> first | cases hl | skip
      case stopAlready a k _ _ => cases k <;> cases hl
      case stopDone a k _ _ _ => cases k <;> cases hl
      case wSpurious => exact ⟨rfl, rfl⟩
    exact ⟨hi.pool_step hlive h (.inr rfl) s.fl (by rw [this.1, this.2]; exact hi.exec) (by rw [this.2]) (fun b hb => .inl hb) (fun _ => .inr rfl),
      JInv.pool_step hi hj h (.inr rfl) s.fl⟩
  case flushStart p b h h1 h2 hf =>
    simp only [loggedLines, List.flatMap_cons, List.flatMap_nil, List.append_nil]
    have he := hi.exec
    rw [hf] at he
    refine ⟨hi.pool_step hlive h (.inl rfl) (.start b) ?_ ?_ ?_ ?_, JInv.pool_step hi hj h (.inl rfl) _⟩
    · rw [h1, h2, he]; simp [FlushPc.task]
    · rw [h2, hf]; rfl
    · intro x hx
      simp only [FlushPc.busy, Option.some.injEq] at hx
      exact .inr ⟨by rw [hx], hf⟩
    · intro x; exact .inl ⟨by simp, by simp [hf]⟩
  case flushEmpty b hf h =>
    simp only [loggedLines, List.flatMap_cons, List.flatMap_nil, List.append_nil]
    exact ⟨hi.flush_end hf, ⟨hj.join, hj.init, hj.dest⟩⟩
  case flushFailed b hf h =>
    simp only [loggedLines, List.flatMap_cons, List.flatMap_nil, List.append_nil]
    exact ⟨hi.flush_end hf, ⟨hj.join, hj.init, hj.dest⟩⟩
  case flushWritten b hf h =>
    simp only [loggedLines, List.flatMap_cons, List.flatMap_nil, List.append_nil]
    exact ⟨hi.flush_written hf, ⟨hj.join, hj.init, hj.dest⟩⟩
  case flushCut b k hf h =>
    simp only [loggedLines, List.flatMap_cons, List.flatMap_nil, List.append_nil]
    have hw := hi.flush_written hf
    exact ⟨⟨hw.run, hw.others, hw.client, hw.nodup, hw.made, hw.curLt, hw.curNone, hw.num1, hw.numLen, hw.pcCur, hw.lines, hw.exec,
      hw.tasks, hw.curNeed, hw.next, hw.hand, hw.flush, hw.fin, fun hok => absurd rfl (hg hok).1⟩, ⟨hj.join, hj.init, hj.dest⟩⟩
  case flushClear b hf =>
    simp only [loggedLines, List.flatMap_cons, List.flatMap_nil, List.append_nil]
    exact ⟨hi.flush_clear hf, ⟨hj.join, hj.init, hj.dest⟩⟩
  case flushUnmark b hf =>
    simp only [loggedLines, List.flatMap_cons, List.flatMap_nil, List.append_nil]
    exact ⟨hi.flush_unmark hf, ⟨hj.join, hj.init, hj.dest⟩⟩
  case flushTimed b hf =>
    simp only [loggedLines, List.flatMap_cons, List.flatMap_nil, List.append_nil]
    exact ⟨hi.flush_timed hf, ⟨hj.join, hj.init, hj.dest⟩⟩
  case flushDone p b h h1 h2 hf =>
    simp only [loggedLines, List.flatMap_cons, List.flatMap_nil, List.append_nil]
    have he := hi.exec
    rw [hf] at he
    refine ⟨hi.pool_step hlive h (.inl rfl) .none ?_ ?_ ?_ ?_, JInv.pool_step hi hj h (.inl rfl) _⟩
    · rw [h1, h2, he]; simp [FlushPc.task]
    · rw [h2, hf]; simp [FlushPc.gone]
    · intro x hx; cases hx
    · intro x; exact .inl ⟨by simp, by simp [hf]⟩
  case setNum n hpc =>
    simp only [loggedLines, List.flatMap_cons, List.flatMap_nil, List.append_nil]
    obtain ⟨hn, hr⟩ := hnum _ _ rfl
    have hcn : s.cur = none := by simpa using hr
    exact ⟨{ hi with num1 := hn, numLen := fun e => absurd hcn e }, ⟨hj.join, hj.init, hj.dest⟩⟩
  case setSize n hpc =>
    simp only [loggedLines, List.flatMap_cons, List.flatMap_nil, List.append_nil]
    exact ⟨{ hi with }, ⟨hj.join, hj.init, hj.dest⟩⟩
  case setLevel n hpc =>
    simp only [loggedLines, List.flatMap_cons, List.flatMap_nil, List.append_nil]
    exact ⟨{ hi with }, ⟨hj.join, hj.init, hj.dest⟩⟩
  case init p hpc h =>
    simp only [loggedLines, List.flatMap_cons, List.flatMap_nil, List.append_nil]
    obtain ⟨c1, c2, c3, c4, c5, c6, c7⟩ := hcall h
    refine ⟨hi.ext_step hlive h (disc_call _) .initing c1 (by rw [c2]; exact ⟨_, .inl rfl⟩) c3 c4 c5 (by simp [LPc.usesCur]) (by simp [hpc]) (by simp)
      (fun b hb => by simp [Hand] at hb) (by simp) (by simp), fun e1 e2 e3 => ?_, fun _ => .inl c2, by simp⟩
    have := hj.join e1 (by rw [c7]; rfl) (by simp [hpc])
    unfold Joinable at this ⊢
    rw [c6]; exact this
  case inited p hpc h hs =>
    simp only [loggedLines, List.flatMap_cons, List.flatMap_nil, List.append_nil]
    obtain ⟨h1, h2⟩ := hi.inited_step hj hlive hpc h
    exact ⟨h1, fun _ _ _ => h2, by simp, by simp⟩
  case log lvl time msg c b hpc hl hc hb =>
    exact ⟨hi.log_step hpc hc hb (line_ne _ _ _), fun e1 e2 e3 => hj.join e1 e2 (by simp [hpc]), by simp, by simp⟩
  case ignored =>
    simp only [loggedLines, List.flatMap_cons, List.flatMap_nil, List.append_nil]
    exact ⟨hi, hj⟩
  case noFlush c b hpc hc hb h =>
    simp only [loggedLines, List.flatMap_cons, List.flatMap_nil, List.append_nil]
    exact ⟨hi.pc_step _ (by have := hi.client; rw [hpc] at this; exact this) (by simp [LPc.usesCur]) (by simp [hpc]) (by simp)
      (fun b hb => by simp [Hand] at hb) (by simp) (by simp), jpc _ (by simp [hpc]) (by simp) (by simp)⟩
  case mark c b hpc hc hb h =>
    simp only [loggedLines, List.flatMap_cons, List.flatMap_nil, List.append_nil]
    exact ⟨hi.mark_step hpc hc hb, fun e1 e2 e3 => hj.join e1 e2 (by simp [hpc]), by simp, by simp⟩
  case nextFull b c n hpc hc hn h =>
    simp only [loggedLines, List.flatMap_cons, List.flatMap_nil, List.append_nil]
    exact ⟨hi.full_step hpc hc, fun e1 e2 e3 => hj.join (by rw [hc]; simp) e2 (by simp [hpc]), by simp, by simp⟩
  case nextFree b c n hpc hc hn h =>
    simp only [loggedLines, List.flatMap_cons, List.flatMap_nil, List.append_nil]
    exact ⟨hi.free_step hpc hc hn h, fun e1 e2 e3 => hj.join (by rw [hc]; simp) e2 (by simp [hpc]), by simp, by simp⟩
  case add p b hpc h =>
    simp only [loggedLines, List.flatMap_cons, List.flatMap_nil, List.append_nil]
    obtain ⟨c1, c2, c3, c4, c5, c6, c7⟩ := hcall h
    refine ⟨hi.ext_step hlive h (disc_call _) (.adding b) c1 (by rw [c2]; exact .inl (by simp [entry, CPc.pre])) c3 c4 c5
      (fun _ => hi.pcCur (by rw [hpc]; rfl)) (by simp [hpc]) (by simp)
      (fun x hx => by simp [Hand] at hx; exact .inr (.inl (by rw [hpc, hx.1]))) (by simp) (by simp), fun e1 e2 e3 => ?_, by simp, by simp⟩
    have := hj.join e1 (by rw [c7]; rfl) (by simp [hpc])
    unfold Joinable at this ⊢
    rw [c6]; exact this
  case added p b rc hpc h =>
    simp only [loggedLines, List.flatMap_cons, List.flatMap_nil, List.append_nil]
    obtain ⟨r1, r2, r3, r4, r5⟩ := ret_step h hi.others
    refine ⟨hi.ext_step hlive h (disc_ret _ _) .idle r1 r2 r3 r4 r5 (by simp [LPc.usesCur]) (by simp [hpc]) (by simp)
      (fun x hx => by simp [Hand] at hx) (by simp) (by simp), fun e1 e2 e3 => ?_, by simp, by simp⟩
    have hso : (s.pool.pcs (.client 0)).stopOf = none := by
      have hc := hi.client
      rw [hpc] at hc
      rcases hc with hc | hc | hc
      · cases hq : s.pool.pcs (.client 0) <;> simp [hq, CPc.pre] at hc <;> rfl
      · rw [hc]; rfl
      · rw [hc]; rfl
    exact joinable_step h hi.others hso (hj.join e1 hso (by simp [hpc]))
  case stop p d hpc h =>
    simp only [loggedLines, List.flatMap_cons, List.flatMap_nil, List.append_nil]
    obtain ⟨c1, c2, c3, c4, c5, c6, c7⟩ := hcall h
    refine ⟨hi.ext_step hlive h (disc_call _) (.stopping d) c1 (by rw [c2]; rfl) c3 c4 c5 (by simp [LPc.usesCur]) (by simp [hpc]) (by simp)
      (fun b hb => by simp [Hand] at hb) (by simp) (by simp), fun e1 e2 e3 => ?_, by simp, by simp⟩
    rw [c2] at e2; cases e2
  case stopNull p d hpc h hc =>
    simp only [loggedLines, List.flatMap_cons, List.flatMap_nil, List.append_nil]
    obtain ⟨r1, r2, r3, r4, r5⟩ := ret_step h hi.others
    exact ⟨hi.ext_step hlive h (disc_ret _ _) (.fin d) r1 r2 r3 r4 r5 (by simp [LPc.usesCur]) (by simp [hpc]) (by simp)
      (fun x hx => by simp [Hand] at hx) (by simp) (fun _ _ => ⟨hc, stop_dead hi h⟩), fun e1 => absurd hc e1, by simp, by simp⟩
  case stopJoined p d c hpc h hc =>
    simp only [loggedLines, List.flatMap_cons, List.flatMap_nil, List.append_nil]
    obtain ⟨r1, r2, r3, r4, r5⟩ := ret_step h hi.others
    exact ⟨hi.ext_step hlive h (disc_ret _ _) (.flush d 0) r1 r2 r3 r4 r5 (fun _ => by rw [hc]; simp) (by simp [hpc]) (by simp)
      (fun x hx => by simp [Hand] at hx) (fun _ _ e => ⟨stop_dead hi h, by cases e; rfl⟩) (by simp),
      fun _ _ e3 => absurd rfl (e3 d 0), by simp, by simp⟩
  case stopSkip d b i hpc hlt hb h =>
    simp only [loggedLines, List.flatMap_cons, List.flatMap_nil, List.append_nil]
    exact ⟨hi.stop_skip hpc hlt hb h, fun _ _ e3 => absurd rfl (e3 d (i + 1)), by simp, by simp⟩
  case stopWrite d b i hpc hlt hb h =>
    simp only [loggedLines, List.flatMap_cons, List.flatMap_nil, List.append_nil]
    exact ⟨hi.stop_write hpc hlt hb, fun _ _ e3 => absurd rfl (e3 d (i + 1)), by simp, by simp⟩
  case stopFailed d b i hpc hlt hb h =>
    simp only [loggedLines, List.flatMap_cons, List.flatMap_nil, List.append_nil]
    have hdead := (hi.flush d i hpc).1
    refine ⟨hi.pc_step _ (by have := hi.client; rw [hpc] at this; exact this) (fun _ => hi.pcCur (by rw [hpc]; rfl)) (by simp [hpc]) (by simp)
      (fun b hb => by simp [Hand] at hb) (fun d' i' e => ⟨hdead, fun _ _ _ _ hok => absurd rfl (hg hok).2⟩) (by simp),
      fun _ _ e3 => absurd rfl (e3 d (i + 1)), by simp, by simp⟩
  case stopCut d b k i hpc hlt hb h =>
    simp only [loggedLines, List.flatMap_cons, List.flatMap_nil, List.append_nil]
    have hw := hi.stop_write hpc hlt hb
    exact ⟨⟨hw.run, hw.others, hw.client, hw.nodup, hw.made, hw.curLt, hw.curNone, hw.num1, hw.numLen, hw.pcCur, hw.lines, hw.exec,
      hw.tasks, hw.curNeed, hw.next, hw.hand, hw.flush, hw.fin, fun hok => absurd rfl (hg hok).1⟩,
      fun _ _ e3 => absurd rfl (e3 d (i + 1)), by simp, by simp⟩
  case stopEnd d i hpc hlt =>
    simp only [loggedLines, List.flatMap_cons, List.flatMap_nil, List.append_nil]
    exact ⟨hi.stop_end hpc hlt, fun e1 => absurd rfl e1, by simp, by simp⟩
  case stopped hpc =>
    simp only [loggedLines, List.flatMap_cons, List.flatMap_nil, List.append_nil]
    exact ⟨hi.pc_step _ (by have := hi.client; rw [hpc] at this; exact this) (by simp [LPc.usesCur]) (by simp [hpc]) (by simp)
      (fun b hb => by simp [Hand] at hb) (by simp) (by simp), jpc _ (by simp [hpc]) (by simp) (by simp)⟩
  case destroy p hpc h =>
    simp only [loggedLines, List.flatMap_cons, List.flatMap_nil, List.append_nil]
    obtain ⟨c1, c2, c3, c4, c5, c6, c7⟩ := hcall h
    have hcn := (hi.fin _ hpc).1
    exact ⟨hi.ext_step hlive h (disc_call _) .destroying c1 (by rw [c2]; exact .inl rfl) c3 c4 c5 (by simp [LPc.usesCur]) (by simp [hpc]) (by simp)
      (fun b hb => by simp [Hand] at hb) (by simp) (by simp), fun e1 => absurd hcn e1, by simp, fun _ => hcn⟩
  case destroyed p hpc h =>
    simp only [loggedLines, List.flatMap_cons, List.flatMap_nil, List.append_nil]
    obtain ⟨r1, r2, r3, r4, r5⟩ := ret_step h hi.others
    have hcn := hj.dest (.inl hpc)
    exact ⟨hi.ext_step hlive h (disc_ret _ _) .gone r1 r2 r3 r4 r5 (by simp [LPc.usesCur]) (by simp [hpc]) (by simp)
      (fun x hx => by simp [Hand] at hx) (by simp) (by simp), fun e1 => absurd hcn e1, by simp, fun _ => hcn⟩

theorem finv_init (ok : Prop) (prev : Str) : FInv ok prev [] (newLogger prev) ∧ JInv (newLogger prev) := by
  refine ⟨⟨⟨[], .nil _, by simp⟩, fun _ _ => rfl, rfl, List.nodup_nil, by simp [newLogger], by simp [newLogger], fun _ => rfl,
    by simp [newLogger], by simp [newLogger], by simp [newLogger, LPc.usesCur], by simp [newLogger], rfl, .inr ⟨[], .refl _, List.nodup_nil, by simp, by simp [newLogger, FlushPc.busy]⟩,
    by simp [newLogger], by simp [newLogger], by simp [newLogger, Hand], by simp [newLogger], by simp [newLogger], fun _ => ⟨[], by simp [newLogger], .refl _⟩⟩, ⟨by simp [newLogger], by simp [newLogger], by simp [newLogger]⟩⟩

theorem finv_run {prev : Str} {tr : List LLabel} {s : FLog} (h : LRun (newLogger prev) tr s) (hg : ∀ l ∈ tr, GoodLabel l) :
    FInv True prev (loggedLines tr) s ∧ JInv s := by
  induction h with
  | nil => exact finv_init True prev
  | snoc _ hlive hst ih =>
    obtain ⟨h1, h2⟩ := ih (fun l hl => hg l (by simp [hl]))
    have := finv_step h1 h2 hlive (hg _ (by simp)).1 (fun _ => (hg _ (by simp)).2) hst
    simpa [loggedLines] using this

/-- What holds whatever the file system does: everything but what the file contains. -/
theorem finv_faults {prev : Str} {tr : List LLabel} {s : FLog} (h : LRun (newLogger prev) tr s) (hg : ∀ l ∈ tr, NumOk l) :
    FInv False prev (loggedLines tr) s ∧ JInv s := by
  induction h with
  | nil => exact finv_init False prev
  | snoc _ hlive hst ih =>
    obtain ⟨h1, h2⟩ := ih (fun l hl => hg l (by simp [hl]))
    have := finv_step h1 h2 hlive (hg _ (by simp)) (fun h => h.elim) hst
    simpa [loggedLines] using this

end Cppnet
