import Verif.Proofs.PoolHist

/-! # An executable scheduler for the thread pool, used for concrete executions only -/

namespace Cppnet
open Spec Pool
variable {α : Type}

/-- Who moves next. -/
inductive Cmd (α : Type) where
  | call (j : Nat) (op : PoolOp α)
  | client (j : Nat)
  | worker (i : Nat)
  | taskCall (i : Nat) (op : PoolOp α)
  | inTask (i : Nat)
  | throws (i : Nat)

/-- The first blocked worker. -/
def firstBlocked (ws : List (WPc α)) : Option Nat := ws.findIdx? blocked

/-- One action of an agent inside a pool function. -/
def agentStep (s : Pool α) (a : Agent) : Option (Pool α × PoolLabel α) :=
  match s.pcs a with
  | .idle => none
  | .addCheck t =>
    if s.cont = false ∨ s.threadNum = 0 then some (s.setPc a .idle, .ret a (.added (-2)))
    else some (s.setPc a (.addLock t), .tau)
  | .addLock t => if s.lock.isNone then some ({ s with lock := some a }.setPc a (.addPush t), .tau) else none
  | .addPush t => some ({ s with queue := s.queue ++ [t], accepted := s.accepted ++ [t] }.setPc a .addNotify, .tau)
  | .addNotify =>
    match firstBlocked s.workers with
    | some i => some ((s.setW i .wake).setPc a .addUnlock, .tau)
    | none => some (s.setPc a .addUnlock, .tau)
  | .addUnlock => some ({ s with lock := none }.setPc a .idle, .ret a (.added 0))
  | .stopCheck k =>
    if s.cont then some (s.setPc a (.stopSet k), .tau) else some (s.setPc a (afterStop k), stopLabel a k)
  | .stopSet k => some ({ s with cont := false }.setPc a (.stopNotify k), .tau)
  | .stopNotify k => some ({ s with workers := s.workers.map WPc.notify }.setPc a (.stopJoin k 0), .tau)
  | .stopJoin k i =>
    match s.threads[i]? with
    | none => some (s.setPc a (afterStop k), stopLabel a k)
    | some (_, false) => some ({ s with phase := .terminated }, .tau)
    | some (w, true) =>
      match s.workers[w]? with
      | some .exited => some ({ s with threads := s.threads.set i (w, false) }.setPc a (.stopJoin k (i + 1)), .tau)
      | _ => if a = .worker w then some ({ s with phase := .terminated }, .tau) else none
  | .resizeCheck n =>
    if s.threadNum = n ∨ n = 0 then some (s.setPc a .idle, .ret a .resized)
    else some (s.setPc a (.stopCheck (.resize n)), .tau)
  | .resizeClear n =>
    if s.threads.any (·.2) then some ({ s with phase := .terminated }, .tau)
    else some ({ s with threadNum := n, threads := [] }.setPc a (.initClear true n), .tau)
  | .initClear r n =>
    if s.threads.any (·.2) then some ({ s with phase := .terminated }, .tau)
    else some ({ s with threadNum := n, threads := [] }.setPc a (.initSpawn r n), .tau)
  | .initSpawn r (n + 1) =>
    some ({ s with workers := s.workers ++ [WPc.lock],
                   threads := s.threads ++ [(s.workers.length, true)] }.setPc a (.initSpawn r n), .tau)
  | .initSpawn r 0 => some (s.setPc a .idle, .ret a (if r then .resized else .inited))
  | .members =>
    if s.threads.any (·.2) then some ({ s with phase := .terminated }, .tau)
    else some ({ s with phase := .destroyed }.setPc a .idle, .ret a .destroyed)
  | .numLock => if s.lock.isNone then some ({ s with lock := some a }.setPc a .numSize, .tau) else none
  | .numSize => some (s.setPc a (.numBusy s.queue.length), .tau)
  | .numBusy k => some ({ s with lock := none }.setPc a .idle, .ret a (.numbers s.busy k))

/-- One action of a worker (its task, if any, makes no calls). -/
def workerStep (s : Pool α) (i : Nat) : Option (Pool α) :=
  match s.workers[i]? with
  | none => none
  | some .lock => if s.lock.isNone then some ({ s with lock := some (.worker i) }.setW i .check) else none
  | some .check => if s.cont && s.queue.isEmpty then some (s.setW i .pred) else some (s.setW i .cont)
  | some .pred => if s.cont && s.queue.isEmpty then some (s.setW i .block) else some (s.setW i .cont)
  | some .block => some ({ s with lock := none }.setW i .waiting)
  | some .waiting => none
  | some .wake => if s.lock.isNone then some ({ s with lock := some (.worker i) }.setW i .pred) else none
  | some .cont => if s.cont then some (s.setW i .size) else some ({ s with lock := none }.setW i .exited)
  | some .size =>
    match s.queue with
    | [] => some ({ s with lock := none }.setW i .lock)
    | t :: q => some ({ s with lock := none, queue := q, popped := s.popped ++ [t] }.setW i (.taken t))
  | some (.taken t) => some ({ s with busy := s.busy + 1 }.setW i (.start t))
  | some (.start t) => some ({ s with started := s.started ++ [t] }.setW i (.run t))
  | some (.run t) =>
    match s.pcs (.worker i) with
    | .idle => some ({ s with finished := s.finished ++ [t] }.setW i .done)
    | _ => none
  | some .done => some ({ s with busy := s.busy - 1 }.setW i .lock)
  | some .exited => none

def cmdStep (s : Pool α) : Cmd α → Option (Pool α × PoolLabel α)
  | .call j op =>
    match s.pcs (.client j) with
    | .idle => some (s.setPc (.client j) (entry op), .call (.client j) op)
    | _ => none
  | .client j => agentStep s (.client j)
  | .worker i => (workerStep s i).map (·, .tau)
  | .taskCall i op =>
    match s.pcs (.worker i), s.workers[i]? with
    | .idle, some (.run _) => some (s.setPc (.worker i) (entry op), .call (.worker i) op)
    | _, _ => none
  | .inTask i => agentStep s (.worker i)
  | .throws i =>
    match s.pcs (.worker i), s.workers[i]? with
    | .idle, some (.run _) => some ({ s with phase := .terminated }, .throws)
    | _, _ => none

def cmdRun (s : Pool α) : List (Cmd α) → Option (Pool α × List (PoolLabel α))
  | [] => some (s, [])
  | c :: cs =>
    if s.phase = .live then
      match cmdStep s c with
      | none => none
      | some (s', l) => (cmdRun s' cs).map fun x => (x.1, l :: x.2)
    else none

theorem any_false {l : List (Nat × Bool)} (h : ¬ l.any (·.2) = true) : ∀ x ∈ l, x.2 = false := by
  intro x hx
  cases hb : x.2 with
  | false => rfl
  | true => exact absurd (List.any_eq_true.2 ⟨x, hx, hb⟩) h

theorem agentStep_sound {s s' : Pool α} {a : Agent} {l} (h : agentStep s a = some (s', l)) : Act s l s' := by
  unfold agentStep at h
  split at h
  · cases h
  · split at h <;> cases h
    · exact .addRefused ‹_› ‹_›
    · rename_i hpc hn
      exact .addChecked hpc (by cases hc : s.cont <;> simp_all) (by simp_all)
  · split at h <;> cases h
    rename_i hpc hn
    exact .addLocked hpc (by simpa using hn)
  · cases h; exact .addPushed ‹_›
  · rename_i hpc
    split at h
    · rename_i i hi
      cases h
      obtain ⟨hlt, hb, _⟩ := List.findIdx?_eq_some_iff_getElem.1 hi
      refine .addNotified hpc ?_
      rw [List.getElem?_eq_getElem hlt]
      generalize s.workers[i] = w at hb
      cases w <;> simp [blocked] at hb
      rfl
    · rename_i hi
      cases h
      refine .addNobody hpc fun w hw e => ?_
      have := List.findIdx?_eq_none_iff.1 hi w hw
      rw [e] at this
      cases this
  · cases h; exact .addDone ‹_›
  · split at h <;> cases h
    · exact .stopChecked ‹_› ‹_›
    · rename_i hpc hc
      exact .stopAlready hpc (by simpa using hc)
  · cases h; exact .stopFlag ‹_›
  · cases h; exact .stopNotified ‹_›
  · rename_i k i hpc
    split at h
    · cases h
      exact .stopDone hpc (List.getElem?_eq_none_iff.1 ‹_›)
    · cases h; exact .stopBadJoin hpc ‹_›
    · split at h
      · cases h
        exact .stopJoined hpc ‹_› ‹_›
      · split at h <;> cases h
        subst a
        exact .stopSelfJoin hpc ‹_›
  · split at h <;> cases h
    · exact .resizeSame ‹_› ‹_›
    · rename_i hpc hn
      exact .resizeStop hpc (fun e => hn (.inl e)) (fun e => hn (.inr e))
  · rename_i hpc
    split at h <;> cases h
    · exact .resizeTerminates hpc (List.any_eq_true.1 ‹_›)
    · exact .resizeCleared hpc (any_false ‹_›)
  · rename_i hpc
    split at h <;> cases h
    · exact .initTerminates hpc (List.any_eq_true.1 ‹_›)
    · exact .initCleared hpc (any_false ‹_›)
  · cases h; exact .initSpawned ‹_›
  · cases h; exact .initDone ‹_›
  · rename_i hpc
    split at h <;> cases h
    · exact .destroyTerminates hpc (List.any_eq_true.1 ‹_›)
    · exact .destroyed hpc (any_false ‹_›)
  · split at h <;> cases h
    rename_i hpc hn
    exact .numLocked hpc (by simpa using hn)
  · cases h; exact .numSized ‹_›
  · cases h; exact .numDone ‹_›

theorem workerStep_sound {s s' : Pool α} {i : Nat} (h : workerStep s i = some s') : Act s .tau s' := by
  unfold workerStep at h
  split at h
  · cases h
  · split at h <;> cases h
    rename_i hpc hn
    exact .wLocked hpc (by simpa using hn)
  · rename_i hpc
    split at h <;> cases h
    · rename_i hn; simp at hn; exact .wWait hpc hn.1 hn.2
    · rename_i hn; exact .wNoWait hpc (by cases hc : s.cont <;> simp_all)
  · rename_i hpc
    split at h <;> cases h
    · rename_i hn; simp at hn; exact .wPredFalse hpc hn.2 hn.1
    · rename_i hn; exact .wPredTrue hpc (by cases hc : s.cont <;> simp_all)
  · cases h; exact .wBlocked ‹_›
  · cases h
  · split at h <;> cases h
    rename_i hpc hn
    exact .wRelocked hpc (by simpa using hn)
  · rename_i hpc
    split at h <;> cases h
    · exact .wGoOn hpc ‹_›
    · rename_i hn; exact .wExit hpc (by simpa using hn)
  · rename_i hpc
    split at h <;> cases h
    · exact .wEmpty hpc ‹_›
    · exact .wPop hpc ‹_›
  · cases h; exact .wBusy ‹_›
  · cases h; exact .wStart ‹_›
  · rename_i hpc
    split at h <;> cases h
    exact .wFinish hpc ‹_›
  · cases h; exact .wUnbusy ‹_›
  · cases h

theorem cmdStep_sound {s s' : Pool α} {c : Cmd α} {l} (h : cmdStep s c = some (s', l)) : Act s l s' := by
  cases c with
  | call j op =>
    simp only [cmdStep] at h
    split at h <;> cases h
    exact .call ‹_› trivial
  | client j => exact agentStep_sound h
  | worker i =>
    simp only [cmdStep, Option.map_eq_some_iff, Prod.mk.injEq] at h
    obtain ⟨_, h, rfl, rfl⟩ := h
    exact workerStep_sound h
  | taskCall i op =>
    simp only [cmdStep] at h
    split at h <;> cases h
    exact .call ‹_› ⟨_, ‹_›⟩
  | inTask i => exact agentStep_sound h
  | throws i =>
    simp only [cmdStep] at h
    split at h <;> cases h
    exact .wThrow ‹_› ‹_›

theorem pool_run_cons {s s' s'' : Pool α} {l tr} (h1 : s.phase = .live) (h2 : Act s l s') (h : Run s' tr s'') : Run s (l :: tr) s'' := by
  induction h with
  | nil => exact .snoc (.nil _) h1 h2
  | snoc _ hl ha ih => exact .snoc ih hl ha

theorem pool_run_append {s s' s'' : Pool α} {tr tr'} (h : Run s tr s') (h' : Run s' tr' s'') : Run s (tr ++ tr') s'' := by
  induction h' with
  | nil => simpa using h
  | snoc _ hl ha ih => rw [← List.append_assoc]; exact .snoc ih hl ha

theorem cmdRun_sound : ∀ {cs : List (Cmd α)} {s s' : Pool α} {tr}, cmdRun s cs = some (s', tr) → Run s tr s'
  | [], s, s', tr, h => by cases h; exact .nil s
  | c :: cs, s, s', tr, h => by
    simp only [cmdRun] at h
    split at h
    · split at h
      · cases h
      · rename_i hl _ s1 l h1
        simp only [Option.map_eq_some_iff] at h
        obtain ⟨⟨s2, tr2⟩, h2, h3⟩ := h
        cases h3
        exact pool_run_cons hl (cmdStep_sound h1) (cmdRun_sound h2)
    · cases h

/-- What is shown of a concrete execution. -/
structure Shown (α : Type) where
  queue : List α
  workers : List (WPc α)
  threads : List (Nat × Bool)
  cont : Bool
  phase : PoolPhase
  accepted : List α
  started : List α
  finished : List α
  client0 : CPc α
  client1 : CPc α
  trace : List (PoolLabel α)
  deriving DecidableEq

def shown (x : Option (Pool α × List (PoolLabel α))) : Option (Shown α) :=
  x.map fun (s, tr) => ⟨s.queue, s.workers, s.threads, s.cont, s.phase, s.accepted, s.started, s.finished,
    s.pcs (.client 0), s.pcs (.client 1), tr⟩

theorem shown_run {cs : List (Cmd α)} {v : Shown α} (h : shown (cmdRun {} cs) = some v) :
    ∃ s : Pool α, Run {} v.trace s ∧ s.queue = v.queue ∧ s.workers = v.workers ∧ s.threads = v.threads ∧ s.cont = v.cont ∧
      s.phase = v.phase ∧ s.accepted = v.accepted ∧ s.started = v.started ∧ s.finished = v.finished ∧
      s.pcs (.client 0) = v.client0 ∧ s.pcs (.client 1) = v.client1 := by
  simp only [shown, Option.map_eq_some_iff] at h
  obtain ⟨⟨s, tr⟩, h1, h2⟩ := h
  subst h2
  exact ⟨s, cmdRun_sound h1, rfl, rfl, rfl, rfl, rfl, rfl, rfl, rfl, rfl, rfl⟩

end Cppnet
