import Verif.Proofs.FileOrder
import Verif.Proofs.PoolExec

/-! # An executable scheduler for the file logger, used for concrete executions only -/

namespace Cppnet
open Spec Pool FLog

/-- Who moves next. -/
inductive LCmd where
  /-- the pool's worker -/
  | worker (i : Nat)
  /-- the logger's thread, inside a function of the pool -/
  | client
  /-- the worker, inside `FlushBuffer` -/
  | flush
  /-- the same, and the file cannot be opened -/
  | flushFails
  /-- the same, and only `k` bytes are written -/
  | flushCuts (k : Nat)
  /-- the loop of `Stop`, and the file cannot be opened -/
  | stopFails
  /-- the logger's thread, outside the pool; `late`: the clock says that it is time to flush -/
  | main (late : Bool)
  | log (lvl : Level) (time msg : Str)
  | init
  | stop (d : Bool)
  | setNum (n : Int)
  | setSize (n : Int)

/-- A step of the pool that shows nothing, as a step of the logger. -/
def poolCmd (s : FLog) (p : Pool Nat) : Option (FLog × LLabel) :=
  if p.started = s.pool.started then
    if p.finished = s.pool.finished then some ({ s with pool := p }, .tau)
    else match s.fl with
      | .ended b => if p.finished = s.pool.finished ++ [b] then some ({ s with pool := p, fl := .none }, .tau) else none
      | _ => none
  else match s.fl, p.started.getLast? with
    | .none, some b =>
      if p.started = s.pool.started ++ [b] ∧ p.finished = s.pool.finished then some ({ s with pool := p, fl := .start b }, .tau) else none
    | _, _ => none

/-- A step of the logger's own code. -/
def mainCmd (s : FLog) (late : Bool) : Option (FLog × LLabel) :=
  match s.pc with
  | .check =>
    match s.cur with
    | none => none
    | some c =>
      match s.ring[c]? with
      | none => none
      | some b =>
        if (s.bufs b).data.length > intToSize s.size ∨ (late = true ∧ (s.bufs b).data ≠ []) then
          some ({ s.setBuf b { s.bufs b with need := true } with pc := .next b }, .tau)
        else some ({ s with pc := .idle }, .tau)
  | .next b =>
    match s.cur with
    | none => none
    | some c =>
      match s.ring[s.nextPos c]? with
      | none => none
      | some n =>
        if (s.bufs n).need then
          some ({ s.setBuf s.made {} with
            pc := .add b, cur := some (c + 1), ring := s.ring.take (c + 1) ++ s.made :: s.ring.drop (c + 1),
            made := s.made + 1, num := s.num + 1 }, .tau)
        else some ({ s with pc := .add b, cur := some (s.nextPos c) }, .tau)
  | .add b =>
    match s.pool.pcs (.client 0) with
    | .idle => some ({ s with pool := s.pool.setPc (.client 0) (entry (.add b)), pc := .adding b }, .tau)
    | _ => none
  | .flush d i =>
    if (i : Int) < s.num then
      match s.ring[i % s.ring.length]? with
      | none => none
      | some b =>
        if (s.bufs b).data = [] then some ({ s with pc := .flush d (i + 1) }, .tau)
        else some ({ s.setBuf b {} with pc := .flush d (i + 1), file := s.file ++ (s.bufs b).data }, .tau)
    else some ({ s with pc := .fin d, cur := none, ring := [] }, .tau)
  | .fin false => some ({ s with pc := .idle }, .stopped)
  | .fin true =>
    match s.pool.pcs (.client 0) with
    | .idle => some ({ s with pool := s.pool.setPc (.client 0) (entry .destroy), pc := .destroying }, .tau)
    | _ => none
  | _ => none

/-- A step of the logger's thread inside the pool. -/
def clientCmd (s : FLog) : Option (FLog × LLabel) :=
  match agentStep s.pool (.client 0) with
  | some (p, .tau) => poolCmd s p
  | some (p, .ret (.client 0) .inited) =>
    match s.pc with
    | .initing =>
      if 0 ≤ s.size then
        some ({ s with
          pool := p, pc := .idle, cur := some 0, ring := List.range' s.made (max 1 s.num.toNat),
          made := s.made + max 1 s.num.toNat,
          bufs := fun i => if s.made ≤ i ∧ i < s.made + max 1 s.num.toNat then {} else s.bufs i }, .inited)
      else none
    | _ => none
  | some (p, .ret (.client 0) (.added _)) =>
    match s.pc with
    | .adding _ => some ({ s with pool := p, pc := .idle }, .tau)
    | _ => none
  | some (p, .ret (.client 0) .stopped) =>
    match s.pc with
    | .stopping d =>
      match s.cur with
      | none => some ({ s with pool := p, pc := .fin d }, .tau)
      | some _ => some ({ s with pool := p, pc := .flush d 0 }, .tau)
    | _ => none
  | some (p, .ret (.client 0) .destroyed) =>
    match s.pc with
    | .destroying => some ({ s with pool := p, pc := .gone }, .destroyed)
    | _ => none
  | _ => none

/-- A step of the worker inside `FlushBuffer`. -/
def flushCmd (s : FLog) : Option (FLog × LLabel) :=
  match s.fl with
  | .start b =>
    if (s.bufs b).data = [] then some ({ s with fl := .ended b }, .tau)
    else some ({ s with fl := .written b, file := s.file ++ (s.bufs b).data }, .tau)
  | .written b => some ({ s.setBuf b { s.bufs b with lines := [] } with fl := .cleared b }, .tau)
  | .cleared b => some ({ s.setBuf b { s.bufs b with need := false } with fl := .unmarked b }, .tau)
  | .unmarked b => some ({ s with fl := .ended b }, .tau)
  | _ => none

def logCmd (s : FLog) (lvl : Level) (time msg : Str) : Option (FLog × LLabel) :=
  if s.level.val > lvl.val then some (s, .ignored lvl msg)
  else
    match s.cur with
    | none => some (s, .ignored lvl msg)
    | some c =>
      match s.ring[c]? with
      | none => none
      | some b =>
        some ({ s.setBuf b { s.bufs b with lines := (s.bufs b).lines ++ [FLog.line lvl time msg] } with pc := .check },
          .log (FLog.line lvl time msg))

def lcmdStep (s : FLog) : LCmd → Option (FLog × LLabel)
  | .worker i => match workerStep s.pool i with
    | some p => poolCmd s p
    | none => none
  | .client => clientCmd s
  | .flush => flushCmd s
  | .flushFails =>
    match s.fl with
    | .start b => if (s.bufs b).data ≠ [] then some ({ s with fl := .ended b }, .openFailed) else none
    | _ => none
  | .flushCuts k =>
    match s.fl with
    | .start b =>
      if k < (s.bufs b).data.length then
        some ({ s with fl := .written b, file := s.file ++ (s.bufs b).data.take k }, .cut)
      else none
    | _ => none
  | .stopFails =>
    match s.pc with
    | .flush d i =>
      if (i : Int) < s.num then
        match s.ring[i % s.ring.length]? with
        | none => none
        | some b => if (s.bufs b).data ≠ [] then some ({ s with pc := .flush d (i + 1) }, .stopOpenFailed) else none
      else none
    | _ => none
  | .main late => mainCmd s late
  | .log lvl time msg => if s.pc = .idle then logCmd s lvl time msg else none
  | .init =>
    match s.pc, s.pool.pcs (.client 0) with
    | .idle, .idle => some ({ s with pool := s.pool.setPc (.client 0) (entry (.init 1)), pc := .initing }, .init)
    | _, _ => none
  | .stop d =>
    match s.pc, s.pool.pcs (.client 0) with
    | .idle, .idle => some ({ s with pool := s.pool.setPc (.client 0) (entry .stop), pc := .stopping d }, .stop d)
    | _, _ => none
  | .setNum n => if s.pc = .idle then some ({ s with num := n }, .setNum n s.cur.isSome) else none
  | .setSize n => if s.pc = .idle then some ({ s with size := n }, .tau) else none

def lcmdRun (s : FLog) : List LCmd → Option (FLog × List LLabel)
  | [] => some (s, [])
  | c :: cs =>
    if s.pool.phase = .live then
      match lcmdStep s c with
      | none => none
      | some (s', l) => (lcmdRun s' cs).map fun x => (x.1, l :: x.2)
    else none

theorem poolCmd_sound {s s' : FLog} {p l} (ha : Act s.pool .tau p) (h : poolCmd s p = some (s', l)) : Step s l s' := by
  unfold poolCmd at h
  split at h
  · split at h
    · cases h; exact .pool ha ‹_› ‹_›
    · split at h
      · split at h <;> cases h
        exact .flushDone ha ‹_› ‹_› ‹_›
      · cases h
  · split at h
    · split at h <;> cases h
      rename_i hh
      exact .flushStart ha hh.1 hh.2 ‹_›
    · cases h

theorem mainCmd_sound {s s' : FLog} {late l} (h : mainCmd s late = some (s', l)) : Step s l s' := by
  unfold mainCmd at h
  split at h
  · split at h
    · cases h
    · split at h
      · cases h
      · split at h <;> cases h
        · rename_i hh
          exact .mark ‹_› ‹_› ‹_› (hh.imp id (·.2))
        · rename_i hh
          exact .noFlush ‹_› ‹_› ‹_› (fun e => hh (.inl e))
  · split at h
    · cases h
    · split at h
      · cases h
      · split at h <;> cases h
        · exact .nextFull ‹_› ‹_› ‹_› ‹_›
        · rename_i hh
          exact .nextFree ‹_› ‹_› ‹_› (by simpa using hh)
  · split at h <;> cases h
    exact .add ‹_› (.call ‹_› trivial)
  · split at h
    · split at h
      · cases h
      · split at h <;> cases h
        · exact .stopSkip ‹_› ‹_› ‹_› ‹_›
        · exact .stopWrite ‹_› ‹_› ‹_› ‹_›
    · cases h; exact .stopEnd ‹_› ‹_›
  · cases h; exact .stopped ‹_›
  · split at h <;> cases h
    exact .destroy ‹_› (.call ‹_› trivial)
  · cases h

theorem clientCmd_sound {s s' : FLog} {l} (h : clientCmd s = some (s', l)) : Step s l s' := by
  unfold clientCmd at h
  split at h
  · exact poolCmd_sound (agentStep_sound ‹_›) h
  · rename_i ha
    have ha := agentStep_sound ha
    split at h
    · split at h <;> cases h
      exact .inited ‹_› ha ‹_›
    · cases h
  · rename_i ha
    have ha := agentStep_sound ha
    split at h <;> cases h
    exact .added ‹_› ha
  · rename_i ha
    have ha := agentStep_sound ha
    split at h
    · split at h <;> cases h
      · exact .stopNull ‹_› ha ‹_›
      · exact .stopJoined ‹_› ha ‹_›
    · cases h
  · rename_i ha
    have ha := agentStep_sound ha
    split at h <;> cases h
    exact .destroyed ‹_› ha
  · cases h

theorem flushCmd_sound {s s' : FLog} {l} (h : flushCmd s = some (s', l)) : Step s l s' := by
  unfold flushCmd at h
  split at h
  · split at h <;> cases h
    · exact .flushEmpty ‹_› ‹_›
    · exact .flushWritten ‹_› ‹_›
  · cases h; exact .flushClear ‹_›
  · cases h; exact .flushUnmark ‹_›
  · cases h; exact .flushTimed ‹_›
  · cases h

theorem logCmd_sound {s s' : FLog} {lvl time msg l} (hpc : s.pc = .idle) (h : logCmd s lvl time msg = some (s', l)) : Step s l s' := by
  unfold logCmd at h
  split at h
  · cases h; exact .ignored hpc (.inl ‹_›)
  · split at h
    · cases h; exact .ignored hpc (.inr ‹_›)
    · split at h <;> cases h
      exact .log hpc ‹_› ‹_› ‹_›

theorem lcmdStep_sound {s s' : FLog} {c l} (h : lcmdStep s c = some (s', l)) : Step s l s' := by
  cases c <;> simp only [lcmdStep] at h
  case worker i =>
    split at h
    · exact poolCmd_sound (workerStep_sound ‹_›) h
    · cases h
  case client => exact clientCmd_sound h
  case flush => exact flushCmd_sound h
  case flushFails =>
    split at h
    · split at h <;> cases h
      exact .flushFailed ‹_› ‹_›
    · cases h
  case flushCuts k =>
    split at h
    · split at h <;> cases h
      exact .flushCut ‹_› ‹_›
    · cases h
  case stopFails =>
    split at h
    · split at h
      · split at h
        · cases h
        · split at h <;> cases h
          exact .stopFailed ‹_› ‹_› ‹_› ‹_›
      · cases h
    · cases h
  case main => exact mainCmd_sound h
  case log =>
    split at h
    · exact logCmd_sound ‹_› h
    · cases h
  case init =>
    split at h <;> cases h
    exact .init ‹_› (.call ‹_› trivial)
  case stop =>
    split at h <;> cases h
    exact .stop ‹_› (.call ‹_› trivial)
  case setNum => split at h <;> cases h; exact .setNum ‹_›
  case setSize => split at h <;> cases h; exact .setSize ‹_›

theorem lrun_cons {s s' s'' : FLog} {l tr} (h1 : s.pool.phase = .live) (h2 : Step s l s') (h : LRun s' tr s'') : LRun s (l :: tr) s'' := by
  induction h with
  | nil => exact .snoc (.nil _) h1 h2
  | snoc _ hl ha ih => exact .snoc ih hl ha

theorem lrun_append {s s' s'' : FLog} {tr tr'} (h : LRun s tr s') (h' : LRun s' tr' s'') : LRun s (tr ++ tr') s'' := by
  induction h' with
  | nil => simpa using h
  | snoc _ hl ha ih => rw [← List.append_assoc]; exact .snoc ih hl ha

theorem lcmdRun_sound : ∀ {cs : List LCmd} {s s' : FLog} {tr}, lcmdRun s cs = some (s', tr) → LRun s tr s'
  | [], s, s', tr, h => by cases h; exact .nil s
  | c :: cs, s, s', tr, h => by
    simp only [lcmdRun] at h
    split at h
    · split at h
      · cases h
      · rename_i hl _ s1 l h1
        simp only [Option.map_eq_some_iff] at h
        obtain ⟨⟨s2, tr2⟩, h2, h3⟩ := h
        cases h3
        exact lrun_cons hl (lcmdStep_sound h1) (lcmdRun_sound h2)
    · cases h

/-- What is shown of a concrete execution. -/
structure LShown where
  file : Str
  pc : LPc
  num : Int
  phase : PoolPhase
  cont : Bool
  workers : List (WPc Nat)
  threads : List (Nat × Bool)
  client : CPc Nat
  accepted : List Nat
  finished : List Nat
  trace : List LLabel
  deriving DecidableEq

def lshown (x : Option (FLog × List LLabel)) : Option LShown :=
  x.map fun (s, tr) => ⟨s.file, s.pc, s.num, s.pool.phase, s.pool.cont, s.pool.workers, s.pool.threads, s.pool.pcs (.client 0),
    s.pool.accepted, s.pool.finished, tr⟩

theorem lshown_run {prev : Str} {cs : List LCmd} {v : LShown} (h : lshown (lcmdRun (newLogger prev) cs) = some v) :
    ∃ s : FLog, LRun (newLogger prev) v.trace s ∧ s.file = v.file ∧ s.pc = v.pc ∧ s.num = v.num ∧ s.pool.phase = v.phase ∧ s.pool.cont = v.cont ∧
      s.pool.workers = v.workers ∧ s.pool.threads = v.threads ∧ s.pool.pcs (.client 0) = v.client ∧ s.pool.accepted = v.accepted ∧
      s.pool.finished = v.finished := by
  simp only [lshown, Option.map_eq_some_iff] at h
  obtain ⟨⟨s, tr⟩, h1, h2⟩ := h
  subst h2
  exact ⟨s, lcmdRun_sound h1, rfl, rfl, rfl, rfl, rfl, rfl, rfl, rfl, rfl, rfl⟩

end Cppnet
