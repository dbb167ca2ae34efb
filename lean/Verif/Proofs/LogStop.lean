import Verif.Proofs.FileLogger

/-! # `Stop` of the file logger comes to its end -/

namespace Cppnet
open Spec Pool FLog

/-- The logger's pool never has more than one thread. -/
def oneOk (k : Nat) : CPc Nat → Prop
  | .initSpawn _ n => k + n ≤ 1
  | .initClear _ n => n ≤ 1 ∧ k ≤ 1
  | .resizeCheck _ | .resizeClear _ => False
  | .stopCheck (.resize _) | .stopSet (.resize _) | .stopNotify (.resize _) | .stopJoin (.resize _) _ => False
  | _ => k ≤ 1

/-- The calls the logger makes. -/
def LogOp : PoolOp Nat → Prop
  | .init n => n = 1
  | .add _ | .stop | .destroy => True
  | _ => False

theorem oneOk_le {k : Nat} {c : CPc Nat} (h : oneOk k c) : k ≤ 1 := by
  cases c <;> simp only [oneOk] at h <;> first | omega | (rename_i a; cases a <;> simp_all [oneOk]) | (rename_i a _; cases a <;> simp_all [oneOk])

theorem one_step {p p' : Pool Nat} {l} (ho : ∀ a, a ≠ .client 0 → p.pcs a = .idle)
    (hc : ∀ a op, l = .call a op → a = .client 0 ∧ LogOp op)
    (h1 : oneOk p.threads.length (p.pcs (.client 0))) (h : Act p l p') : oneOk p'.threads.length (p'.pcs (.client 0)) := by
  have who : ∀ a, p.pcs a ≠ .idle → a = .client 0 := fun a ha => Classical.byContradiction fun e => ha (ho a e)
  have hle := oneOk_le h1
  cases h
  case call a op _ _ =>
    obtain ⟨rfl, hop⟩ := hc _ _ rfl
    cases op <;> simp [LogOp, oneOk, entry] at hop ⊢ <;> omega
  case stopAlready a k hpc _ =>
    obtain rfl := who a (by rw [hpc]; simp)
    rw [hpc] at h1
    cases k <;> simp [oneOk, afterStop] at h1 ⊢ <;> omega
  case stopDone a k _ hpc _ =>
    obtain rfl := who a (by rw [hpc]; simp)
    rw [hpc] at h1
    cases k <;> simp [oneOk, afterStop] at h1 ⊢ <;> omega
  all_goals first
    | exact h1
    | (have hpc := ‹p.pcs _ = _›
       have e := who _ (by rw [hpc]; simp)
       subst e
       rw [hpc] at h1
       first
         | (simp [oneOk] at h1 ⊢; omega)
         | (rename_i k _; cases k <;> simp [oneOk] at h1 ⊢ <;> omega)
         | (rename_i k _ _; cases k <;> simp [oneOk] at h1 ⊢ <;> omega)
         | (rename_i k _ _ _ _ _; cases k <;> simp [oneOk] at h1 ⊢ <;> omega)
         | (simp_all [oneOk]; done))

/-- What holds in every state of a logger, whatever its user and the file system do. -/
structure WInv (s : FLog) : Prop where
  run : ∃ tr, Run {} tr s.pool ∧ ∀ l ∈ tr, Disciplined 0 l
  others : ∀ a, a ≠ .client 0 → s.pool.pcs a = .idle
  client : CRel s.pc (s.pool.pcs (.client 0))
  one : oneOk s.pool.threads.length (s.pool.pcs (.client 0))
  exec : s.pool.started = s.pool.finished ++ s.fl.task
  ring : s.cur ≠ none → s.ring ≠ []

theorem winv_init (prev : Str) : WInv (newLogger prev) :=
  ⟨⟨[], .nil _, by simp⟩, fun _ _ => rfl, rfl, by simp [newLogger, oneOk], rfl, by simp [newLogger]⟩

theorem spurious_hist {p p' : Pool Nat} (h : Act p .spurious p') : p'.started = p.started ∧ p'.finished = p.finished := by
  generalize hl : (PoolLabel.spurious : PoolLabel Nat) = l at h
  cases h <;> first | cases hl | skip
  case stopAlready a k _ _ => cases k <;> cases hl
  case stopDone a k _ _ _ => cases k <;> cases hl
  exact ⟨rfl, rfl⟩

theorem winv_step {s s' : FLog} {l} (hi : WInv s) (hlive : s.pool.phase = .live) (h : Step s l s') : WInv s' := by
  obtain ⟨⟨ptr, hr, hd⟩, ho, hc, h1, he, hring⟩ := hi
  have dtau : Disciplined 0 (.tau : PoolLabel Nat) := by intro a op h; cases h
  have dsp : Disciplined 0 (.spurious : PoolLabel Nat) := by intro a op h; cases h
  have dret : ∀ a r, Disciplined 0 (.ret a r : PoolLabel Nat) := by intro a r b op h; cases h
  have dcall : ∀ op, Disciplined 0 (.call (.client 0) op : PoolLabel Nat) := by intro op a op' h; cases h; exact .inr (.inr rfl)
  have ext : ∀ {l p}, Act s.pool l p → Disciplined 0 l → ∃ tr, Run {} tr p ∧ ∀ l ∈ tr, Disciplined 0 l := by
    intro l p ha hl
    refine ⟨ptr ++ [l], .snoc hr hlive ha, fun x hx => ?_⟩
    rcases List.mem_append.1 hx with hx | hx
    · exact hd x hx
    · simp only [List.mem_singleton] at hx; subst hx; exact hl
  have inner : ∀ {l p}, Act s.pool l p → (l = .tau ∨ l = .spurious) →
      (∃ tr, Run {} tr p ∧ ∀ l ∈ tr, Disciplined 0 l) ∧ (∀ a, a ≠ .client 0 → p.pcs a = .idle) ∧ CRel s.pc (p.pcs (.client 0)) ∧
      oneOk p.threads.length (p.pcs (.client 0)) := by
    intro l p ha hl
    obtain ⟨i1, i2, _⟩ := internal_step ha hl ho hc
    refine ⟨ext ha (by rcases hl with rfl | rfl <;> assumption), i1, i2, one_step ho ?_ h1 ha⟩
    intro a op e
    rcases hl with rfl | rfl <;> cases e
  have calls : ∀ {op p}, Act s.pool (.call (.client 0) op) p → LogOp op →
      (∃ tr, Run {} tr p ∧ ∀ l ∈ tr, Disciplined 0 l) ∧ (∀ a, a ≠ .client 0 → p.pcs a = .idle) ∧ p.pcs (.client 0) = entry op ∧
      oneOk p.threads.length (p.pcs (.client 0)) ∧ p.started = s.pool.started ∧ p.finished = s.pool.finished := by
    intro op p ha hop
    refine ⟨ext ha (dcall _), ?_⟩
    have := one_step ho (by intro a op' e; cases e; exact ⟨rfl, hop⟩) h1 ha
    obtain ⟨_, rfl⟩ := call_step ha
    exact ⟨fun a e => by simp [e, ho a e], by simp, this, rfl, rfl⟩
  have rets : ∀ {r p}, Act s.pool (.ret (.client 0) r) p →
      (∃ tr, Run {} tr p ∧ ∀ l ∈ tr, Disciplined 0 l) ∧ (∀ a, a ≠ .client 0 → p.pcs a = .idle) ∧ p.pcs (.client 0) = .idle ∧
      oneOk p.threads.length (p.pcs (.client 0)) ∧ p.started = s.pool.started ∧ p.finished = s.pool.finished := by
    intro r p ha
    obtain ⟨r1, r2, _, r4, r5⟩ := ret_step ha ho
    exact ⟨ext ha (dret _ _), r1, r2, one_step ho (by intro a op e; cases e) h1 ha, r4, r5⟩
  cases h
  case pool p h e1 e2 =>
    obtain ⟨a1, a2, a3, a4⟩ := inner h (.inl rfl)
    exact ⟨a1, a2, a3, a4, by rw [e1, e2]; exact he, hring⟩
  case spurious p h =>
    obtain ⟨a1, a2, a3, a4⟩ := inner h (.inr rfl)
    obtain ⟨e1, e2⟩ := spurious_hist h
    exact ⟨a1, a2, a3, a4, by rw [e1, e2]; exact he, hring⟩
  case flushStart p b h e1 e2 hf =>
    obtain ⟨a1, a2, a3, a4⟩ := inner h (.inl rfl)
    rw [hf] at he
    exact ⟨a1, a2, a3, a4, by rw [e1, e2, he]; simp [FlushPc.task], hring⟩
  case flushDone p b h e1 e2 hf =>
    obtain ⟨a1, a2, a3, a4⟩ := inner h (.inl rfl)
    rw [hf] at he
    exact ⟨a1, a2, a3, a4, by rw [e1, e2, he]; simp [FlushPc.task], hring⟩
  case flushEmpty b hf _ => exact ⟨⟨ptr, hr, hd⟩, ho, hc, h1, by rw [hf] at he; exact he, hring⟩
  case flushFailed b hf _ => exact ⟨⟨ptr, hr, hd⟩, ho, hc, h1, by rw [hf] at he; exact he, hring⟩
  case flushWritten b hf _ => exact ⟨⟨ptr, hr, hd⟩, ho, hc, h1, by rw [hf] at he; exact he, hring⟩
  case flushCut b _ hf _ => exact ⟨⟨ptr, hr, hd⟩, ho, hc, h1, by rw [hf] at he; exact he, hring⟩
  case flushClear b hf => exact ⟨⟨ptr, hr, hd⟩, ho, hc, h1, by rw [hf] at he; exact he, hring⟩
  case flushUnmark b hf => exact ⟨⟨ptr, hr, hd⟩, ho, hc, h1, by rw [hf] at he; exact he, hring⟩
  case flushTimed b hf => exact ⟨⟨ptr, hr, hd⟩, ho, hc, h1, by rw [hf] at he; exact he, hring⟩
  case init p hpc h =>
    obtain ⟨a1, a2, a3, a4, a5, a6⟩ := calls h rfl
    exact ⟨a1, a2, by rw [a3]; exact ⟨1, .inl rfl⟩, a4, by rw [a5, a6]; exact he, hring⟩
  case inited p hpc h hs =>
    obtain ⟨a1, a2, a3, a4, a5, a6⟩ := rets h
    refine ⟨a1, a2, a3, a4, by rw [a5, a6]; exact he, fun _ e => ?_⟩
    have := congrArg List.length e
    simp only [List.length_range', List.length_nil] at this
    omega
  case add p b hpc h =>
    obtain ⟨a1, a2, a3, a4, a5, a6⟩ := calls h trivial
    exact ⟨a1, a2, by rw [a3]; exact .inl (by simp [entry, CPc.pre]), a4, by rw [a5, a6]; exact he, hring⟩
  case added p b rc hpc h =>
    obtain ⟨a1, a2, a3, a4, a5, a6⟩ := rets h
    exact ⟨a1, a2, a3, a4, by rw [a5, a6]; exact he, hring⟩
  case stop p d hpc h =>
    obtain ⟨a1, a2, a3, a4, a5, a6⟩ := calls h trivial
    exact ⟨a1, a2, by rw [a3]; rfl, a4, by rw [a5, a6]; exact he, hring⟩
  case stopNull p d hpc h _ =>
    obtain ⟨a1, a2, a3, a4, a5, a6⟩ := rets h
    exact ⟨a1, a2, a3, a4, by rw [a5, a6]; exact he, hring⟩
  case stopJoined p d c hpc h _ =>
    obtain ⟨a1, a2, a3, a4, a5, a6⟩ := rets h
    exact ⟨a1, a2, a3, a4, by rw [a5, a6]; exact he, hring⟩
  case destroy p hpc h =>
    obtain ⟨a1, a2, a3, a4, a5, a6⟩ := calls h trivial
    exact ⟨a1, a2, by rw [a3]; exact .inl rfl, a4, by rw [a5, a6]; exact he, hring⟩
  case destroyed p hpc h =>
    obtain ⟨a1, a2, a3, a4, a5, a6⟩ := rets h
    exact ⟨a1, a2, a3, a4, by rw [a5, a6]; exact he, hring⟩
  case nextFull b c n hpc hcur _ _ =>
    rw [hpc] at hc
    exact ⟨⟨ptr, hr, hd⟩, ho, hc, h1, he, fun _ e => by simp at e⟩
  case nextFree b c n hpc hcur _ _ =>
    rw [hpc] at hc
    exact ⟨⟨ptr, hr, hd⟩, ho, hc, h1, he, fun _ => hring (by simp [hcur])⟩
  case stopEnd d i hpc _ =>
    rw [hpc] at hc
    exact ⟨⟨ptr, hr, hd⟩, ho, hc, h1, he, fun e => absurd rfl e⟩
  all_goals first
    | exact ⟨⟨ptr, hr, hd⟩, ho, hc, h1, he, hring⟩
    | (have hpc := ‹s.pc = _›
       rw [hpc] at hc
       exact ⟨⟨ptr, hr, hd⟩, ho, hc, h1, he, hring⟩)

theorem winv_run {prev : Str} {tr : List LLabel} {s : FLog} (h : LRun (newLogger prev) tr s) : WInv s := by
  induction h with
  | nil => exact winv_init prev
  | snoc _ hlive hst ih => exact winv_step ih hlive hst

/-! ### The phases of `Stop` -/

/-- The pool has been stopped and all its threads were joined. -/
structure Ended (p : Pool Nat) : Prop where
  live : p.phase = .live
  cont : p.cont = false
  exited : ∀ w ∈ p.workers, w = .exited
  joined : ∀ x ∈ p.threads, x.2 = false

/-- Where the logger is once `Stop` has notified the worker. -/
inductive LPhase (d : Bool) (s : FLog) : Prop where
  | drain (hpc : s.pc = .stopping d) (h : Draining 0 .ret s.pool)
  | flush (i : Nat) (hpc : s.pc = .flush d i) (h : Ended s.pool) (hcur : s.cur ≠ none)
  | fin (hpc : s.pc = .fin d) (h : Ended s.pool)
  | destroy (hd : d = true) (hpc : s.pc = .destroying) (h : Ended s.pool)
      (hc : s.pool.pcs (.client 0) = .stopCheck .destroy ∨ s.pool.pcs (.client 0) = .members)

/-- What the return of `Stop`, or of the destructor that called it, shows. -/
def lastLabel (d : Bool) : LLabel := if d then .destroyed else .stopped

theorem draining_ended {p p' : Pool Nat} {l} (hdr : Draining 0 .ret p) (ho : ∀ a, a ≠ .client 0 → p.pcs a = .idle) (h : Act p l p')
    (hl : l = .ret (.client 0) .stopped) : Ended p' := by
  obtain ⟨i, hi⟩ := hdr.joining
  have who : ∀ a, p.pcs a ≠ .idle → a = .client 0 := fun a ha => Classical.byContradiction fun e => ha (ho a e)
  cases h <;> try (cases hl; done)
  case stopAlready a k hpc _ =>
    obtain rfl := who a (by rw [hpc]; simp)
    rw [hi] at hpc; cases hpc
  case initDone a r hpc =>
    obtain rfl := who a (by rw [hpc]; simp)
    rw [hi] at hpc; cases hpc
  case stopDone a k j hpc hlen =>
    obtain rfl := who a (by rw [hpc]; simp)
    have hall := all_joined hdr.thrInv hdr.stopInv hpc hlen
    refine ⟨hdr.live, hdr.cont, hall, ?_⟩
    intro x hx
    obtain ⟨m, hm⟩ := List.getElem?_of_mem hx
    have hlt := (List.getElem?_eq_some_iff.1 hm).1
    exact hdr.stopInv.joined k j hpc m x.1 x.2 (by simp at hlen hlt; omega) (by simpa using hm)

/-- Once all is joined only the destructor moves inside the pool. -/
theorem ended_act {p p' : Pool Nat} {l} (he : Ended p) (ho : ∀ a, a ≠ .client 0 → p.pcs a = .idle) (h : Act p l p') (hl : l = .tau ∨ l = .spurious)
    (hc : p.pcs (.client 0) = .idle ∨ p.pcs (.client 0) = .stopCheck .destroy ∨ p.pcs (.client 0) = .members) :
    Ended p' ∧ p.pcs (.client 0) = .stopCheck .destroy ∧ p'.pcs (.client 0) = .members := by
  have who : ∀ a, p.pcs a ≠ .idle → a = .client 0 := fun a ha => Classical.byContradiction fun e => ha (ho a e)
  have noW : ∀ (i : Nat) (w : WPc Nat), p.workers[i]? = some w → w = .exited := fun i w h => he.exited w (List.mem_of_getElem? h)
  cases h
  case call => rcases hl with hl | hl <;> cases hl
  case stopAlready a k hpc _ =>
    obtain rfl := who a (by rw [hpc]; simp)
    rw [hpc] at hc
    simp at hc
    subst hc
    exact ⟨⟨he.live, he.cont, he.exited, he.joined⟩, hpc, by simp [afterStop]⟩
  case destroyTerminates a hpc h =>
    obtain ⟨x, hx, hb⟩ := h
    rw [he.joined x hx] at hb; cases hb
  case stopChecked a k hpc h => rw [he.cont] at h; cases h
  case destroyed => rcases hl with hl | hl <;> cases hl
  case stopSelfJoin k i w hpc h => exact absurd (who _ (by rw [hpc]; simp)) (by simp)
  all_goals first
    | (have hpc := ‹p.workers[_]? = some _›
       have := noW _ _ hpc
       cases this; done)
    | (have hpc := ‹p.pcs _ = _›
       have e := who _ (by rw [hpc]; simp)
       subst e
       rw [hpc] at hc
       simp at hc)

theorem phase_step {d : Bool} {s s' : FLog} {l} (hw : WInv s) (hp : LPhase d s) (h : Step s l s') (hn : l ≠ lastLabel d) : LPhase d s' := by
  have hlive : s.pool.phase = .live := by rcases hp with ⟨_, h⟩ | ⟨_, _, h, _⟩ | ⟨_, h⟩ | ⟨_, _, h, _⟩ <;> exact h.live
  rcases hp with ⟨hpc, hdr⟩ | ⟨i, hpc, he, hcur⟩ | ⟨hpc, he⟩ | ⟨hd, hpc, he, hc⟩
  · have inner : ∀ {l p}, Act s.pool l p → (l = .tau ∨ l = .spurious) → Draining 0 .ret p := by
      intro l p ha hl
      have hdis : Disciplined 0 l := by intro a op e; subst e; rcases hl with hl | hl <;> cases hl
      rcases draining_step hdr hdis (by rintro rfl; rcases hl with hl | hl <;> cases hl) ha with e | e
      · obtain ⟨i, hji⟩ := hdr.joining
        have := stop_shows hji e ha
        subst this
        rcases hl with hl | hl <;> cases hl
      · exact e.1
    cases h
    case pool h _ _ => exact .drain hpc (inner h (.inl rfl))
    case spurious h => exact .drain hpc (inner h (.inr rfl))
    case flushStart h _ _ _ => exact .drain hpc (inner h (.inl rfl))
    case flushDone h _ _ _ => exact .drain hpc (inner h (.inl rfl))
    case flushEmpty => exact .drain hpc hdr
    case flushFailed => exact .drain hpc hdr
    case flushWritten => exact .drain hpc hdr
    case flushCut => exact .drain hpc hdr
    case flushClear => exact .drain hpc hdr
    case flushUnmark => exact .drain hpc hdr
    case flushTimed => exact .drain hpc hdr
    case stopNull p d' hpc' h _ =>
      rw [hpc] at hpc'; injection hpc' with e; subst e
      exact .fin rfl (draining_ended hdr hw.others h rfl)
    case stopJoined p d' c hpc' h hcur =>
      rw [hpc] at hpc'; injection hpc' with e; subst e
      exact .flush 0 rfl (draining_ended hdr hw.others h rfl) (by simp [hcur])
    all_goals
      have hh := ‹s.pc = _›
      rw [hpc] at hh
      cases hh
  · have hidle : s.pool.pcs (.client 0) = .idle := by have := hw.client; rw [hpc] at this; exact this
    cases h
    case pool h _ _ => have := (ended_act he hw.others h (.inl rfl) (.inl hidle)).2.1; rw [hidle] at this; cases this
    case spurious h => have := (ended_act he hw.others h (.inr rfl) (.inl hidle)).2.1; rw [hidle] at this; cases this
    case flushStart h _ _ _ => have := (ended_act he hw.others h (.inl rfl) (.inl hidle)).2.1; rw [hidle] at this; cases this
    case flushDone h _ _ _ => have := (ended_act he hw.others h (.inl rfl) (.inl hidle)).2.1; rw [hidle] at this; cases this
    case flushEmpty => exact .flush i hpc he hcur
    case flushFailed => exact .flush i hpc he hcur
    case flushWritten => exact .flush i hpc he hcur
    case flushCut => exact .flush i hpc he hcur
    case flushClear => exact .flush i hpc he hcur
    case flushUnmark => exact .flush i hpc he hcur
    case flushTimed => exact .flush i hpc he hcur
    case stopSkip d' b j hpc' _ _ _ => rw [hpc] at hpc'; injection hpc' with e; subst e; exact .flush _ rfl he hcur
    case stopWrite d' b j hpc' _ _ _ => rw [hpc] at hpc'; injection hpc' with e; subst e; exact .flush _ rfl he hcur
    case stopFailed d' b j hpc' _ _ _ => rw [hpc] at hpc'; injection hpc' with e; subst e; exact .flush _ rfl he hcur
    case stopCut d' b k j hpc' _ _ _ => rw [hpc] at hpc'; injection hpc' with e; subst e; exact .flush _ rfl he hcur
    case stopEnd d' j hpc' _ => rw [hpc] at hpc'; injection hpc' with e; subst e; exact .fin rfl he
    all_goals
      have hh := ‹s.pc = _›
      rw [hpc] at hh
      cases hh
  · have hidle : s.pool.pcs (.client 0) = .idle := by have := hw.client; rw [hpc] at this; exact this
    cases h
    case pool h _ _ => have := (ended_act he hw.others h (.inl rfl) (.inl hidle)).2.1; rw [hidle] at this; cases this
    case spurious h => have := (ended_act he hw.others h (.inr rfl) (.inl hidle)).2.1; rw [hidle] at this; cases this
    case flushStart h _ _ _ => have := (ended_act he hw.others h (.inl rfl) (.inl hidle)).2.1; rw [hidle] at this; cases this
    case flushDone h _ _ _ => have := (ended_act he hw.others h (.inl rfl) (.inl hidle)).2.1; rw [hidle] at this; cases this
    case flushEmpty => exact .fin hpc he
    case flushFailed => exact .fin hpc he
    case flushWritten => exact .fin hpc he
    case flushCut => exact .fin hpc he
    case flushClear => exact .fin hpc he
    case flushUnmark => exact .fin hpc he
    case flushTimed => exact .fin hpc he
    case stopped hpc' => rw [hpc] at hpc'; injection hpc' with e; subst e; exact absurd rfl hn
    case destroy p hpc' h =>
      rw [hpc] at hpc'; injection hpc' with e
      obtain ⟨_, rfl⟩ := call_step h
      exact .destroy e rfl ⟨he.live, he.cont, he.exited, he.joined⟩ (.inl (by simp [entry]))
    all_goals
      have hh := ‹s.pc = _›
      rw [hpc] at hh
      cases hh
  · subst hd
    have inner : ∀ {l p}, Act s.pool l p → (l = .tau ∨ l = .spurious) → Ended p ∧ p.pcs (.client 0) = .members := by
      intro l p ha hl
      obtain ⟨a, _, b⟩ := ended_act he hw.others ha hl (.inr hc)
      exact ⟨a, b⟩
    cases h
    case pool h _ _ => exact .destroy rfl hpc (inner h (.inl rfl)).1 (.inr (inner h (.inl rfl)).2)
    case spurious h => exact .destroy rfl hpc (inner h (.inr rfl)).1 (.inr (inner h (.inr rfl)).2)
    case flushStart h _ _ _ => exact .destroy rfl hpc (inner h (.inl rfl)).1 (.inr (inner h (.inl rfl)).2)
    case flushDone h _ _ _ => exact .destroy rfl hpc (inner h (.inl rfl)).1 (.inr (inner h (.inl rfl)).2)
    case flushEmpty => exact .destroy rfl hpc he hc
    case flushFailed => exact .destroy rfl hpc he hc
    case flushWritten => exact .destroy rfl hpc he hc
    case flushCut => exact .destroy rfl hpc he hc
    case flushClear => exact .destroy rfl hpc he hc
    case flushUnmark => exact .destroy rfl hpc he hc
    case flushTimed => exact .destroy rfl hpc he hc
    case destroyed => exact absurd rfl hn
    all_goals
      have hh := ‹s.pc = _›
      rw [hpc] at hh
      cases hh

/-! ### `Stop` can always go on -/

theorem lrun_cons {s s' s'' : FLog} {l tr} (h1 : s.pool.phase = .live) (h2 : Step s l s') (h : LRun s' tr s'') : LRun s (l :: tr) s'' := by
  induction h with
  | nil => exact .snoc (.nil _) h1 h2
  | snoc _ hl ha ih => exact .snoc ih hl ha

theorem lrun_append {s s' s'' : FLog} {tr tr'} (h : LRun s tr s') (h' : LRun s' tr' s'') : LRun s (tr ++ tr') s'' := by
  induction h' with
  | nil => simpa using h
  | snoc _ hl ha ih => rw [← List.append_assoc]; exact .snoc ih hl ha

/-- Steps left in `FlushBuffer`. -/
def FlushPc.left : FlushPc → Nat
  | .none => 0
  | .ended _ => 0
  | .unmarked _ => 1
  | .cleared _ => 2
  | .written _ => 3
  | .start _ => 4

/-- At most one worker has not returned. -/
theorem one_alive {p : Pool Nat} (h1 : p.threads.length ≤ 1) (ht : ThrInv p) {i j : Nat} {w w' : WPc Nat} (hi : p.workers[i]? = some w)
    (hj : p.workers[j]? = some w') (h : w ≠ .exited) (h' : w' ≠ .exited) : i = j := by
  obtain ⟨b, hb⟩ := (ht.listed i w hi).resolve_left h
  obtain ⟨b', hb'⟩ := (ht.listed j w' hj).resolve_left h'
  match hth : p.threads with
  | [] => rw [hth] at hb; simp at hb
  | [x] =>
    rw [hth] at hb hb'
    simp only [List.mem_singleton] at hb hb'
    exact congrArg Prod.fst (hb.trans hb'.symm)
  | _ :: _ :: _ => rw [hth] at h1; simp at h1

theorem executing_of {p : Pool Nat} {b : Nat} (h : b ∈ p.workers.flatMap executing) : ∃ i : Nat, p.workers[i]? = some (.run b) := by
  simp only [List.mem_flatMap] at h
  obtain ⟨w, hw, hb⟩ := h
  obtain ⟨i, hi⟩ := List.getElem?_of_mem hw
  refine ⟨i, ?_⟩
  cases w <;> simp [executing] at hb
  subst hb; exact hi

theorem WInv.tasks {s : FLog} (hw : WInv s) : s.fl.task.Perm (s.pool.workers.flatMap executing) := by
  obtain ⟨tr, hr, _⟩ := hw.run
  have := (reachable_hist ⟨tr, hr⟩).started
  rw [hw.exec] at this
  exact (List.perm_append_left_iff _).1 this

/-- While the worker is in none of the lines of `FlushBuffer` that it can leave by itself, a silent step of the pool is a step
of the logger. -/
theorem WInv.lift {s : FLog} (hw : WInv s) (ht : ThrInv s.pool) (hl : s.fl.left = 0) {p} (ha : Act s.pool .tau p) :
    ∃ fl, fl.left ≤ 4 ∧ Step s .tau { s with pool := p, fl := fl } := by
  have h1 := oneOk_le hw.one
  by_cases e : p.started = s.pool.started ∧ p.finished = s.pool.finished
  · refine ⟨s.fl, by omega, ?_⟩
    have := Step.pool ha e.1 e.2
    exact this
  · generalize hlab : (PoolLabel.tau : PoolLabel Nat) = l at ha
    have hact := ha
    cases ha
    case wStart i t hpc =>
      refine ⟨.start t, Nat.le_refl _, .flushStart hact rfl rfl ?_⟩
      cases hf : s.fl with
      | none => rfl
      | ended b =>
        have hm : b ∈ s.pool.workers.flatMap executing := hw.tasks.mem_iff.1 (by simp [hf, FlushPc.task])
        obtain ⟨j, hj⟩ := executing_of hm
        have := one_alive h1 ht hpc hj (by simp) (by simp)
        subst this
        rw [hpc] at hj; cases hj
      | _ => simp [hf, FlushPc.left] at hl
    case wFinish i t hpc _ =>
      have hm : t ∈ s.fl.task := by
        refine hw.tasks.mem_iff.2 ?_
        simp only [List.mem_flatMap]
        exact ⟨_, List.mem_of_getElem? hpc, by simp [executing]⟩
      refine ⟨.none, by simp [FlushPc.left], .flushDone hact rfl rfl ?_⟩
      cases hf : s.fl <;> simp [hf, FlushPc.task, FlushPc.left] at hl hm ⊢
      exact hm.symm
    all_goals exact absurd ⟨rfl, rfl⟩ e

/-- The flushing loop. -/
theorem flush_ends {d : Bool} : ∀ (n : Nat) (s : FLog) (i : Nat), (s.num - i).toNat = n → WInv s → Ended s.pool → s.cur ≠ none → s.pc = .flush d i →
    ∃ tr s', LRun s tr s' ∧ (∀ l ∈ tr, l = .tau) ∧ s'.pc = .fin d ∧ Ended s'.pool ∧ WInv s'
  | n, s, i, hn, hw, he, hcur, hpc => by
    by_cases hi : (i : Int) < s.num
    · have hring := hw.ring hcur
      have hlen : 0 < s.ring.length := List.length_pos_iff.2 hring
      have hb : s.ring[i % s.ring.length]? = some (s.ring[i % s.ring.length]'(Nat.mod_lt _ hlen)) := List.getElem?_eq_getElem _
      have key : ∃ s', Step s .tau s' ∧ s'.pc = .flush d (i + 1) ∧ s'.num = s.num ∧ s'.pool = s.pool ∧ s'.cur = s.cur := by
        by_cases hdata : (s.bufs (s.ring[i % s.ring.length]'(Nat.mod_lt _ hlen))).data = []
        · exact ⟨_, .stopSkip hpc hi hb hdata, rfl, rfl, rfl, rfl⟩
        · exact ⟨_, .stopWrite hpc hi hb hdata, rfl, rfl, rfl, rfl⟩
      obtain ⟨s', hst, e1, e2, e3, e4⟩ := key
      obtain ⟨tr, s'', r1, r2, r3, r4, r5⟩ := flush_ends (s'.num - (i + 1 : Nat)).toNat s' (i + 1) rfl (winv_step hw he.live hst) (e3 ▸ he) (e4 ▸ hcur) e1
      exact ⟨.tau :: tr, s'', lrun_cons he.live hst r1, by simpa using r2, r3, r4, r5⟩
    · have hst := Step.stopEnd hpc hi
      exact ⟨[.tau], _, lrun_cons he.live hst (.nil _), by simp, rfl, he, winv_step hw he.live hst⟩
  termination_by n => n
  decreasing_by rw [← hn]; omega

/-- From the end of the flushing loop to the return. -/
theorem fin_ends {d : Bool} {s : FLog} (hw : WInv s) (he : Ended s.pool) (hpc : s.pc = .fin d) :
    ∃ tr s', LRun s (tr ++ [lastLabel d]) s' ∧ ∀ l ∈ tr, l = .tau := by
  cases d with
  | false => exact ⟨[], _, lrun_cons he.live (.stopped hpc) (.nil _), by simp⟩
  | true =>
    have hidle : s.pool.pcs (.client 0) = .idle := by have := hw.client; rw [hpc] at this; exact this
    have s1 := Step.destroy hpc (Act.call (op := .destroy) hidle trivial)
    have a2 : Act (s.pool.setPc (.client 0) (entry .destroy)) (stopLabel (.client 0) .destroy) _ :=
      Act.stopAlready (a := .client 0) (k := .destroy) (by simp [entry]) he.cont
    have s2 := Step.pool (s := { s with pool := s.pool.setPc (.client 0) (entry .destroy), pc := .destroying }) a2 rfl rfl
    have a3 := Act.destroyed (s := (s.pool.setPc (.client 0) (entry .destroy)).setPc (.client 0) (afterStop .destroy)) (a := .client 0)
      (by simp [afterStop]) he.joined
    have s3 := Step.destroyed (s := { s with pool := (s.pool.setPc (.client 0) (entry .destroy)).setPc (.client 0) (afterStop .destroy), pc := .destroying }) rfl a3
    exact ⟨[.tau, .tau], _, lrun_cons he.live s1 (lrun_cons he.live s2 (lrun_cons he.live s3 (.nil _))), by simp⟩

theorem drain_ends {d : Bool} : ∀ (n : Nat) (s : FLog), 5 * allWork 0 s.pool + s.fl.left = n → WInv s → Draining 0 .ret s.pool → s.pc = .stopping d →
    ∃ tr s', LRun s (tr ++ [lastLabel d]) s' ∧ ∀ l ∈ tr, l = .tau := by
  intro n
  induction n using Nat.strongRecOn with
  | _ n ih =>
    intro s hn hw hdr hpc
    have flush : ∀ s', Step s .tau s' → s'.pool = s.pool → s'.fl.left < s.fl.left → s'.pc = .stopping d →
        ∃ tr s', LRun s (tr ++ [lastLabel d]) s' ∧ ∀ l ∈ tr, l = .tau := by
      intro s' hst e1 e2 e3
      obtain ⟨tr, s'', r1, r2⟩ := ih (5 * allWork 0 s.pool + s'.fl.left) (by rw [← hn]; omega) s' (by rw [e1]) (winv_step hw hdr.live hst) (e1 ▸ hdr) e3
      exact ⟨.tau :: tr, s'', lrun_cons hdr.live hst r1, by simpa using r2⟩
    by_cases hleft : s.fl.left = 0
    · obtain ⟨l, p, ha, hq, h | ⟨h1, h2⟩⟩ := draining_progress hdr
      · obtain ⟨e1, e2⟩ := h
        have e1 : l = .ret (.client 0) .stopped := e1
        subst e1
        have hend := draining_ended hdr hw.others ha rfl
        cases hcur : s.cur with
        | none =>
          have hst := Step.stopNull hpc ha hcur
          obtain ⟨tr, s'', r1, r2⟩ := fin_ends (d := d) (winv_step hw hdr.live hst) hend rfl
          exact ⟨.tau :: tr, s'', lrun_cons hdr.live hst r1, by simpa using r2⟩
        | some c =>
          have hst := Step.stopJoined hpc ha hcur
          obtain ⟨tr, s₁, r1, r2, r3, r4, r5⟩ := flush_ends (d := d) _ _ 0 rfl (winv_step hw hdr.live hst) hend (by simp [hcur]) rfl
          obtain ⟨tr', s'', q1, q2⟩ := fin_ends r5 r4 r3
          refine ⟨.tau :: (tr ++ tr'), s'', ?_, ?_⟩
          · simpa using lrun_cons hdr.live hst (lrun_append r1 q1)
          · intro l hl
            simp only [List.mem_cons, List.mem_append] at hl
            rcases hl with rfl | hl | hl
            · rfl
            · exact r2 l hl
            · exact q2 l hl
      · have htau : l = .tau := by
          have who : ∀ a, s.pool.pcs a ≠ .idle → a = .client 0 := fun a ha => Classical.byContradiction fun e => ha (hw.others a e)
          obtain ⟨i, hji⟩ := hdr.joining
          obtain ⟨i', hji'⟩ := h1.joining
          cases l with
          | tau => rfl
          | call a op => exact absurd rfl (hq.1 a op)
          | spurious => exact absurd rfl hq.2.1
          | throws => exact absurd rfl hq.2.2
          | ret a r =>
            exfalso
            have hidle : p.pcs a = .idle ∧ s.pool.pcs a ≠ .idle := by
              generalize hlab : PoolLabel.ret a r = l at ha
              cases ha <;> try (cases hlab; done)
              all_goals first
                | (cases hlab
                   have hpc := ‹s.pool.pcs a = _›
                   exact ⟨by simp, by rw [hpc]; simp⟩)
                | skip
              case stopAlready a' k hpc _ => cases k <;> cases hlab; exact ⟨by simp [afterStop], by rw [hpc]; simp⟩
              case stopDone a' k _ hpc _ => cases k <;> cases hlab; exact ⟨by simp [afterStop], by rw [hpc]; simp⟩
            have := who a hidle.2
            subst this
            rw [hji'] at hidle
            cases hidle.1
        subst htau
        obtain ⟨fl, hfl, hst⟩ := hw.lift hdr.thrInv hleft ha
        obtain ⟨tr, s'', r1, r2⟩ := ih _ (by rw [← hn]; simp only; omega) _ rfl (winv_step hw hdr.live hst) h1 hpc
        exact ⟨.tau :: tr, s'', lrun_cons hdr.live hst r1, by simpa using r2⟩
    · cases hf : s.fl with
      | none => simp [hf, FlushPc.left] at hleft
      | ended b => simp [hf, FlushPc.left] at hleft
      | unmarked b => exact flush _ (.flushTimed hf) rfl (by simp [hf, FlushPc.left]) hpc
      | cleared b => exact flush _ (.flushUnmark hf) rfl (by simp [hf, FlushPc.left]) hpc
      | written b => exact flush _ (.flushClear hf) rfl (by simp [hf, FlushPc.left]) hpc
      | start b =>
        by_cases hdata : (s.bufs b).data = []
        · exact flush _ (.flushEmpty hf hdata) rfl (by simp [hf, FlushPc.left]) hpc
        · exact flush _ (.flushWritten hf hdata) rfl (by simp [hf, FlushPc.left]) hpc

/-- In every phase of `Stop` after its notification it can return, by steps that show nothing. -/
theorem phase_ends {d : Bool} {s : FLog} (hw : WInv s) (hp : LPhase d s) : ∃ tr s', LRun s (tr ++ [lastLabel d]) s' ∧ ∀ l ∈ tr, l = .tau := by
  rcases hp with ⟨hpc, hdr⟩ | ⟨i, hpc, he, hcur⟩ | ⟨hpc, he⟩ | ⟨rfl, hpc, he, hc⟩
  · exact drain_ends _ s rfl hw hdr hpc
  · obtain ⟨tr, s₁, r1, r2, r3, r4, r5⟩ := flush_ends (d := d) _ _ i rfl hw he hcur hpc
    obtain ⟨tr', s'', q1, q2⟩ := fin_ends r5 r4 r3
    refine ⟨tr ++ tr', s'', ?_, fun l hl => (List.mem_append.1 hl).elim (r2 l) (q2 l)⟩
    rw [List.append_assoc]
    exact lrun_append r1 q1
  · exact fin_ends hw he hpc
  · have last : ∀ s : FLog, s.pc = .destroying → Ended s.pool → s.pool.pcs (.client 0) = .members → ∃ s', LRun s [.destroyed] s' := by
      intro s hpc he hm
      exact ⟨_, lrun_cons he.live (.destroyed hpc (Act.destroyed hm he.joined)) (.nil _)⟩
    rcases hc with hc | hc
    · have a2 : Act s.pool (stopLabel (.client 0) .destroy) _ := Act.stopAlready (a := .client 0) (k := .destroy) hc he.cont
      have s2 := Step.pool (s := s) a2 rfl rfl
      obtain ⟨s', hs'⟩ := last { s with pool := s.pool.setPc (.client 0) (afterStop .destroy) } hpc ⟨he.live, he.cont, he.exited, he.joined⟩ (by simp [afterStop])
      exact ⟨[.tau], s', lrun_cons he.live s2 hs', by simp⟩
    · obtain ⟨s', hs'⟩ := last s hpc he hc
      exact ⟨[], s', hs', by simp⟩

end Cppnet
