import Verif.Proofs.FileLogger

/-! # The order of the lines a file logger writes -/

namespace Cppnet
open Spec Pool FLog

/-- The buffer that has been marked and not yet been given to the pool. -/
def handL (s : FLog) : List Nat :=
  match s.pc with
  | .next b | .add b => [b]
  | .adding b => if (s.pool.pcs (.client 0)).pre b then [b] else []
  | _ => []

/-- The current buffer, unless it has been marked. -/
def curL (s : FLog) : List Nat :=
  match s.pc, s.cur with
  | .next _, _ => []
  | _, some c => s.ring[c]?.toList
  | _, none => []

theorem hand_iff (s : FLog) (b : Nat) : Hand s b ↔ b ∈ handL s := by
  unfold Hand handL
  cases s.pc <;> simp <;> try exact eq_comm
  rename_i x
  constructor
  · rintro ⟨rfl, h⟩
    exact ⟨h, rfl⟩
  · rintro ⟨h, rfl⟩
    exact ⟨rfl, h⟩

/-- Before `Stop` has joined the worker: the buffers in the order of their lines. -/
structure OInv (prev : Str) (log : List Str) (s : FLog) : Prop where
  cont : (∀ d, s.pc ≠ .stopping d) → s.pool.cont = true
  threads : s.cur ≠ none → s.pool.threadNum ≠ 0
  spawn : ∀ n, s.pool.pcs (.client 0) = .initSpawn false n → s.pool.threadNum ≠ 0
  one : s.pool.workers.length ≤ 1
  noCur : s.cur = none → s.pool.pcs (.client 0) ≠ .initSpawn false 0 → s.pool.workers = []
  order : ∃ written todo, s.file = prev ++ written.flatten ∧ s.pool.accepted = s.pool.finished ++ s.fl.gone ++ todo ∧
    (∀ b, s.fl.busy = some b → ∃ rest, todo = b :: rest) ∧
    log = written ++ (todo ++ handL s ++ curL s).flatMap (held s) ∧
    (∀ b ∈ s.ring, b ∉ todo ++ handL s ++ curL s → (s.bufs b).lines = [])
  cleared : ∀ b, s.fl = .cleared b → (s.bufs b).lines = []

/-- What else a step of the pool does. -/
theorem internal_small {s s' : Pool Nat} {l} (h : Act s l s') (hl : l = .tau ∨ l = .spurious)
    (ho : ∀ a, a ≠ .client 0 → s.pcs a = .idle) {pc : LPc} (hc : CRel pc (s.pcs (.client 0))) :
    ((∀ d, pc ≠ .stopping d) → pc ≠ .destroying → s'.cont = s.cont) ∧
    (s'.threadNum = s.threadNum ∨ ∃ n, s.pcs (.client 0) = .initClear false n ∧ s'.threadNum = n ∧ s'.pcs (.client 0) = .initSpawn false n) ∧
    (s'.workers.length = s.workers.length ∨ ∃ n, s.pcs (.client 0) = .initSpawn false (n + 1) ∧
      s'.pcs (.client 0) = .initSpawn false n ∧ s'.workers.length = s.workers.length + 1) ∧
    (∀ n, s'.pcs (.client 0) = .initSpawn false n → s.pcs (.client 0) = .initSpawn false n ∨ s.pcs (.client 0) = .initSpawn false (n + 1) ∨
      s.pcs (.client 0) = .initClear false n ∧ s'.threadNum = n) ∧
    (s.pcs (.client 0) = .initSpawn false 0 → s'.pcs (.client 0) = .initSpawn false 0) := by
  have who : ∀ a, s.pcs a ≠ .idle → a = .client 0 := fun a ha => Classical.byContradiction fun e => ha (ho a e)
  cases h
  case call => rcases hl with hl | hl <;> cases hl
  case addRefused => rcases hl with hl | hl <;> cases hl
  case addDone => rcases hl with hl | hl <;> cases hl
  case resizeSame => rcases hl with hl | hl <;> cases hl
  case initDone r _ => rcases hl with hl | hl <;> cases hl
  case destroyed => rcases hl with hl | hl <;> cases hl
  case numDone => rcases hl with hl | hl <;> cases hl
  case stopFlag a k hpc =>
    have := who a (by rw [hpc]; simp)
    subst this
    rw [hpc] at hc
    refine ⟨fun h1 h2 => ?_, .inl rfl, .inl rfl, fun n e => by simp at e, fun e => by rw [hpc] at e; cases e⟩
    cases pc <;> simp [CRel, CPc.pre, CPc.stopOf] at hc h1 h2
  case initCleared a r n hpc h =>
    have := who a (by rw [hpc]; simp)
    subst this
    rw [hpc] at hc
    have hr : r = false := by cases pc <;> simp [CRel, CPc.pre, CPc.stopOf] at hc; exact hc
    subst hr
    refine ⟨fun _ _ => rfl, .inr ⟨n, hpc, rfl, by simp⟩, .inl rfl, fun m e => ?_, fun e => by rw [hpc] at e; cases e⟩
    simp at e
    subst e
    exact .inr (.inr ⟨hpc, rfl⟩)
  case initSpawned a r n hpc =>
    have := who a (by rw [hpc]; simp)
    subst this
    rw [hpc] at hc
    have hr : r = false := by cases pc <;> simp [CRel, CPc.pre, CPc.stopOf] at hc; exact hc
    subst hr
    refine ⟨fun _ _ => rfl, .inl rfl, .inr ⟨n, hpc, by simp, by simp⟩, fun m e => ?_, fun e => by rw [hpc] at e; cases e⟩
    simp at e
    subst e
    exact .inr (.inl hpc)
  case resizeCleared a n hpc h =>
    have := who a (by rw [hpc]; simp)
    subst this
    rw [hpc] at hc
    cases pc <;> simp [CRel, CPc.pre, CPc.stopOf] at hc
  case stopAlready a k hpc _ =>
    have := who a (by rw [hpc]; simp)
    subst this
    exact ⟨fun _ _ => rfl, .inl rfl, .inl (by simp), fun n e => by cases k <;> simp [afterStop] at e, fun e => by rw [hpc] at e; cases e⟩
  case stopDone a k _ hpc _ =>
    have := who a (by rw [hpc]; simp)
    subst this
    exact ⟨fun _ _ => rfl, .inl rfl, .inl (by simp), fun n e => by cases k <;> simp [afterStop] at e, fun e => by rw [hpc] at e; cases e⟩
  case stopNotified a k hpc =>
    have := who a (by rw [hpc]; simp)
    subst this
    exact ⟨fun _ _ => rfl, .inl rfl, .inl (by simp), fun n e => by simp at e, fun e => by rw [hpc] at e; cases e⟩
  all_goals first
    | exact ⟨fun _ _ => rfl, .inl rfl, .inl rfl, fun n e => .inl e, id⟩
    | exact ⟨fun _ _ => rfl, .inl rfl, .inl (by simp), fun n e => .inl e, id⟩
    | (have hpc := ‹s.pcs _ = _›
       have := who _ (by rw [hpc]; simp)
       subst this
       refine ⟨fun _ _ => rfl, .inl rfl, .inl (by simp), fun n e => ?_, fun e => by rw [hpc] at e; cases e⟩
       simp at e
       done)

theorem OInv.todo {prev log} {s : FLog} (hi : FInv True prev log s) (hd : ¬ Dead s.pool) {todo : List Nat}
    (h : s.pool.accepted = s.pool.finished ++ s.fl.gone ++ todo) :
    todo.Nodup ∧ ∀ b ∈ todo, b ∈ s.ring ∧ (s.bufs b).need = true ∧ b ∉ handL s := by
  rcases hi.tasks with h' | ⟨todo', t1, t2, t3, _⟩
  · exact absurd h' hd
  · rw [h] at t1
    have e := (List.perm_append_left_iff _).1 t1
    refine ⟨e.nodup_iff.2 t2, fun b hb => ?_⟩
    obtain ⟨j1, j2, j3⟩ := t3 b (e.subset hb)
    exact ⟨j1, j2, fun h => j3 ((hand_iff s b).2 h)⟩

theorem mem_curL {s : FLog} {b : Nat} (h : b ∈ curL s) : ∃ c, s.cur = some c ∧ s.ring[c]? = some b ∧ ∀ b', s.pc ≠ .next b' := by
  unfold curL at h
  split at h
  · simp at h
  · rename_i c hn hc
    exact ⟨c, hn, by simpa using h, hc⟩
  · simp at h

/-- The list of buffers that hold lines has no repetition. -/
theorem OInv.nodup {prev log} {s : FLog} (hi : FInv True prev log s) {b : Nat} (hb : s.fl.busy = some b) : b ∉ handL s ++ curL s := by
  intro h
  rcases List.mem_append.1 h with h | h
  · exact (hi.busy_buf hb).2.2 ((hand_iff s b).2 h)
  · obtain ⟨c, h1, h2, _⟩ := mem_curL h
    exact hi.busy_cur hb h1 h2

theorem curL_pool (s : FLog) (p : Pool Nat) (fl : FlushPc) : curL { s with pool := p, fl := fl } = curL s := rfl

theorem OInv.pool_step {prev log} {s : FLog} (hi : FInv True prev log s) (hj : JInv s) (ho : OInv prev log s) (hlive : s.pool.phase = .live)
    (hpc : s.pc ≠ .destroying) {l p} (ha : Act s.pool l p) (hl : l = .tau ∨ l = .spurious) (fl : FlushPc)
    (hfin : s.pool.finished ++ s.fl.gone = p.finished ++ fl.gone)
    (hbusy : ∀ b, fl.busy = some b → s.fl.busy = some b ∨ fl = .start b ∧ s.fl = .none ∧ p.started = p.finished ++ [b])
    (hw : ∀ b, fl ≠ .written b ∧ s.fl ≠ .written b ∨ fl = s.fl) (hcl : ∀ b, fl = .cleared b → s.fl = .cleared b) :
    OInv prev log { s with pool := p, fl := fl } := by
  obtain ⟨s1, s2, s3, s4, s5⟩ := internal_small ha hl hi.others hi.client
  have hrun := hi.run_step hlive ha (by rcases hl with rfl | rfl <;> first | exact disc_tau | exact disc_spurious)
  have hone : p.workers.length ≤ 1 := by
    rcases s3 with e | ⟨n, e1, e2, e3⟩
    · rw [e]; exact ho.one
    · have hp : s.pc = .initing := by
        have hc := hi.client
        rw [e1] at hc
        cases h : s.pc <;> simp [h, CRel, CPc.pre, CPc.stopOf] at hc ⊢
      have hcn : s.cur = none := by
        rcases hj.init hp with e | e | e
        · rw [e1] at e; cases e
        · exact e.1
        · exact e.1
      have := ho.noCur hcn (by rw [e1]; simp)
      rw [e3, this]; simp
  refine ⟨fun h => (s1 h hpc).trans (ho.cont h), fun h => ?_, fun n e => ?_, hone, fun h1 h2 => ?_, ?_, fun b e => ho.cleared b (hcl b e)⟩
  · rcases s2 with e | ⟨n, e1, e2, e3⟩
    · show p.threadNum ≠ 0; rw [e]; exact ho.threads h
    · exfalso
      have hp : s.pc = .initing := by
        have hc := hi.client
        rw [e1] at hc
        cases h : s.pc <;> simp [h, CRel, CPc.pre, CPc.stopOf] at hc ⊢
      have := (JInv.pool_step hi hj ha hl fl).init hp
      rcases this with e | e | e
      · have e : p.pcs (.client 0) = _ := e
        rw [e3] at e; cases e
      · exact h e.1
      · exact h e.1
  · rcases s4 n e with h | h | ⟨h, h'⟩
    · rcases s2 with e | ⟨n, e1, e2, e3⟩
      · show p.threadNum ≠ 0; rw [e]; exact ho.spawn n h
      · rw [e1] at h; cases h
    · rcases s2 with e | ⟨n, e1, e2, e3⟩
      · show p.threadNum ≠ 0; rw [e]; exact ho.spawn _ h
      · rw [e1] at h; cases h
    · have hp : s.pc = .initing := by
        have hc := hi.client
        rw [h] at hc
        cases h : s.pc <;> simp [h, CRel, CPc.pre, CPc.stopOf] at hc ⊢
      have : n = 1 := by
        rcases hj.init hp with e | e | e
        · rw [h] at e; cases e; rfl
        · rw [h] at e; cases e.2
        · rw [h] at e; cases e.2.1
      show p.threadNum ≠ 0
      rw [h', this]; simp
  · show p.workers = []
    have h1 : s.cur = none := h1
    have h2 : p.pcs (.client 0) ≠ .initSpawn false 0 := h2
    have hs : s.pool.pcs (.client 0) ≠ .initSpawn false 0 := by
      intro e
      exact h2 (s5 e)
    have hw0 := ho.noCur h1 hs
    rcases s3 with e | ⟨n, e1, e2, e3⟩
    · rw [hw0] at e; exact List.length_eq_zero_iff.1 e
    · have hp : s.pc = .initing := by
        have hc := hi.client
        rw [e1] at hc
        cases h : s.pc <;> simp [h, CRel, CPc.pre, CPc.stopOf] at hc ⊢
      rcases hj.init hp with e | e | e
      · rw [e1] at e; cases e
      · rw [e1] at e; cases e.2; exact absurd e2 h2
      · rw [e1] at e; cases e.2.1
  · obtain ⟨w, todo, o1, o2, o3, o4, o5⟩ := ho.order
    have hheld : held { s with pool := p, fl := fl } = held s := by
      funext b
      simp only [held]
      rcases hw b with ⟨h1, h2⟩ | h
      · rw [if_neg h1, if_neg h2]
      · rw [h]
    have hstart : ∀ todo', p.accepted = p.finished ++ fl.gone ++ todo' → (∀ b rest, todo = b :: rest → ∃ rest', todo' = b :: rest') →
        ∀ b, fl.busy = some b → ∃ rest, todo' = b :: rest := by
      intro todo' e1 e2 b hb
      rcases hbusy b hb with h | ⟨rfl, h1, h2⟩
      · obtain ⟨rest, hr⟩ := o3 b h
        exact e2 b rest hr
      · obtain ⟨tr, hr, _⟩ := hrun
        have hpre := C48_single_worker_partial p ⟨tr, hr⟩ hone
        rw [h2, e1] at hpre
        simp only [FlushPc.gone, List.append_nil] at hpre
        have := (List.prefix_append_right_inj p.finished).1 hpre
        obtain ⟨rest, hr⟩ := this
        exact ⟨rest, hr.symm⟩
    obtain ⟨_, _, ⟨hacc, hpre⟩ | ⟨b, hpc, hpre, hacc, hnp⟩⟩ := internal_step ha hl hi.others hi.client
    · have hh : handL { s with pool := p, fl := fl } = handL s := by
        unfold handL
        simp only [hpre]
      have e1 : p.accepted = p.finished ++ fl.gone ++ todo := by rw [hacc, o2, hfin]
      refine ⟨w, todo, o1, e1, hstart todo e1 (fun b rest h => ⟨rest, h⟩), ?_, ?_⟩
      · rw [hheld, hh, curL_pool]; exact o4
      · rw [hh, curL_pool]; exact o5
    · have h1 : handL s = [b] := by unfold handL; simp [hpc, hpre]
      have h2 : handL { s with pool := p, fl := fl } = [] := by unfold handL; simp [hpc, hnp]
      have e1 : p.accepted = p.finished ++ fl.gone ++ (todo ++ [b]) := by rw [hacc, o2, hfin, List.append_assoc]
      refine ⟨w, todo ++ [b], o1, e1, hstart _ e1 (fun b rest h => ⟨_, by rw [h]; rfl⟩), ?_, ?_⟩
      · rw [hheld, h2, curL_pool, o4, h1]; simp
      · rw [h2, curL_pool]
        rw [h1] at o5
        simpa using o5

/-- `Stop` has not yet joined the worker. -/
def LPc.early : LPc → Bool
  | .flush _ _ | .fin _ | .destroying | .gone => false
  | _ => true

theorem flatMap_nil_of {β : Type} (f : Nat → List β) (b : Nat) (h : f b = []) (l l' : List Nat) :
    (l ++ b :: l').flatMap f = (l ++ l').flatMap f := by simp [h]

theorem oinv_step {prev log} {s s' : FLog} {l} (hi : FInv True prev log s) (hj : JInv s) (ho : OInv prev log s) (hlive : s.pool.phase = .live)
    (hg : GoodLabel l) (hno : l ≠ .openFailed) (hearly : s.pc.early = true) (h : Step s l s') (hearly' : s'.pc.early = true) :
    OInv prev (log ++ loggedLines [l]) s' := by
  have hcall : ∀ {op p}, Act s.pool (.call (.client 0) op) p → p = s.pool.setPc (.client 0) (entry op) ∧ s.pool.pcs (.client 0) = .idle :=
    fun h => ⟨(call_step h).2, (call_step h).1⟩
  have hnd : s.pc ≠ .destroying := by intro e; rw [e] at hearly; cases hearly
  have live : (∀ d, s.pc ≠ .stopping d) → ¬ Dead s.pool := fun h hd => by
    have := ho.cont h
    rw [hd.1] at this; cases this
  have busyLive : ∀ {b}, s.fl.busy = some b → ¬ Dead s.pool := fun hb hd => by
    rw [hi.deadFl hd] at hb; cases hb
  -- a change of the program counter alone
  have pcs : ∀ pc : LPc, (∀ d, s.pc ≠ .stopping d) → handL { s with pc := pc } = handL s →
      curL { s with pc := pc } = curL s → OInv prev log { s with pc := pc } := by
    intro pc h1 h2 h3
    refine ⟨fun _ => ho.cont h1, ho.threads, ho.spawn, ho.one, ho.noCur, ?_, ho.cleared⟩
    obtain ⟨w, todo, o1, o2, o3, o4, o5⟩ := ho.order
    exact ⟨w, todo, o1, o2, o3, by rw [h2, h3]; exact o4, by rw [h2, h3]; exact o5⟩
  cases h
  case pool p h h1 h2 =>
    simp only [loggedLines, List.flatMap_cons, List.flatMap_nil, List.append_nil]
    exact ho.pool_step hi hj hlive hnd h (.inl rfl) s.fl (by rw [h2]) (fun b hb => .inl hb) (fun _ => .inr rfl) (fun _ h => h)
  case spurious p h =>
    simp only [loggedLines, List.flatMap_cons, List.flatMap_nil, List.append_nil]
    have : p.started = s.pool.started ∧ p.finished = s.pool.finished := by
      generalize hl : (PoolLabel.spurious : PoolLabel Nat) = l at h
      cases h <;> first | cases hl | skip
      case stopAlready a k _ _ => cases k <;> cases hl
      case stopDone a k _ _ _ => cases k <;> cases hl
      case wSpurious => exact ⟨rfl, rfl⟩
    exact ho.pool_step hi hj hlive hnd h (.inr rfl) s.fl (by rw [this.2]) (fun b hb => .inl hb) (fun _ => .inr rfl) (fun _ h => h)
  case flushStart p b h h1 h2 hf =>
    simp only [loggedLines, List.flatMap_cons, List.flatMap_nil, List.append_nil]
    have he := hi.exec
    rw [hf] at he
    refine ho.pool_step hi hj hlive hnd h (.inl rfl) (.start b) (by rw [h2, hf]; rfl) (fun x hx => ?_) (fun x => .inl ⟨by simp, by simp [hf]⟩) (by simp)
    simp only [FlushPc.busy, Option.some.injEq] at hx
    exact .inr ⟨by rw [hx], hf, by rw [h1, h2, he, hx]; simp [FlushPc.task]⟩
  case flushDone p b h h1 h2 hf =>
    simp only [loggedLines, List.flatMap_cons, List.flatMap_nil, List.append_nil]
    exact ho.pool_step hi hj hlive hnd h (.inl rfl) .none (by rw [h2, hf]; simp [FlushPc.gone]) (fun x hx => by cases hx)
      (fun x => .inl ⟨by simp, by simp [hf]⟩) (by simp)
  case flushEmpty b hf h =>
    simp only [loggedLines, List.flatMap_cons, List.flatMap_nil, List.append_nil]
    refine ⟨ho.cont, ho.threads, ho.spawn, ho.one, ho.noCur, ?_, by simp⟩
    obtain ⟨w, todo, o1, o2, o3, o4, o5⟩ := ho.order
    obtain ⟨rest, hr⟩ := o3 b (by rw [hf]; rfl)
    have hl := (Buf.data_nil (hi.lines b)).1 h
    have hheld : held { s with fl := .ended b } = held s := by funext x; simp [held, hf]
    refine ⟨w, rest, o1, by rw [o2, hf, hr]; simp [FlushPc.gone], by simp [FlushPc.busy], ?_, ?_⟩
    · rw [hheld, o4, hr]
      show _ = w ++ List.flatMap (held s) (rest ++ handL s ++ curL s)
      simp [held, hf, hl]
    · intro x hx hn
      by_cases e : x = b
      · subst e; exact hl
      · refine o5 x hx ?_
        rw [hr]
        simp only [List.cons_append, List.mem_cons, not_or]
        exact ⟨e, hn⟩
  case flushFailed => exact absurd rfl hno
  case flushWritten b hf h =>
    simp only [loggedLines, List.flatMap_cons, List.flatMap_nil, List.append_nil]
    refine ⟨ho.cont, ho.threads, ho.spawn, ho.one, ho.noCur, ?_, by simp⟩
    have hbz : s.fl.busy = some b := by rw [hf]; rfl
    obtain ⟨w, todo, o1, o2, o3, o4, o5⟩ := ho.order
    obtain ⟨rest, hr⟩ := o3 b hbz
    obtain ⟨t1, t2⟩ := OInv.todo hi (busyLive hbz) o2
    rw [hr] at t1
    have hnb : b ∉ rest ++ (handL s ++ curL s) := by
      intro h
      rcases List.mem_append.1 h with h | h
      · exact (List.nodup_cons.1 t1).1 h
      · exact OInv.nodup hi hbz h
    refine ⟨w ++ (s.bufs b).lines, todo, by simp [o1, Buf.data], by rw [o2, hf]; rfl, fun x hx => o3 x (by simpa [FlushPc.busy, hf] using hx), ?_, o5⟩
    show log = (w ++ (s.bufs b).lines) ++ List.flatMap (held { s with fl := .written b, file := s.file ++ (s.bufs b).data }) (todo ++ handL s ++ curL s)
    rw [o4, hr, List.append_assoc (b :: rest), List.cons_append, List.flatMap_cons, List.flatMap_cons]
    have a1 : held s b = (s.bufs b).lines := by simp [held, hf]
    have a2 : held { s with fl := .written b, file := s.file ++ (s.bufs b).data } b = [] := by simp [held]
    rw [a1, a2, List.nil_append, List.append_assoc, flatMap_same (held s) (held { s with fl := .written b, file := s.file ++ (s.bufs b).data })]
    intro x hx
    have : x ≠ b := by rintro rfl; exact hnb hx
    simp [held, hf, Ne.symm this]
  case flushCut => exact absurd rfl hg.2.1
  case flushClear b hf =>
    simp only [loggedLines, List.flatMap_cons, List.flatMap_nil, List.append_nil]
    refine ⟨ho.cont, ho.threads, ho.spawn, ho.one, ho.noCur, ?_, fun x hx => by cases hx; simp [setBuf]⟩
    obtain ⟨w, todo, o1, o2, o3, o4, o5⟩ := ho.order
    have hheld : held { s.setBuf b { s.bufs b with lines := [] } with fl := .cleared b } = held s := by
      funext x
      simp only [held, setBuf, hf]
      by_cases e : x = b
      · simp [e]
      · simp [e, Ne.symm e]
    refine ⟨w, todo, o1, by rw [hf] at o2; exact o2, fun x hx => o3 x (by simpa [FlushPc.busy, hf] using hx), by rw [hheld]; exact o4, ?_⟩
    intro x hx hn
    show ((s.setBuf b { s.bufs b with lines := [] }).bufs x).lines = []
    by_cases e : x = b
    · simp [setBuf, e]
    · have := o5 x hx hn
      simp [setBuf, e, this]
  case flushTimed b hf =>
    simp only [loggedLines, List.flatMap_cons, List.flatMap_nil, List.append_nil]
    refine ⟨ho.cont, ho.threads, ho.spawn, ho.one, ho.noCur, ?_, by simp⟩
    obtain ⟨w, todo, o1, o2, o3, o4, o5⟩ := ho.order
    have hheld : held { s with fl := .ended b } = held s := by funext x; simp [held, hf]
    refine ⟨w, todo, o1, by rw [hf] at o2; exact o2, by simp [FlushPc.busy], by rw [hheld]; exact o4, o5⟩
  case flushUnmark b hf =>
    simp only [loggedLines, List.flatMap_cons, List.flatMap_nil, List.append_nil]
    have hlines : ∀ x, ((s.setBuf b { s.bufs b with need := false }).bufs x).lines = (s.bufs x).lines := by
      intro x; simp only [setBuf]; by_cases e : x = b <;> simp [e]
    refine ⟨ho.cont, ho.threads, ho.spawn, ho.one, ho.noCur, ?_, by simp⟩
    obtain ⟨w, todo, o1, o2, o3, o4, o5⟩ := ho.order
    obtain ⟨rest, hr⟩ := o3 b (by rw [hf]; rfl)
    have hl := ho.cleared b hf
    have hheld : held { s.setBuf b { s.bufs b with need := false } with fl := .unmarked b } = held s := by
      funext x
      simp only [held, hf]
      simp [hlines]
    refine ⟨w, rest, o1, by show s.pool.accepted = _; rw [o2, hf, hr]; simp [FlushPc.gone, setBuf], by simp [FlushPc.busy], ?_, ?_⟩
    · rw [hheld, o4, hr]
      show _ = w ++ List.flatMap (held s) (rest ++ handL s ++ curL s)
      simp [held, hf, hl]
    · intro x hx hn
      show ((s.setBuf b { s.bufs b with need := false }).bufs x).lines = []
      rw [hlines]
      by_cases e : x = b
      · subst e; exact hl
      · refine o5 x hx ?_
        rw [hr]
        simp only [List.cons_append, List.mem_cons, not_or]
        exact ⟨e, hn⟩
  case setNum n hpc =>
    simp only [loggedLines, List.flatMap_cons, List.flatMap_nil, List.append_nil]
    exact ⟨ho.cont, ho.threads, ho.spawn, ho.one, ho.noCur, ho.order, ho.cleared⟩
  case setSize n hpc =>
    simp only [loggedLines, List.flatMap_cons, List.flatMap_nil, List.append_nil]
    exact ⟨ho.cont, ho.threads, ho.spawn, ho.one, ho.noCur, ho.order, ho.cleared⟩
  case setLevel n hpc =>
    simp only [loggedLines, List.flatMap_cons, List.flatMap_nil, List.append_nil]
    exact ⟨ho.cont, ho.threads, ho.spawn, ho.one, ho.noCur, ho.order, ho.cleared⟩
  case init p hpc h =>
    simp only [loggedLines, List.flatMap_cons, List.flatMap_nil, List.append_nil]
    obtain ⟨rfl, c7⟩ := hcall h
    refine ⟨fun _ => ho.cont (by simp [hpc]), ho.threads, fun n e => by simp [entry] at e, ho.one,
      fun e _ => ho.noCur e (by rw [c7]; simp), ?_, ho.cleared⟩
    obtain ⟨w, todo, o1, o2, o3, o4, o5⟩ := ho.order
    have e1 : handL s = [] := by simp [handL, hpc]
    have e2 : curL { s with pool := s.pool.setPc (.client 0) (entry (.init 1)), pc := .initing } = curL s := by
      unfold curL; rw [hpc]; cases s.cur <;> rfl
    exact ⟨w, todo, o1, o2, o3, by rw [e2]; rw [e1] at o4; exact o4, by rw [e2]; rw [e1] at o5; exact o5⟩
  case inited p hpc h hs =>
    simp only [loggedLines, List.flatMap_cons, List.flatMap_nil, List.append_nil]
    have hp : s.pool.pcs (.client 0) = .initSpawn false 0 ∧ p = s.pool.setPc (.client 0) .idle := by
      generalize hl : PoolLabel.ret (.client 0) PoolRet.inited = l at h
      cases h <;> first | cases hl | skip
      case stopAlready a k _ _ => cases k <;> cases hl
      case stopDone a k _ _ _ => cases k <;> cases hl
      case initDone a r h' =>
        cases r <;> cases hl
        exact ⟨h', rfl⟩
    obtain ⟨hp, rfl⟩ := hp
    have hcn : s.cur = none := by
      rcases hj.init hpc with e | e | e
      · rw [hp] at e; cases e
      · rw [hp] at e; cases e.2
      · exact e.1
    have hring := hi.curNone hcn
    obtain ⟨w, todo, o1, o2, o3, o4, o5⟩ := ho.order
    have htodo : todo = [] := by
      obtain ⟨_, t2⟩ := OInv.todo hi (live (by simp [hpc])) o2
      cases todo with
      | nil => rfl
      | cons x xs => have := (t2 x (by simp)).1; rw [hring] at this; simp at this
    subst htodo
    have e1 : handL s = [] := by simp [handL, hpc]
    have e2 : curL s = [] := by unfold curL; rw [hpc, hcn]
    rw [e1, e2] at o4
    have hget : (List.range' s.made (max 1 s.num.toNat))[0]? = some s.made := by
      rw [List.getElem?_range' (by omega)]; simp
    refine ⟨fun _ => ho.cont (by simp [hpc]), fun _ => ho.spawn _ hp, fun n e => by simp at e, ho.one, fun e => by simp at e,
      ⟨w, [], o1, o2, fun b hb => ?_, ?_, fun b hb _ => ?_⟩, fun b hb => ?_⟩
    · obtain ⟨_, h⟩ := o3 b hb; cases h
    · simp only [handL, curL, hget, Option.toList]
      rw [o4]
      have hm : 0 < max 1 s.num.toNat := by omega
      simp [held, hm]
    · simp only [List.mem_range'_1] at hb
      simp [hb]
    · have := (hi.busy_buf (b := b) (by rw [show s.fl = .cleared b from hb]; rfl)).1
      rw [hring] at this; simp at this
  case log lvl time msg c b hpc hl hc hb =>
    have hll : loggedLines [.log (line lvl time msg)] = [line lvl time msg] := rfl
    rw [hll]
    generalize line lvl time msg = ln
    obtain ⟨w, todo, o1, o2, o3, o4, o5⟩ := ho.order
    obtain ⟨_, t2⟩ := OInv.todo hi (live (by simp [hpc])) o2
    have hnb : b ∉ todo := fun h => by
      have := (t2 b h).2.1
      rw [hi.curNeed c b hc hb (by simp [hpc])] at this; cases this
    have hnw : s.fl ≠ .written b := fun e => hi.busy_cur (b := b) (by rw [e]; rfl) hc hb
    have e1 : handL s = [] := by simp [handL, hpc]
    have e2 : curL s = [b] := by unfold curL; rw [hpc, hc]; simp [hb]
    rw [e1, e2] at o4 o5
    refine ⟨fun _ => ho.cont (by simp [hpc]), ho.threads, ho.spawn, ho.one, ho.noCur, ⟨w, todo, o1, o2, o3, ?_, ?_⟩, fun x hx => ?_⟩
    · have e3 : curL { s.setBuf b { s.bufs b with lines := (s.bufs b).lines ++ [ln] } with pc := .check } = [b] := by
        simp [curL, setBuf, hc, hb]
      rw [e3]
      show log ++ [ln] = w ++ List.flatMap _ (todo ++ [] ++ [b])
      simp only [List.append_nil, List.flatMap_append, List.flatMap_cons, List.flatMap_nil] at o4 ⊢
      have a1 : held s b = (s.bufs b).lines := by simp [held, hnw]
      have a2 : held { s.setBuf b { s.bufs b with lines := (s.bufs b).lines ++ [ln] } with pc := .check } b = (s.bufs b).lines ++ [ln] := by
        simp [held, setBuf, hnw]
      rw [a1] at o4
      rw [a2, o4, flatMap_same (held s) (held { s.setBuf b { s.bufs b with lines := (s.bufs b).lines ++ [ln] } with pc := .check })]
      · simp
      · intro x hx
        have : x ≠ b := by rintro rfl; exact hnb hx
        simp [held, setBuf, this]
    · intro x hx hn
      have e3 : curL { s.setBuf b { s.bufs b with lines := (s.bufs b).lines ++ [ln] } with pc := .check } = [b] := by
        simp [curL, setBuf, hc, hb]
      rw [e3] at hn
      have hxb : x ≠ b := by rintro rfl; simp at hn
      show ((s.setBuf b { s.bufs b with lines := (s.bufs b).lines ++ [ln] }).bufs x).lines = []
      have := o5 x hx hn
      simp [setBuf, hxb, this]
    · have hxb : x ≠ b := by
        rintro rfl
        exact hi.busy_cur (b := x) (by rw [show s.fl = .cleared x from hx]; rfl) hc hb
      have := ho.cleared x hx
      simp [setBuf, hxb, this]
  case ignored =>
    simp only [loggedLines, List.flatMap_cons, List.flatMap_nil, List.append_nil]
    exact ho
  case noFlush c b hpc hc hb h =>
    simp only [loggedLines, List.flatMap_cons, List.flatMap_nil, List.append_nil]
    exact pcs _ (by simp [hpc]) (by simp [handL, hpc]) (by unfold curL; rw [hpc, hc])
  case mark c b hpc hc hb h =>
    simp only [loggedLines, List.flatMap_cons, List.flatMap_nil, List.append_nil]
    have hlines : ∀ x, ((s.setBuf b { s.bufs b with need := true }).bufs x).lines = (s.bufs x).lines := by
      intro x; simp only [setBuf]; by_cases e : x = b <;> simp [e]
    have hheld : held { s.setBuf b { s.bufs b with need := true } with pc := .next b } = held s := by
      funext x; simp only [held, hlines]; rfl
    obtain ⟨w, todo, o1, o2, o3, o4, o5⟩ := ho.order
    have e1 : handL s = [] := by simp [handL, hpc]
    have e2 : curL s = [b] := by unfold curL; rw [hpc, hc]; simp [hb]
    rw [e1, e2] at o4 o5
    refine ⟨fun _ => ho.cont (by simp [hpc]), ho.threads, ho.spawn, ho.one, ho.noCur, ⟨w, todo, o1, o2, o3, ?_, fun x hx hn => ?_⟩, fun x hx => ?_⟩
    · rw [hheld]
      simpa [handL, curL] using o4
    · show ((s.setBuf b { s.bufs b with need := true }).bufs x).lines = []
      rw [hlines]
      refine o5 x hx ?_
      simpa [handL, curL] using hn
    · show ((s.setBuf b { s.bufs b with need := true }).bufs x).lines = []
      rw [hlines]; exact ho.cleared x hx
  case nextFull b c n hpc hc hn h =>
    simp only [loggedLines, List.flatMap_cons, List.flatMap_nil, List.append_nil]
    have hlt := hi.curLt c hc
    have hne : ∀ x ∈ s.ring, x ≠ s.made := fun x hx e => by have := hi.made x hx; omega
    have hlen : (s.ring.take (c + 1)).length = c + 1 := by rw [List.length_take]; omega
    have hnew : (s.ring.take (c + 1) ++ s.made :: s.ring.drop (c + 1))[c + 1]? = some s.made := by
      rw [List.getElem?_append_right (by omega), hlen]; simp
    obtain ⟨w, todo, o1, o2, o3, o4, o5⟩ := ho.order
    obtain ⟨_, t2⟩ := OInv.todo hi (live (by simp [hpc])) o2
    have hbr : b ∈ s.ring := (hi.hand b (.inl hpc)).1
    have e1 : handL s = [b] := by simp [handL, hpc]
    have e2 : curL s = [] := by unfold curL; rw [hpc]
    rw [e1, e2] at o4 o5
    generalize hs' : ({ s.setBuf s.made {} with
        pc := .add b, cur := some (c + 1), ring := s.ring.take (c + 1) ++ s.made :: s.ring.drop (c + 1),
        made := s.made + 1, num := s.num + 1 } : FLog) = s'
    have hsame : ∀ x ∈ s.ring, s'.bufs x = s.bufs x := by
      intro x hx; subst hs'; simp [setBuf, hne x hx]
    have hfl : s'.fl = s.fl := by subst hs'; rfl
    have hheld : ∀ x ∈ s.ring, held s' x = held s x := by
      intro x hx
      unfold held
      rw [hsame x hx, hfl]
    have e0 : held s' s.made = [] := by
      subst hs'; simp only [held, setBuf]; split <;> simp
    have e3 : handL s' = [b] := by subst hs'; rfl
    have e4 : curL s' = [s.made] := by subst hs'; simp [curL, hnew]
    have hpool : s'.pool = s.pool := by subst hs'; rfl
    refine ⟨fun _ => by rw [hpool]; exact ho.cont (by simp [hpc]), fun _ => by rw [hpool]; exact ho.threads (by rw [hc]; simp),
      fun n e => by rw [hpool] at e ⊢; exact ho.spawn n e, by rw [hpool]; exact ho.one, fun e => by subst hs'; simp at e,
      ⟨w, todo, by subst hs'; exact o1, by rw [hpool, hfl]; exact o2, by rw [hfl]; exact o3, ?_, fun x hx hn => ?_⟩, fun x hx => ?_⟩
    · rw [e3, e4, List.flatMap_append, List.flatMap_cons, e0, o4]
      simp only [List.append_nil, List.flatMap_nil]
      rw [flatMap_same (held s) (held s') (todo ++ [b])]
      intro x hx
      refine hheld x ?_
      rcases List.mem_append.1 hx with h | h
      · exact (t2 x h).1
      · simp only [List.mem_singleton] at h; exact h ▸ hbr
    · have hx' : x = s.made ∨ x ∈ s.ring := by
        have : x ∈ s.ring.take (c + 1) ++ s.made :: s.ring.drop (c + 1) := by subst hs'; exact hx
        rw [← List.take_append_drop (c + 1) s.ring]
        simp only [List.mem_append, List.mem_cons] at this ⊢
        rcases this with h | h | h <;> simp [h]
      rw [e3, e4] at hn
      rcases hx' with h | h
      · subst h; simp at hn
      · rw [hsame x h]
        refine o5 x h (fun hh => hn ?_)
        rw [List.append_nil] at hh
        exact List.mem_append_left _ hh
    · have hx : s.fl = .cleared x := hfl ▸ hx
      have hxr := (hi.busy_buf (b := x) (by rw [hx]; rfl)).1
      rw [hsame x hxr]
      exact ho.cleared x hx
  case nextFree b c n hpc hc hn h =>
    simp only [loggedLines, List.flatMap_cons, List.flatMap_nil, List.append_nil]
    obtain ⟨w, todo, o1, o2, o3, o4, o5⟩ := ho.order
    obtain ⟨_, t2⟩ := OInv.todo hi (live (by simp [hpc])) o2
    have e1 : handL s = [b] := by simp [handL, hpc]
    have e2 : curL s = [] := by unfold curL; rw [hpc]
    rw [e1, e2] at o4 o5
    have e4 : curL { s with pc := .add b, cur := some (s.nextPos c) } = [n] := by simp [curL, hn]
    have hnl : (s.bufs n).lines = [] := by
      refine o5 n (List.mem_of_getElem? hn) (fun hh => ?_)
      rw [List.append_nil] at hh
      rcases List.mem_append.1 hh with hh | hh
      · have := (t2 n hh).2.1
        rw [h] at this; cases this
      · simp only [List.mem_singleton] at hh
        subst hh
        have := (hi.hand n (.inl hpc)).2
        rw [h] at this; cases this
    have hheld : held { s with pc := .add b, cur := some (s.nextPos c) } = held s := rfl
    have hheldn : held s n = [] := by
      unfold held; split
      · rfl
      · exact hnl
    refine ⟨fun _ => ho.cont (by simp [hpc]), fun _ => ho.threads (by rw [hc]; simp), ho.spawn, ho.one, fun e => by simp at e,
      ⟨w, todo, o1, o2, o3, ?_, fun x hx hn => ?_⟩, ho.cleared⟩
    · rw [e4, hheld]
      show log = w ++ List.flatMap (held s) (todo ++ [b] ++ [n])
      rw [o4]
      simp [hheldn]
    · rw [e4] at hn
      refine o5 x hx (fun hh => hn ?_)
      rw [List.append_nil] at hh
      exact List.mem_append_left _ hh
  case add p b hpc h =>
    simp only [loggedLines, List.flatMap_cons, List.flatMap_nil, List.append_nil]
    obtain ⟨rfl, c7⟩ := hcall h
    have hcur := hi.pcCur (by rw [hpc]; rfl)
    refine ⟨fun _ => ho.cont (by simp [hpc]), ho.threads, fun n e => by simp [entry] at e, ho.one,
      fun e => absurd e hcur, ?_, ho.cleared⟩
    obtain ⟨w, todo, o1, o2, o3, o4, o5⟩ := ho.order
    have e1 : handL { s with pool := s.pool.setPc (.client 0) (entry (.add b)), pc := .adding b } = handL s := by
      simp [handL, hpc, entry, CPc.pre]
    have e2 : curL { s with pool := s.pool.setPc (.client 0) (entry (.add b)), pc := .adding b } = curL s := by
      unfold curL; rw [hpc]; cases s.cur <;> rfl
    exact ⟨w, todo, o1, o2, o3, by rw [e1, e2]; exact o4, by rw [e1, e2]; exact o5⟩
  case added p b rc hpc h =>
    simp only [loggedLines, List.flatMap_cons, List.flatMap_nil, List.append_nil]
    have hcur := hi.pcCur (by rw [hpc]; rfl)
    have hp : (s.pool.pcs (.client 0)).pre b = false ∧ p = { s.pool with lock := none }.setPc (.client 0) .idle := by
      generalize hl : PoolLabel.ret (.client 0) (PoolRet.added rc) = l at h
      cases h <;> first | cases hl | skip
      case addRefused hr _ =>
        rcases hr with hr | hr
        · rw [ho.cont (by simp [hpc])] at hr; cases hr
        · exact absurd hr (ho.threads hcur)
      case addDone hh => exact ⟨by rw [hh]; rfl, rfl⟩
      case stopAlready a k _ _ => cases k <;> cases hl
      case stopDone a k _ _ _ => cases k <;> cases hl
      case initDone a r _ => cases r <;> cases hl
    obtain ⟨hp, rfl⟩ := hp
    refine ⟨fun _ => ho.cont (by simp [hpc]), ho.threads, fun n e => by simp at e, ho.one, fun e => absurd e hcur, ?_, ho.cleared⟩
    obtain ⟨w, todo, o1, o2, o3, o4, o5⟩ := ho.order
    have e1 : handL s = [] := by simp [handL, hpc, hp]
    have e2 : curL { s with pool := { s.pool with lock := none }.setPc (.client 0) .idle, pc := .idle } = curL s := by
      unfold curL; rw [hpc]; cases s.cur <;> rfl
    exact ⟨w, todo, o1, o2, o3, by rw [e2]; rw [e1] at o4; exact o4, by rw [e2]; rw [e1] at o5; exact o5⟩
  case stop p d hpc h =>
    simp only [loggedLines, List.flatMap_cons, List.flatMap_nil, List.append_nil]
    obtain ⟨rfl, c7⟩ := hcall h
    refine ⟨fun h => absurd rfl (h d), ho.threads, fun n e => by simp [entry] at e, ho.one,
      fun e _ => ho.noCur e (by rw [c7]; simp), ?_, ho.cleared⟩
    obtain ⟨w, todo, o1, o2, o3, o4, o5⟩ := ho.order
    have e1 : handL s = [] := by simp [handL, hpc]
    have e2 : curL { s with pool := s.pool.setPc (.client 0) (entry .stop), pc := .stopping d } = curL s := by
      unfold curL; rw [hpc]; cases s.cur <;> rfl
    exact ⟨w, todo, o1, o2, o3, by rw [e2]; rw [e1] at o4; exact o4, by rw [e2]; rw [e1] at o5; exact o5⟩
  case stopNull => cases hearly'
  case stopJoined => cases hearly'
  case stopSkip hpc _ _ _ => rw [hpc] at hearly; cases hearly
  case stopWrite hpc _ _ _ => rw [hpc] at hearly; cases hearly
  case stopFailed hpc _ _ _ => rw [hpc] at hearly; cases hearly
  case stopCut hpc _ _ _ => rw [hpc] at hearly; cases hearly
  case stopEnd hpc _ => rw [hpc] at hearly; cases hearly
  case stopped hpc => rw [hpc] at hearly; cases hearly
  case destroy hpc _ => rw [hpc] at hearly; cases hearly
  case destroyed hpc _ => rw [hpc] at hearly; cases hearly

/-- Only a client that is adding a task changes what the pool has accepted. -/
theorem accepted_same {p p' : Pool Nat} {l} (h : Act p l p') (ho : ∀ a t, p.pcs a ≠ .addPush t) : p'.accepted = p.accepted := by
  cases h <;> first | rfl | skip
  case addPushed a t h => exact absurd h (ho a t)

/-- While the logger waits for the pool, or after that, no task is being added. -/
theorem crel_noPush {pc : LPc} {c : CPc Nat} (h : CRel pc c) (hpc : pc.early = false) (t : Nat) : c ≠ .addPush t := by
  rintro rfl
  cases pc <;> first | cases hpc | skip
  all_goals simp [CRel, CPc.stopOf] at h

/-- All flushes have been made by the worker. -/
def Drained (s : FLog) : Prop := s.pool.finished.length = s.pool.accepted.length

/-- Once `Stop` has joined the worker, and no flush was left: the lines in order. -/
def Flushed (prev : Str) (log : List Str) (s : FLog) : Prop :=
  ∃ (written : List Str) (last : List Nat), s.file = prev ++ written.flatten ∧ log = written ++ last.flatMap (fun b => (s.bufs b).lines) ∧
    last.length ≤ 1 ∧ (∀ b ∈ last, b ∈ s.ring) ∧ ∀ b ∈ s.ring, b ∉ last → (s.bufs b).lines = []

structure KInv (prev : Str) (tr : List LLabel) (s : FLog) : Prop where
  before : stopsIn tr = 0 → OInv prev (loggedLines tr) s ∧ s.pc.early = true ∧ ∀ d, s.pc ≠ .stopping d
  stopping : stopsIn tr ≤ 1 → (∃ d, s.pc = .stopping d) → OInv prev (loggedLines tr) s
  flush : stopsIn tr ≤ 1 → (∃ d i, s.pc = .flush d i) → Drained s → Flushed prev (loggedLines tr) s
  done : stopsIn tr ≤ 1 → (∃ d, s.pc = .fin d) ∨ s.pc = .destroying → Drained s → s.file = prev ++ (loggedLines tr).flatten
  dead : s.pc = .destroying → Dead s.pool

theorem stopsIn_snoc (tr : List LLabel) (l : LLabel) : stopsIn (tr ++ [l]) = stopsIn tr + stopsIn [l] := by
  simp [stopsIn]

theorem stopsIn_le (tr : List LLabel) (l : LLabel) : stopsIn tr ≤ stopsIn (tr ++ [l]) := by
  rw [stopsIn_snoc]; omega

theorem stops_stop {s s' : FLog} {l} (h : Step s l s') (h0 : stopsIn [l] = 0) : (∀ d, s'.pc = .stopping d → s.pc = .stopping d) := by
  intro d
  cases h
  case stop => simp [stopsIn] at h0
  all_goals (try simp [setBuf]) 

theorem oinv_init (prev : Str) : OInv prev [] (newLogger prev) :=
  ⟨fun _ => rfl, by simp [newLogger], by simp [newLogger], by simp [newLogger], fun _ _ => rfl,
    ⟨[], [], by simp [newLogger], by simp [newLogger, FlushPc.gone], by simp [newLogger, FlushPc.busy], by simp [newLogger, handL, curL],
      by simp [newLogger]⟩, by simp [newLogger]⟩

/-- The lines held, once the pool is dead and has flushed everything it was given. -/
theorem OInv.drained {prev log} {s : FLog} (hi : FInv True prev log s) (ho : OInv prev log s) (hf : s.fl = .none) (hd : Drained s)
    {d} (hpc : s.pc = .stopping d) : ∃ written : List Str, s.file = prev ++ written.flatten ∧
      log = written ++ (s.cur.bind (s.ring[·]?)).toList.flatMap (fun b => (s.bufs b).lines) ∧
      ∀ b ∈ s.ring, b ∉ (s.cur.bind (s.ring[·]?)).toList → (s.bufs b).lines = [] := by
  obtain ⟨w, todo, o1, o2, o3, o4, o5⟩ := ho.order
  have htodo : todo = [] := by
    unfold Drained at hd
    have := congrArg List.length o2
    simp [hf, FlushPc.gone] at this
    exact List.eq_nil_of_length_eq_zero (by omega)
  have e1 : handL s = [] := by simp [handL, hpc]
  have e2 : curL s = (s.cur.bind (s.ring[·]?)).toList := by
    unfold curL; rw [hpc]; cases s.cur <;> rfl
  have e3 : held s = fun b => (s.bufs b).lines := by funext b; simp [held, hf]
  rw [htodo, e1, e2] at o4 o5
  rw [e3] at o4
  exact ⟨w, o1, by simpa using o4, by simpa using o5⟩

/-- Once the worker has been joined nothing changes behind the logger's back. -/
theorem late_step {prev log} {s s' : FLog} {l} (hi : FInv True prev log s) (hlate : s.pc.early = false) (hd : Dead s.pool)
    (h : Step s l s') (hpc : s'.pc = s.pc) :
    s'.file = s.file ∧ s'.bufs = s.bufs ∧ s'.ring = s.ring ∧ (Drained s' → Drained s) ∧ loggedLines [l] = [] ∧ Dead s'.pool := by
  have hf := hi.deadFl hd
  have push : ∀ a t, s.pool.pcs a ≠ .addPush t := by
    intro a t
    by_cases ha : a = .client 0
    · subst ha; exact crel_noPush hi.client hlate t
    · rw [hi.others a ha]; simp
  have act : ∀ {l p}, Act s.pool l p → (p.finished.length = p.accepted.length → s.pool.finished.length = s.pool.accepted.length) ∧ Dead p := by
    intro l p h
    obtain ⟨a, b, c⟩ := hd.step h
    rw [accepted_same h push, c]
    exact ⟨id, a⟩
  have idle : ∀ pc : LPc, pc.early = true → s.pc ≠ pc := fun pc h e => by rw [e, h] at hlate; cases hlate
  cases h
  case pool h _ _ => exact ⟨rfl, rfl, rfl, (act h).1, rfl, (act h).2⟩
  case spurious h => exact ⟨rfl, rfl, rfl, (act h).1, rfl, (act h).2⟩
  case flushStart p b h h1 h2 hf =>
    have := (hd.step h).2.1
    rw [h1] at this
    simp at this
  case flushEmpty h _ => rw [hf] at h; cases h
  case flushFailed h _ => rw [hf] at h; cases h
  case flushWritten h _ => rw [hf] at h; cases h
  case flushCut h _ => rw [hf] at h; cases h
  case flushClear h => rw [hf] at h; cases h
  case flushUnmark h => rw [hf] at h; cases h
  case flushTimed h => rw [hf] at h; cases h
  case flushDone h1 h2 h => rw [hf] at h; cases h
  case setNum h => exact absurd h (idle _ rfl)
  case setSize h => exact absurd h (idle _ rfl)
  case setLevel h => exact absurd h (idle _ rfl)
  case init h _ => exact absurd h (idle _ rfl)
  case inited h _ _ => exact absurd h (idle _ rfl)
  case log h _ _ _ => exact absurd h (idle _ rfl)
  case ignored h _ => exact absurd h (idle _ rfl)
  case noFlush h _ _ _ => exact absurd h (idle _ rfl)
  case mark h _ _ _ => exact absurd h (idle _ rfl)
  case nextFull h _ _ _ => exact absurd h (idle _ rfl)
  case nextFree h _ _ _ => exact absurd h (idle _ rfl)
  case add h _ => exact absurd h (idle _ rfl)
  case added h _ => exact absurd h (idle _ rfl)
  case stop h _ => exact absurd h (idle _ rfl)
  case stopNull h _ _ => exact absurd h (idle _ rfl)
  case stopJoined h _ _ => exact absurd h (idle _ rfl)
  case stopSkip h _ _ _ => rw [h] at hpc; simp at hpc
  case stopWrite h _ _ _ => rw [h] at hpc; simp at hpc
  case stopFailed h _ _ _ => rw [h] at hpc; simp at hpc
  case stopCut h _ _ _ => rw [h] at hpc; simp at hpc
  case stopEnd h _ => rw [h] at hpc; simp at hpc
  case stopped h => rw [h] at hpc; simp at hpc
  case destroy h _ => rw [h] at hpc; simp at hpc
  case destroyed h _ => rw [h] at hpc; simp at hpc

theorem Flushed.all_empty {prev log} {s : FLog} (h : Flushed prev log s) (he : ∀ b ∈ s.ring, (s.bufs b).lines = []) :
    s.file = prev ++ log.flatten := by
  obtain ⟨w, last, f1, f2, f3, f4, f5⟩ := h
  have : last.flatMap (fun b => (s.bufs b).lines) = [] := by
    rw [List.flatMap_eq_nil_iff]
    exact fun b hb => he b (f4 b hb)
  rw [f2, this, List.append_nil, f1]

theorem kinv_step {prev tr} {s s' : FLog} {l} (hi : FInv True prev (loggedLines tr) s) (hj : JInv s)
    (hk : KInv prev tr s) (hlive : s.pool.phase = .live)
    (hg : GoodLabel l) (hno : l ≠ .openFailed) (h : Step s l s') : KInv prev (tr ++ [l]) s' := by
  have hle := stopsIn_le tr l
  have happ : loggedLines (tr ++ [l]) = loggedLines tr ++ loggedLines [l] := by simp [loggedLines]
  refine ⟨fun h0 => ?_, fun h1 hpc => ?_, fun h1 hq hd => ?_, fun h1 hq hd => ?_, fun hq => ?_⟩
  · obtain ⟨a, b, c⟩ := hk.before (by omega)
    have e' : s'.pc.early = true ∧ ∀ d, s'.pc ≠ .stopping d := by
      refine ⟨?_, fun d hd => c d (stops_stop h (by rw [stopsIn_snoc] at h0; omega) d hd)⟩
      cases h <;> first | exact b | rfl | skip
      case stopNull hpc _ _ => exact absurd hpc (c _)
      case stopJoined hpc _ _ => exact absurd hpc (c _)
      case stopSkip hpc _ _ _ => rw [hpc] at b; cases b
      case stopWrite hpc _ _ _ => rw [hpc] at b; cases b
      case stopFailed hpc _ _ _ => rw [hpc] at b; cases b
      case stopCut hpc _ _ _ => rw [hpc] at b; cases b
      case stopEnd hpc _ => rw [hpc] at b; cases b
      case destroy hpc _ => rw [hpc] at b; cases b
      case destroyed hpc _ => rw [hpc] at b; cases b
    refine ⟨?_, e'⟩
    rw [happ]
    exact oinv_step hi hj a hlive hg hno b h e'.1
  · obtain ⟨d, hpc⟩ := hpc
    rw [happ]
    by_cases hs : ∃ d', s.pc = .stopping d'
    · exact oinv_step hi hj (hk.stopping (by omega) hs) hlive hg hno (by obtain ⟨_, e⟩ := hs; rw [e]; rfl) h (by rw [hpc]; rfl)
    · have h0 : stopsIn [l] ≠ 0 := fun h0 => hs ⟨d, stops_stop h h0 d hpc⟩
      obtain ⟨a, b, c⟩ := hk.before (by rw [stopsIn_snoc] at h1; omega)
      exact oinv_step hi hj a hlive hg hno b h (by rw [hpc]; rfl)
  · obtain ⟨d, i, hq⟩ := hq
    by_cases same : s'.pc = s.pc
    · have hpc0 : s.pc = .flush d i := same ▸ hq
      obtain ⟨a1, a2, a3, a4, a5, _⟩ := late_step hi (by rw [hpc0]; rfl) (hi.flush d i hpc0).1 h same
      rw [happ, a5, List.append_nil]
      have := hk.flush (by omega) ⟨d, i, hpc0⟩ (a4 hd)
      unfold Flushed
      rw [a1, a2, a3]
      exact this
    · cases h <;> first | exact absurd rfl same | (simp [setBuf] at hq; done) | skip
      case stopJoined p d' c hpc h hc =>
        rw [show loggedLines (tr ++ [LLabel.tau]) = loggedLines tr by simp [loggedLines]]
        obtain ⟨r1, r2, r3, r4, r5⟩ := ret_step h hi.others
        have hdead := stop_dead hi h
        have hfl : s.fl = .none := by
          have h1 := (finv_step hi hj hlive hg.1 (fun _ => hg.2) (.stopJoined hpc h hc)).1.deadFl hdead
          exact h1
        obtain ⟨w, k1, k2, k3⟩ := (hk.stopping (by omega) ⟨_, hpc⟩).drained hi hfl (by unfold Drained at hd ⊢; rw [← r3, ← r5]; exact hd) hpc
        refine ⟨w, (s.cur.bind (s.ring[·]?)).toList, k1, k2, ?_, ?_, k3⟩
        · cases s.cur.bind (s.ring[·]?) <;> simp
        · intro b hb
          rw [hc] at hb
          simp only [Option.bind_some, Option.mem_toList] at hb
          exact List.mem_of_getElem? hb
      case stopSkip d' b i hpc hlt hb h =>
        rw [show loggedLines (tr ++ [LLabel.tau]) = loggedLines tr by simp [loggedLines]]
        exact hk.flush (by omega) ⟨_, _, hpc⟩ hd
      case stopWrite d' b i hpc hlt hb h =>
        rw [show loggedLines (tr ++ [LLabel.tau]) = loggedLines tr by simp [loggedLines]]
        obtain ⟨w, last, f1, f2, f3, f4, f5⟩ := hk.flush (by omega) ⟨_, _, hpc⟩ hd
        have hbr : b ∈ s.ring := List.mem_of_getElem? hb
        have hbl : b ∈ last := Classical.byContradiction fun e => h ((Buf.data_nil (hi.lines b)).2 (f5 b hbr e))
        obtain rfl : last = [b] := by
          match last, f3, hbl with
          | [x], _, h => simp at h; rw [h]
          | _ :: _ :: _, h, _ => simp at h
        refine ⟨w ++ (s.bufs b).lines, [b], by simp [setBuf, f1, Buf.data], by simp [setBuf, f2], by simp, by simpa [setBuf] using f4, ?_⟩
        intro x hx hn
        have hxb : x ≠ b := by rintro rfl; simp at hn
        have := f5 x hx hn
        simp [setBuf, hxb, this]
      case stopFailed => exact absurd rfl hg.2.2
      case stopCut => exact absurd rfl hg.2.1
  · by_cases same : s'.pc = s.pc
    · rw [same] at hq
      have hdead : Dead s.pool := by
        rcases hq with ⟨d, e⟩ | e
        · exact (hi.fin d e).2
        · exact hk.dead e
      obtain ⟨a1, a2, a3, a4, a5, _⟩ := late_step hi (by rcases hq with ⟨d, e⟩ | e <;> rw [e] <;> rfl) hdead h same
      rw [happ, a5, List.append_nil, a1]
      exact hk.done (by omega) hq (a4 hd)
    · cases h <;> first | exact absurd rfl same | (simp [setBuf] at hq; done) | skip
      case stopNull p d hpc h hc =>
        rw [show loggedLines (tr ++ [LLabel.tau]) = loggedLines tr by simp [loggedLines]]
        obtain ⟨r1, r2, r3, r4, r5⟩ := ret_step h hi.others
        have hdead := stop_dead hi h
        have hfl : s.fl = .none := (finv_step hi hj hlive hg.1 (fun _ => hg.2) (.stopNull hpc h hc)).1.deadFl hdead
        obtain ⟨w, k1, k2, k3⟩ := (hk.stopping (by omega) ⟨_, hpc⟩).drained hi hfl (by unfold Drained at hd ⊢; rw [← r3, ← r5]; exact hd) hpc
        rw [hc] at k2
        simp only [Option.bind_none, Option.toList, List.flatMap_nil, List.append_nil] at k2
        rw [k2]
        exact k1
      case stopEnd d i hpc hlt =>
        rw [show loggedLines (tr ++ [LLabel.tau]) = loggedLines tr by simp [loggedLines]]
        refine (hk.flush (by omega) ⟨_, _, hpc⟩ hd).all_empty fun b hb => ?_
        obtain ⟨j, hj1, hj2⟩ := List.getElem_of_mem hb
        have hn := hi.numLen (hi.pcCur (by rw [hpc]; rfl))
        exact (hi.flush d i hpc).2 j b (by omega) (by rw [List.getElem?_eq_getElem hj1, hj2]) trivial
      case destroy p hpc h =>
        rw [show loggedLines (tr ++ [LLabel.tau]) = loggedLines tr by simp [loggedLines]]
        obtain ⟨_, rfl⟩ := call_step h
        exact hk.done (by omega) (.inl ⟨_, hpc⟩) hd
  · by_cases same : s'.pc = s.pc
    · rw [same] at hq
      exact (late_step hi (by rw [hq]; rfl) (hk.dead hq) h same).2.2.2.2.2
    · cases h <;> first | exact absurd rfl same | (simp [setBuf] at hq; done) | skip
      case destroy p hpc h =>
        obtain ⟨_, rfl⟩ := call_step h
        exact (hi.fin _ hpc).2

theorem kinv_run {prev : Str} {tr : List LLabel} {s : FLog} (h : LRun (newLogger prev) tr s) (hg : ∀ l ∈ tr, GoodLabel l)
    (hno : ∀ l ∈ tr, l ≠ .openFailed) : KInv prev tr s := by
  induction h with
  | nil => exact ⟨fun _ => ⟨oinv_init prev, rfl, by simp [newLogger]⟩, fun _ h => by simp [newLogger] at h, fun _ h => by simp [newLogger] at h,
      fun _ h => by simp [newLogger] at h, fun h => by simp [newLogger] at h⟩
  | snoc hr hlive hst ih =>
    obtain ⟨h1, h2⟩ := finv_run hr (fun l hl => hg l (by simp [hl]))
    exact kinv_step h1 h2 (ih (fun l hl => hg l (by simp [hl])) (fun l hl => hno l (by simp [hl]))) hlive (hg _ (by simp)) (hno _ (by simp)) hst

end Cppnet
