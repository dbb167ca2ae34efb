import Verif.Spec.LogMemory
import Verif.Props.Logger

/-!
# C197: memory running out in a logging call
-/

namespace Cppnet
open Spec Pool FLog

/-- A buffer that is the current one, while no call is between its mark and the next buffer, or that is not in the ring any more, may
carry another mark. -/
structure Alike (s : FLog) (bs : Nat → Buf) : Prop where
  lines : ∀ i, (bs i).lines = (s.bufs i).lines
  need : ∀ i ∈ s.ring, (bs i).need = (s.bufs i).need ∨ ((∃ c, s.cur = some c ∧ s.ring[c]? = some i) ∧ ∀ b, s.pc ≠ .next b)

theorem Alike.refl (s : FLog) : Alike s s.bufs := ⟨fun _ => rfl, fun _ _ => .inl rfl⟩

theorem Alike.data {s : FLog} {bs} (h : Alike s bs) (i : Nat) : (bs i).data = (s.bufs i).data := by simp [Buf.data, h.lines i]

/-- Nothing that marks and `cur_buffer_` depend on has changed. -/
theorem Alike.keep {s s' : FLog} {bs} (h : Alike s bs) (h1 : s'.bufs = s.bufs) (h2 : s'.ring = s.ring) (h3 : s'.cur = s.cur)
    (h4 : (∀ b, s.pc ≠ .next b) → ∀ b, s'.pc ≠ .next b) : Alike s' bs := by
  refine ⟨fun i => by rw [h1]; exact h.lines i, fun i hi => ?_⟩
  rw [h1, h2, h3]
  rw [h2] at hi
  rcases h.need i hi with e | ⟨e1, e2⟩
  · exact .inl e
  · exact .inr ⟨e1, h4 e2⟩

/-- One buffer is changed in the same way. -/
theorem Alike.set {s s' : FLog} {bs} (h : Alike s bs) (b : Nat) (f : Buf → Buf) (hl : ∀ x y, x.lines = y.lines → (f x).lines = (f y).lines)
    (hn : ∀ x y, x.need = y.need → (f x).need = (f y).need)
    (h1 : s'.bufs = fun i => if i = b then f (s.bufs b) else s.bufs i) (h2 : s'.ring = s.ring) (h3 : s'.cur = s.cur)
    (h4 : (∀ b, s.pc ≠ .next b) → ∀ b, s'.pc ≠ .next b) : Alike s' (fun i => if i = b then f (bs b) else bs i) := by
  refine ⟨fun i => ?_, fun i hi => ?_⟩
  · rw [h1]
    by_cases e : i = b
    · simp only [e, if_true]; exact hl _ _ (h.lines b)
    · simp only [e, if_false]; exact h.lines i
  · rw [h1, h2, h3]
    rw [h2] at hi
    rcases h.need i hi with e | ⟨e1, e2⟩
    · refine .inl ?_
      by_cases eb : i = b
      · subst eb; simp only [if_true]; exact hn _ _ e
      · simp only [eb, if_false]; exact e
    · exact .inr ⟨e1, h4 e2⟩

/-- A logger with other marks on such buffers does what the logger does. -/
theorem alike_step {s : FLog} {bs : Nat → Buf} {l t'} (hr : Alike s bs) (h : Step { s with bufs := bs } l t') :
    ∃ s' bs', t' = { s' with bufs := bs' } ∧ Step s l s' ∧ Alike s' bs' := by
  cases h
  case pool p h h1 h2 => exact ⟨_, bs, rfl, .pool h h1 h2, hr.keep rfl rfl rfl id⟩
  case spurious p h => exact ⟨_, bs, rfl, .spurious h, hr.keep rfl rfl rfl id⟩
  case flushStart p b h h1 h2 hf => exact ⟨_, bs, rfl, .flushStart h h1 h2 hf, hr.keep rfl rfl rfl id⟩
  case flushEmpty b hf h => exact ⟨_, bs, rfl, .flushEmpty hf ((hr.data b).symm.trans h), hr.keep rfl rfl rfl id⟩
  case flushFailed b hf h => exact ⟨_, bs, rfl, .flushFailed hf (hr.data b ▸ h), hr.keep rfl rfl rfl id⟩
  case flushWritten b hf h =>
    exact ⟨_, bs, by rw [show (({ s with bufs := bs } : FLog).bufs b).data = (s.bufs b).data from hr.data b],
      .flushWritten hf (hr.data b ▸ h), hr.keep rfl rfl rfl id⟩
  case flushCut b k hf h =>
    exact ⟨_, bs, by rw [show (({ s with bufs := bs } : FLog).bufs b).data = (s.bufs b).data from hr.data b],
      .flushCut hf (hr.data b ▸ h), hr.keep rfl rfl rfl id⟩
  case flushClear b hf =>
    exact ⟨_, _, rfl, .flushClear hf, hr.set b (fun x => { x with lines := [] }) (fun _ _ _ => rfl) (fun _ _ e => e) rfl rfl rfl id⟩
  case flushUnmark b hf =>
    exact ⟨_, _, rfl, .flushUnmark hf, hr.set b (fun x => { x with need := false }) (fun _ _ e => e) (fun _ _ _ => rfl) rfl rfl rfl id⟩
  case flushTimed b hf => exact ⟨_, bs, rfl, .flushTimed hf, hr.keep rfl rfl rfl id⟩
  case flushDone p b h h1 h2 hf => exact ⟨_, bs, rfl, .flushDone h h1 h2 hf, hr.keep rfl rfl rfl id⟩
  case setNum n hpc => exact ⟨_, bs, rfl, .setNum hpc, hr.keep rfl rfl rfl id⟩
  case setSize n hpc => exact ⟨{ s with size := n }, bs, rfl, .setSize hpc, hr.keep rfl rfl rfl id⟩
  case setLevel v hpc => exact ⟨{ s with level := v }, bs, rfl, .setLevel hpc, hr.keep rfl rfl rfl id⟩
  case init p hpc h => exact ⟨_, bs, rfl, .init hpc h, hr.keep rfl rfl rfl (fun _ b e => by cases e)⟩
  case inited p hpc h hs =>
    refine ⟨_, _, rfl, .inited hpc h hs, ⟨fun i => ?_, fun i hi => .inl ?_⟩⟩
    · simp only
      split
      · rfl
      · exact hr.lines i
    · simp only [List.mem_range'_1] at hi
      simp only [hi, and_self, if_true]
  case log lvl time msg c b hpc hl hc hb =>
    exact ⟨_, _, rfl, .log hpc hl hc hb, hr.set b (fun x => { x with lines := x.lines ++ [line lvl time msg] })
      (fun _ _ e => by simp [e]) (fun _ _ e => e) rfl rfl rfl (fun _ b e => by cases e)⟩
  case ignored lvl msg hpc h => exact ⟨_, bs, rfl, .ignored hpc h, hr⟩
  case noFlush c b hpc hc hb h => exact ⟨_, bs, rfl, .noFlush hpc hc hb (hr.data b ▸ h), hr.keep rfl rfl rfl (fun _ b e => by cases e)⟩
  case mark c b hpc hc hb h =>
    refine ⟨_, _, rfl, .mark hpc hc hb (hr.data b ▸ h), ⟨fun i => ?_, fun i hi => .inl ?_⟩⟩
    · simp only [setBuf]
      by_cases e : i = b
      · simp only [e, if_true]; exact hr.lines b
      · simp only [e, if_false]; exact hr.lines i
    · simp only [setBuf]
      by_cases e : i = b
      · simp only [e, if_true]
      · simp only [e, if_false]
        rcases hr.need i hi with e' | ⟨⟨c', e1, e2⟩, -⟩
        · exact e'
        · have hc' : s.cur = some c := hc
          rw [hc'] at e1
          cases e1
          have hb' : s.ring[c]? = some b := hb
          rw [hb'] at e2
          cases e2
          exact absurd rfl e
  case nextFull b c n hpc hc hn h =>
    have hpc' : s.pc = .next b := hpc
    have hall : ∀ i ∈ s.ring, (bs i).need = (s.bufs i).need := fun i hi => (hr.need i hi).resolve_right fun e => e.2 b hpc'
    have hn' : s.ring[s.nextPos c]? = some n := hn
    refine ⟨_, _, rfl, .nextFull hpc hc hn ((hall n (List.mem_of_getElem? hn')).symm.trans h), ⟨fun i => ?_, fun i hi => .inl ?_⟩⟩
    · simp only [setBuf]
      by_cases e : i = s.made
      · simp only [e, if_true]
      · simp only [e, if_false]; exact hr.lines i
    · simp only [setBuf]
      by_cases e : i = s.made
      · simp only [e, if_true]
      · simp only [e, if_false]
        refine hall i ?_
        have hi' : i ∈ s.ring.take (c + 1) ++ s.made :: s.ring.drop (c + 1) := hi
        rcases List.mem_append.1 hi' with x | x
        · exact List.mem_of_mem_take x
        · rcases List.mem_cons.1 x with x | x
          · exact absurd x e
          · exact List.mem_of_mem_drop x
  case nextFree b c n hpc hc hn h =>
    have hpc' : s.pc = .next b := hpc
    have hall : ∀ i ∈ s.ring, (bs i).need = (s.bufs i).need := fun i hi => (hr.need i hi).resolve_right fun e => e.2 b hpc'
    have hn' : s.ring[s.nextPos c]? = some n := hn
    exact ⟨_, bs, rfl, .nextFree hpc hc hn ((hall n (List.mem_of_getElem? hn')).symm.trans h), ⟨hr.lines, fun i hi => .inl (hall i hi)⟩⟩
  case add p b hpc h => exact ⟨_, bs, rfl, .add hpc h, hr.keep rfl rfl rfl (fun _ b e => by cases e)⟩
  case added p b rc hpc h => exact ⟨_, bs, rfl, .added hpc h, hr.keep rfl rfl rfl (fun _ b e => by cases e)⟩
  case stop p d hpc h => exact ⟨_, bs, rfl, .stop hpc h, hr.keep rfl rfl rfl (fun _ b e => by cases e)⟩
  case stopNull p d hpc h hc => exact ⟨_, bs, rfl, .stopNull hpc h hc, hr.keep rfl rfl rfl (fun _ b e => by cases e)⟩
  case stopJoined p d c hpc h hc => exact ⟨_, bs, rfl, .stopJoined hpc h hc, hr.keep rfl rfl rfl (fun _ b e => by cases e)⟩
  case stopSkip d b i hpc hi hb h =>
    exact ⟨_, bs, rfl, .stopSkip hpc hi hb ((hr.data b).symm.trans h), hr.keep rfl rfl rfl (fun _ b e => by cases e)⟩
  case stopWrite d b i hpc hi hb h =>
    exact ⟨_, _, by rw [show (({ s with bufs := bs } : FLog).bufs b).data = (s.bufs b).data from hr.data b]; rfl,
      .stopWrite hpc hi hb (hr.data b ▸ h), hr.set b (fun _ => {}) (fun _ _ _ => rfl) (fun _ _ _ => rfl) rfl rfl rfl (fun _ b e => by cases e)⟩
  case stopFailed d b i hpc hi hb h =>
    exact ⟨_, bs, rfl, .stopFailed hpc hi hb (hr.data b ▸ h), hr.keep rfl rfl rfl (fun _ b e => by cases e)⟩
  case stopCut d b k i hpc hi hb h =>
    exact ⟨_, _, by rw [show (({ s with bufs := bs } : FLog).bufs b).data = (s.bufs b).data from hr.data b]; rfl,
      .stopCut hpc hi hb (hr.data b ▸ h), hr.set b (fun _ => {}) (fun _ _ _ => rfl) (fun _ _ _ => rfl) rfl rfl rfl (fun _ b e => by cases e)⟩
  case stopEnd d i hpc hi => exact ⟨_, bs, rfl, .stopEnd hpc hi, ⟨hr.lines, fun i hi => by cases hi⟩⟩
  case stopped hpc => exact ⟨_, bs, rfl, .stopped hpc, hr.keep rfl rfl rfl (fun _ b e => by cases e)⟩
  case destroy p hpc h => exact ⟨_, bs, rfl, .destroy hpc h, hr.keep rfl rfl rfl (fun _ b e => by cases e)⟩
  case destroyed p hpc h => exact ⟨_, bs, rfl, .destroyed hpc h, hr.keep rfl rfl rfl (fun _ b e => by cases e)⟩

/-- Taking the mark back that a call has just made. -/
theorem FInv.unmark_back {ok prev log} {s : FLog} (hi : FInv ok prev log s) {b : Nat} (hpc : s.pc = .next b) :
    FInv ok prev log { s.setBuf b { s.bufs b with need := false } with pc := .idle } := by
  have hlines : ∀ x, ((s.setBuf b { s.bufs b with need := false }).bufs x).lines = (s.bufs x).lines := by
    intro x; simp only [setBuf]; by_cases e : x = b <;> simp [e]
  have hh : ∀ x, ¬ Hand { s.setBuf b { s.bufs b with need := false } with pc := .idle } x := by
    intro x hx; simp [Hand] at hx
  obtain ⟨c, hc, hb⟩ := hi.next b hpc
  refine { hi with client := by have := hi.client; rw [hpc] at this; exact this, pcCur := fun h => (by cases h),
                   lines := fun x => by simp only [hlines]; exact hi.lines x, tasks := ?_, curNeed := ?_,
                   next := fun b' h => (by cases h), hand := fun x hx => absurd hx (hh x),
                   flush := fun d i h => (by cases h), fin := fun d h => (by cases h), keep := ?_ }
  · rcases hi.tasks with hd | ⟨todo, t1, t2, t3, t4⟩
    · exact .inl hd
    · refine .inr ⟨todo, t1, t2, fun x hx => ⟨(t3 x hx).1, ?_, hh x⟩, t4⟩
      have hxb : x ≠ b := fun e => (t3 x hx).2.2 (.inl (by rw [hpc, e]))
      simp only [setBuf, hxb, if_false]
      exact (t3 x hx).2.1
  · intro c' x e1 e2 _
    have e1' : s.cur = some c' := e1
    rw [hc] at e1'
    cases e1'
    have e2' : s.ring[c]? = some x := e2
    rw [hb] at e2'
    cases e2'
    simp [setBuf]
  · intro hok
    obtain ⟨w, k1, k2⟩ := hi.keep hok
    refine ⟨w, k1, ?_⟩
    have : held { s.setBuf b { s.bufs b with need := false } with pc := .idle } = held s := by
      funext x; simp only [held, hlines]; rfl
    rw [this]; exact k2

/-- What is true of a logger of which calls have thrown, except where the text of a new buffer is made. -/
def MInv (prev : Str) (log : List Str) (t : FLog) : Prop :=
  ∃ s bs, t = { s with bufs := bs } ∧ Alike s bs ∧ FInv True prev log s ∧ JInv s

theorem minv_threw {prev log} {t t' : FLog} {k} (hk : k ≠ .room) (hi : MInv prev log t) (h : t.throwStep k = some t') :
    MInv prev log t' := by
  obtain ⟨s, bs, rfl, hr, h1, h2⟩ := hi
  cases k with
  | line =>
    simp only [throwStep] at h
    split at h
    · cases h; exact ⟨s, bs, rfl, hr, h1, h2⟩
    · cases h
  | room => exact absurd rfl hk
  | task =>
    simp only [throwStep] at h
    split at h
    · rename_i b hpc
      cases h
      have hpc' : s.pc = .add b := hpc
      refine ⟨{ s with pc := .idle }, bs, rfl, hr.keep rfl rfl rfl (fun _ b e => by cases e), ?_, ?_⟩
      · refine h1.pc_step .idle ?_ (fun e => by cases e) (by simp [hpc']) (by simp) (fun b hb => by simp [Hand] at hb) (by simp) (by simp)
        have := h1.client
        rw [hpc'] at this
        exact this
      · exact ⟨fun e1 e2 _ => h2.join e1 e2 (by simp [hpc']), (by simp), by simp⟩
    · cases h
  | buffer =>
    simp only [throwStep] at h
    split at h
    · rename_i b c hpc hc
      have hpc' : s.pc = .next b := hpc
      split at h
      · split at h
        · cases h
          refine ⟨{ s.setBuf b { s.bufs b with need := false } with pc := .idle }, bs, rfl, ?_, h1.unmark_back hpc', ?_⟩
          · obtain ⟨c', e1, e2⟩ := h1.next b hpc'
            refine ⟨fun i => ?_, fun i hi => ?_⟩
            · simp only [setBuf]
              by_cases e : i = b
              · simp only [e, if_true]; exact hr.lines b
              · simp only [e, if_false]; exact hr.lines i
            · by_cases e : i = b
              · subst e
                exact .inr ⟨⟨c', e1, e2⟩, by simp⟩
              · refine .inl ?_
                simp only [setBuf, e, if_false]
                exact (hr.need i hi).resolve_right fun x => x.2 b hpc'
          · exact ⟨fun e1 e2 _ => h2.join e1 e2 (by simp [hpc']), (by simp), by simp⟩
        · cases h
      · cases h
    · cases h

theorem mLogged_snoc (tr : List MLabel) (l : MLabel) : mLogged (tr ++ [l]) = mLogged tr ++ mLogged [l] := by
  simp [mLogged]

theorem mLogged_step (l : LLabel) : mLogged [.step l] = loggedLines [l] := by
  cases l <;> rfl

theorem minv_run {prev : Str} {tr : List MLabel} {t : FLog} (h : MRun (newLogger prev) tr t) (hg : ∀ l ∈ tr, MGood l)
    (hk : .threw .room ∉ tr) : MInv prev (mLogged tr) t := by
  induction h with
  | nil =>
    obtain ⟨a, b⟩ := finv_init True prev
    exact ⟨_, _, rfl, Alike.refl _, a, b⟩
  | snoc _ hlive hst ih =>
    have hi := ih (fun l hl => hg l (by simp [hl])) (fun e => hk (by simp [e]))
    cases hst with
    | step h =>
      obtain ⟨s, bs, rfl, hr, h1, h2⟩ := hi
      obtain ⟨g1, g2⟩ := hg _ (List.mem_append_right _ (List.mem_singleton.2 rfl)) _ rfl
      obtain ⟨s', bs', rfl, hs, hr'⟩ := alike_step hr h
      obtain ⟨f1, f2⟩ := finv_step h1 h2 hlive g1 (fun _ => g2) hs
      refine ⟨s', bs', rfl, hr', ?_, f2⟩
      rw [mLogged_snoc, mLogged_step]
      exact f1
    | threw h =>
      have := minv_threw (fun e => hk (by simp [e])) hi h
      rw [mLogged_snoc]
      simpa [mLogged] using this

theorem mrun_last {s s'' : FLog} {tr l} (h : MRun s (tr ++ [l]) s'') : ∃ s', MRun s tr s' ∧ s'.pool.phase = .live ∧ MStep s' l s'' := by
  generalize ht : tr ++ [l] = t at h
  cases h with
  | nil => simp at ht
  | snoc h1 h2 h3 =>
    obtain ⟨rfl, e⟩ := List.append_inj' ht rfl
    cases e
    exact ⟨_, h1, h2, h3⟩

/-! ### C197 -/

/-- **C197**: whatever logging calls run out of memory, when they make their line, a further buffer or the task that flushes a
buffer, and whatever the schedule of the worker and the clock: when `Stop` or the destructor has returned, the file holds its previous
content followed by every line that was logged, each exactly once.  (Missing: memory that runs out when the text of a new buffer is made, see
`C197_room_refuted`.) -/
theorem C197_kept_partial (prev : Str) (tr : List MLabel) (s : FLog) (l : LLabel) (hl : l = .stopped ∨ l = .destroyed)
    (h : MRun (newLogger prev) (tr ++ [.step l]) s) (hg : ∀ l ∈ tr, MGood l) (hk : .threw .room ∉ tr) :
    ∃ lines : List Str, lines.Perm (mLogged tr) ∧ s.file = prev ++ lines.flatten := by
  obtain ⟨t, h1, h2, h3⟩ := mrun_last h
  obtain ⟨s₀, bs, rfl, hr, hi, hj⟩ := minv_run h1 hg hk
  cases h3 with
  | step h3 =>
    obtain ⟨s', bs', rfl, hs, -⟩ := alike_step hr h3
    obtain ⟨hc, hf, _⟩ := stopped_cur hi hj hl hs
    obtain ⟨w, hw1, hw2⟩ := hi.keep trivial
    rw [hi.curNone hc] at hw2
    exact ⟨w, by simpa using hw2, hf.trans hw1⟩

/-! ### Executions -/

/-- One command: a step of the logger or a call that throws. -/
def mcmdRun (s : FLog) : List (LCmd ⊕ Throws) → Option (FLog × List MLabel)
  | [] => some (s, [])
  | c :: cs =>
    if s.pool.phase = .live then
      match c with
      | .inl c =>
        match lcmdStep s c with
        | none => none
        | some (s', l) => (mcmdRun s' cs).map fun x => (x.1, .step l :: x.2)
      | .inr k =>
        match s.throwStep k with
        | none => none
        | some s' => (mcmdRun s' cs).map fun x => (x.1, .threw k :: x.2)
    else none

theorem mrun_cons {s s' s'' : FLog} {l tr} (hl : s.pool.phase = .live) (h : MStep s l s') (h' : MRun s' tr s'') : MRun s (l :: tr) s'' := by
  induction h' with
  | nil => exact .snoc (.nil s) hl h
  | snoc _ h1 h2 ih => exact .snoc (tr := l :: _) ih h1 h2

theorem mcmdRun_sound : ∀ {cs : List (LCmd ⊕ Throws)} {s s' : FLog} {tr}, mcmdRun s cs = some (s', tr) → MRun s tr s'
  | [], s, s', tr, h => by cases h; exact .nil s
  | c :: cs, s, s', tr, h => by
    simp only [mcmdRun] at h
    split at h
    · rename_i hl
      cases c with
      | inl c =>
        simp only at h
        split at h
        · cases h
        · rename_i s1 l h1
          simp only [Option.map_eq_some_iff] at h
          obtain ⟨⟨s2, tr2⟩, h2, h3⟩ := h
          cases h3
          exact mrun_cons hl (.step (lcmdStep_sound h1)) (mcmdRun_sound h2)
      | inr k =>
        simp only at h
        split at h
        · cases h
        · rename_i s1 h1
          simp only [Option.map_eq_some_iff] at h
          obtain ⟨⟨s2, tr2⟩, h2, h3⟩ := h
          cases h3
          exact mrun_cons hl (.threw h1) (mcmdRun_sound h2)
    · cases h

/-- What is shown of a concrete execution: the file and the history. -/
def mshown (x : Option (FLog × List MLabel)) : Option (Str × List MLabel) := x.map fun (s, tr) => (s.file, tr)

theorem mshown_run {prev : Str} {cs : List (LCmd ⊕ Throws)} {v : Str × List MLabel} (h : mshown (mcmdRun (newLogger prev) cs) = some v) :
    ∃ s : FLog, MRun (newLogger prev) v.2 s ∧ s.file = v.1 := by
  simp only [mshown, Option.map_eq_some_iff] at h
  obtain ⟨⟨s, tr⟩, h1, h2⟩ := h
  subst h2
  exact ⟨s, mcmdRun_sound h1, rfl⟩

def mBad : MLabel → Bool
  | .step l => isFault l || numBad l
  | _ => false

theorem mGood_of {tr : List MLabel} (h : tr.any mBad = false) : ∀ l ∈ tr, MGood l := by
  intro l hl x e
  subst e
  have hb : (isFault x || numBad x) = false := by
    cases e : (isFault x || numBad x) with
    | false => rfl
    | true => rw [List.any_eq_true.2 ⟨.step x, hl, e⟩] at h; cases h
  rw [Bool.or_eq_false_iff] at hb
  have a := noFault_of (tr := [x]) (by simp [hb.1]) x (by simp)
  exact ⟨numOk_of (tr := [x]) (by simp [hb.2]) x (by simp), a.2.2, a.2.1⟩

/-- Four calls: one throws before its line is made, one for want of a task, one for want of a buffer, and one returns. -/
def mThrows : List (LCmd ⊕ Throws) :=
  ([LCmd.setNum 1] ++ linit).map .inl ++ [.inr .line] ++
  [.inl (.log .info b!"t" b!"a"), .inl (.main true), .inl (.main true), .inr .task] ++
  [.inl (.log .info b!"t" b!"b"), .inl (.main true), .inr .buffer] ++ (llogQuiet b!"c" ++ lstop 2).map .inl

/-- Hypotheses met. -/
example : ∃ tr s, MRun (newLogger b!"old\n") (tr ++ [.step .stopped]) s ∧ (∀ l ∈ tr, MGood l) ∧ .threw .room ∉ tr ∧
    .threw .line ∈ tr ∧ .threw .task ∈ tr ∧ .threw .buffer ∈ tr ∧
    mLogged tr = [b!"[INFO]t|a\n", b!"[INFO]t|b\n", b!"[INFO]t|c\n"] ∧ s.file = b!"old\n[INFO]t|a\n[INFO]t|b\n[INFO]t|c\n" := by
  obtain ⟨v, hv⟩ : ∃ v, mshown (mcmdRun (newLogger b!"old\n") mThrows) = some v ∧
      v.2 = v.2.dropLast ++ [.step .stopped] ∧ v.2.dropLast.any mBad = false ∧ .threw .room ∉ v.2.dropLast ∧
      .threw .line ∈ v.2.dropLast ∧ .threw .task ∈ v.2.dropLast ∧ .threw .buffer ∈ v.2.dropLast ∧
      mLogged v.2.dropLast = [b!"[INFO]t|a\n", b!"[INFO]t|b\n", b!"[INFO]t|c\n"] ∧
      v.1 = b!"old\n[INFO]t|a\n[INFO]t|b\n[INFO]t|c\n" := by
    refine ⟨_, rfl, ?_⟩
    decide +kernel
  obtain ⟨s, h1, h2⟩ := mshown_run hv.1
  rw [hv.2.1] at h1
  exact ⟨_, s, h1, mGood_of hv.2.2.1, hv.2.2.2.1, hv.2.2.2.2.1, hv.2.2.2.2.2.1, hv.2.2.2.2.2.2.1, hv.2.2.2.2.2.2.2.1,
    h2.trans hv.2.2.2.2.2.2.2.2⟩

/-- **C197**, refuted if memory runs out when the text of a new buffer is made: the buffer is in the ring and is the current one, but
is not counted, so that `Stop` leaves one buffer out.  The call for the first line throws; the second line, whose call
returns, never reaches the file. -/
theorem C197_room_refuted : ∃ tr s, MRun (newLogger []) (tr ++ [.step .stopped]) s ∧ (∀ l ∈ tr, MGood l) ∧
    mLogged tr = [b!"[INFO]t|a\n", b!"[INFO]t|b\n"] ∧ s.file = b!"[INFO]t|a\n" := by
  obtain ⟨v, hv⟩ : ∃ v, mshown (mcmdRun (newLogger []) (([LCmd.setNum 1] ++ linit).map .inl ++
        [.inl (.log .info b!"t" b!"a"), .inl (.main true), .inr .room] ++ (llogQuiet b!"b" ++ lstop 1).map .inl)) = some v ∧
      v.2 = v.2.dropLast ++ [.step .stopped] ∧ v.2.dropLast.any mBad = false ∧
      mLogged v.2.dropLast = [b!"[INFO]t|a\n", b!"[INFO]t|b\n"] ∧ v.1 = b!"[INFO]t|a\n" := by
    refine ⟨_, rfl, ?_⟩
    decide +kernel
  obtain ⟨s, h1, h2⟩ := mshown_run hv.1
  rw [hv.2.1] at h1
  exact ⟨_, s, h1, mGood_of hv.2.2.1, hv.2.2.2.1, h2.trans hv.2.2.2.2⟩

end Cppnet
