import Verif.Spec.Race
import Verif.Props.Logger

/-!
# C137: a file logger and its own worker thread
-/

namespace Cppnet
open Spec Pool FLog

theorem start_data {s : FLog} {b : Nat} (h : .read (.data b) ∈ s.flushAccesses ∨ .write (.data b) ∈ s.flushAccesses) :
    s.fl.busy = some b := by
  unfold flushAccesses at h
  cases e : s.fl <;> simp [e] at h <;> simp [FlushPc.busy, h]

theorem curBuf_some {s : FLog} {b : Nat} (h : s.curBuf = some b) : ∃ c, s.cur = some c ∧ s.ring[c]? = some b := by
  unfold curBuf at h
  split at h
  · exact ⟨_, ‹_›, h⟩
  · cases h

/-- Whatever the user's thread can touch of a buffer's text is not the text that the worker is at work on. -/
theorem user_data {ok prev log} {s : FLog} (hi : FInv ok prev log s) {b : Nat}
    (hu : .read (.data b) ∈ s.userAccesses ∨ .write (.data b) ∈ s.userAccesses) : s.fl.busy ≠ some b := by
  intro hb
  have hmade : b < s.made := hi.made b (hi.busy_buf hb).1
  have hcur : s.curBuf ≠ some b := by
    intro h
    obtain ⟨c, h1, h2⟩ := curBuf_some h
    exact hi.busy_cur hb h1 h2
  unfold userAccesses callAccesses logAccesses initAccesses at hu
  cases hp : s.pc with
  | idle =>
    rw [hp] at hu
    cases hc : s.curBuf with
    | none => simp [hc] at hu
    | some x => rw [hc] at hu hcur; simp at hu; exact hcur (by rw [hu])
  | check =>
    rw [hp] at hu
    cases hc : s.curBuf with
    | none => simp [hc] at hu
    | some x => rw [hc] at hu hcur; simp at hu; split at hu <;> simp at hu <;> exact hcur (by rw [hu])
  | next x => rw [hp] at hu; simp at hu; omega
  | initing => rw [hp] at hu; simp at hu; omega
  | flush d i =>
    have := hi.deadFl (hi.flush d i hp).1
    rw [this] at hb; cases hb
  | add _ => simp [hp] at hu
  | adding _ => simp [hp] at hu
  | stopping _ => simp [hp] at hu
  | fin _ => simp [hp] at hu
  | destroying => simp [hp] at hu
  | gone => simp [hp] at hu

/-- **C137** (the buffered text).  A logger that one thread uses never races with its own worker for the text of a buffer,
whatever the two do, however the pool schedules them and whatever the file system does, as long as the number of buffers is
at least one and set before `Init`. -/
theorem C137_text_partial (prev : Str) (tr : List LLabel) (s : FLog) (h : LRun (newLogger prev) tr s) (hnum : ∀ l ∈ tr, NumOk l)
    (b : Nat) : ¬ LogRace s (.data b) := by
  obtain ⟨hi, _⟩ := finv_faults h hnum
  rintro (⟨h1, h2⟩ | ⟨h1, h2⟩)
  · exact user_data hi (.inr h1) (start_data h2.symm)
  · exact user_data hi (.inl h1) (start_data (.inr h2))

/-- **C137** (`Stop`).  Once `Stop` is past the pool, and until it returns, nothing races at all. -/
theorem C137_stop (prev : Str) (tr : List LLabel) (s : FLog) (h : LRun (newLogger prev) tr s) (hnum : ∀ l ∈ tr, NumOk l)
    (hs : (∃ d i, s.pc = .flush d i) ∨ ∃ d, s.pc = .fin d) (v : LogVar) : ¬ LogRace s v := by
  obtain ⟨hi, _⟩ := finv_faults h hnum
  have hd : Dead s.pool := by
    rcases hs with ⟨d, i, hs⟩ | ⟨d, hs⟩
    · exact (hi.flush d i hs).1
    · exact (hi.fin d hs).2
  have hf := hi.deadFl hd
  simp [LogRace, flushAccesses, hf]

/-- **C137** (the path).  A call of `Init` on a logger that was not initialised, or was stopped, does not race with the worker
for the path. -/
theorem C137_path_partial (prev : Str) (tr : List LLabel) (s : FLog) (h : LRun (newLogger prev) tr s) (hnum : ∀ l ∈ tr, NumOk l)
    (hc : s.cur = none) : ¬ LogRace s .path := by
  obtain ⟨hi, _⟩ := finv_faults h hnum
  have hb : ∀ b, s.fl.busy ≠ some b := by
    intro b hb
    have := (hi.busy_buf hb).1
    rw [hi.curNone hc] at this
    cases this
  unfold LogRace flushAccesses
  cases e : s.fl <;> simp
  exact absurd (by rw [e]; rfl) (hb _)

/-! ### The table of accesses is right -/

theorem setBuf_ne {s : FLog} {b b' : Nat} {x : Buf} (h : b ≠ b') : (s.setBuf b' x).bufs b = s.bufs b := by
  simp [setBuf, h]

theorem withText_setBuf {s : FLog} {b b' : Nat} {x : List Str} {y : Buf} (h : b' ≠ b) :
    (WithText s b x).setBuf b' y = WithText (s.setBuf b' y) b x := by
  unfold WithText setBuf
  congr 1
  funext i
  by_cases e : i = b
  · subst e; simp [h.symm]
  · simp [e]

theorem withText_need {s : FLog} {b : Nat} {x : List Str} (i : Nat) : ((WithText s b x).bufs i).need = (s.bufs i).need := by
  unfold WithText
  by_cases e : i = b <;> simp [e]

theorem withText_bufs {s : FLog} {b i : Nat} {x : List Str} (h : i ≠ b) : (WithText s b x).bufs i = s.bufs i := by
  simp [WithText, h]

theorem withText_mark {s : FLog} {b i : Nat} {x : List Str} {n : Bool} :
    (WithText s b x).setBuf i { (WithText s b x).bufs i with need := n } =
      WithText (s.setBuf i { s.bufs i with need := n }) b x := by
  unfold WithText setBuf
  congr 1
  funext j
  by_cases e : j = b
  · subst e
    by_cases e' : j = i
    · subst e'; simp
    · simp [e']
  · by_cases e' : j = i
    · subst e'; simp [e]
    · simp [e, e']

theorem cur_access {s : FLog} {b c : Nat} (hc : s.cur = some c) (hb : s.ring[c]? = some b) : s.curBuf = some b := by
  simp [curBuf, hc, hb]

/-- **C137**: what the two threads are said to do with the text of a buffer is what they do.  A step changes the text only if
one of them is said to write it, and what happens next does not depend on a text that neither is said to access. -/
theorem C137_accesses (s s' : FLog) (l : LLabel) (h : s.Step l s') (b : Nat) :
    (.write (.data b) ∉ s.userAccesses → .write (.data b) ∉ s.flushAccesses → (s'.bufs b).data = (s.bufs b).data) ∧
    ((∀ a ∈ s.userAccesses ++ s.flushAccesses, a ≠ .read (.data b) ∧ a ≠ .write (.data b)) →
      ∀ x, (WithText s b x).Step l (WithText s' b x)) := by
  refine ⟨fun hu hf => ?_, fun ha x => ?_⟩
  · cases h <;> first | rfl | skip
    case flushClear b' hb =>
      rw [flushAccesses, hb] at hf
      have hne : b ≠ b' := fun e => hf (by simp [e])
      exact congrArg Buf.data (setBuf_ne hne)
    case flushUnmark b' hb =>
      by_cases e : b = b'
      · subst e; simp [setBuf, Buf.data]
      · exact congrArg Buf.data (setBuf_ne e)
    case inited p hpc h1 h2 =>
      rw [userAccesses, hpc] at hu
      simp only [callAccesses, hpc] at hu
      have : ¬ (s.made ≤ b ∧ b < s.made + max 1 s.num.toNat) := by
        intro e
        exact hu (by simp [List.mem_flatMap, List.mem_range'_1, e])
      simp [this]
    case log lvl time msg c b' hpc hl hc hb =>
      rw [userAccesses, hpc] at hu
      simp only [logAccesses, cur_access hc hb] at hu
      have hne : b ≠ b' := fun e => hu (by simp [e])
      exact congrArg Buf.data (setBuf_ne hne)
    case mark c b' hpc hc hb h =>
      by_cases e : b = b'
      · subst e; simp [setBuf, Buf.data]
      · exact congrArg Buf.data (setBuf_ne e)
    case nextFull b' c n hpc hc hn h =>
      rw [userAccesses, hpc] at hu
      simp only [callAccesses, hpc] at hu
      have hne : b ≠ s.made := fun e => hu (by simp [e])
      exact congrArg Buf.data (setBuf_ne hne)
    case stopWrite d b' i hpc hi hb h =>
      rw [userAccesses, hpc] at hu
      simp only [callAccesses, hpc, hi, hb, if_true] at hu
      have hne : b ≠ b' := fun e => hu (by simp [e])
      exact congrArg Buf.data (setBuf_ne hne)
    case stopCut d b' k i hpc hi hb h =>
      rw [userAccesses, hpc] at hu
      simp only [callAccesses, hpc, hi, hb, if_true] at hu
      have hne : b ≠ b' := fun e => hu (by simp [e])
      exact congrArg Buf.data (setBuf_ne hne)
  · have hf : ∀ a ∈ s.flushAccesses, a ≠ .read (.data b) ∧ a ≠ .write (.data b) := fun a h => ha a (by simp [h])
    have hu : ∀ a ∈ s.userAccesses, a ≠ .read (.data b) ∧ a ≠ .write (.data b) := fun a h => ha a (by simp [h])
    have fl1 : ∀ b', s.fl = .start b' → b' ≠ b := by
      intro b' e e'
      have := hf (.read (.data b')) (by simp [flushAccesses, e])
      simp [e'] at this
    have fl2 : ∀ b', s.fl = .written b' → b' ≠ b := by
      intro b' e e'
      have := hf (.write (.data b')) (by simp [flushAccesses, e])
      simp [e'] at this
    have st : ∀ d (i : Nat) b', s.pc = .flush d i → (i : Int) < s.num → s.ring[i % s.ring.length]? = some b' → b' ≠ b := by
      intro d i b' h1 h2 h3 e'
      have := hu (.read (.data b')) (by simp [userAccesses, callAccesses, h1, h2, h3])
      simp [e'] at this
    have ck : ∀ c b', s.pc = .check → s.cur = some c → s.ring[c]? = some b' → b' ≠ b := by
      intro c b' h1 h2 h3 e'
      have := hu (.read (.data b')) (by
        simp only [userAccesses, callAccesses, h1, cur_access h2 h3]
        split <;> simp)
      simp [e'] at this
    cases h
    case pool h h1 h2 => exact .pool h h1 h2
    case spurious h => exact .spurious h
    case flushStart h h1 h2 hf => exact .flushStart h h1 h2 hf
    case flushEmpty b' hb h => exact .flushEmpty hb (by rw [withText_bufs (fl1 _ hb)]; exact h)
    case flushFailed b' hb h => exact .flushFailed hb (by rw [withText_bufs (fl1 _ hb)]; exact h)
    case flushWritten b' hb h =>
      have := Step.flushWritten (s := WithText s b x) hb (by rw [withText_bufs (fl1 _ hb)]; exact h)
      rw [withText_bufs (fl1 _ hb)] at this
      exact this
    case flushCut b' k hb h =>
      have := Step.flushCut (s := WithText s b x) hb (by rw [withText_bufs (fl1 _ hb)]; exact h)
      rw [withText_bufs (fl1 _ hb)] at this
      exact this
    case flushClear b' hb =>
      have := Step.flushClear (s := WithText s b x) hb
      rw [withText_bufs (fl2 _ hb), withText_setBuf (fl2 _ hb)] at this
      exact this
    case flushUnmark b' hb =>
      have := Step.flushUnmark (s := WithText s b x) hb
      rw [withText_mark] at this
      exact this
    case flushTimed hb => exact .flushTimed hb
    case flushDone h h1 h2 hf => exact .flushDone h h1 h2 hf
    case setNum h => exact .setNum h
    case setSize h => exact .setSize h
    case setLevel h => exact .setLevel h
    case init h h1 => exact .init h h1
    case inited p hpc h1 h2 =>
      have := Step.inited (s := WithText s b x) hpc h1 h2
      have hb : ¬ (s.made ≤ b ∧ b < s.made + max 1 s.num.toNat) := by
        intro e
        have := hu (.write (.data b)) (by
          simp only [userAccesses, callAccesses, hpc]
          simp [List.mem_flatMap, List.mem_range'_1, e])
        simp at this
      have e : (fun i => if s.made ≤ i ∧ i < s.made + max 1 s.num.toNat then ({} : Buf) else (WithText s b x).bufs i) =
          fun i => if i = b then { lines := x, need := (s.bufs b).need } else
            if s.made ≤ i ∧ i < s.made + max 1 s.num.toNat then {} else s.bufs i := by
        funext i
        by_cases e : i = b
        · subst e; simp [hb, WithText]
        · simp [e, WithText]
      have hn : (WithText s b x).made = s.made ∧ (WithText s b x).num = s.num := ⟨rfl, rfl⟩
      rw [hn.1, hn.2, e] at this
      have hneed : (if s.made ≤ b ∧ b < s.made + max 1 s.num.toNat then ({} : Buf) else s.bufs b).need = (s.bufs b).need := by
        rw [if_neg hb]
      unfold WithText
      simp only [hneed]
      exact this
    case log lvl time msg c b' hpc hl hc hb =>
      have hne : b' ≠ b := by
        intro e'
        have := hu (.read (.data b')) (by simp [userAccesses, logAccesses, hpc, cur_access hc hb])
        simp [e'] at this
      have := Step.log (s := WithText s b x) (time := time) (msg := msg) hpc hl hc hb
      rw [withText_bufs hne, withText_setBuf hne] at this
      exact this
    case ignored h h1 => exact .ignored h h1
    case noFlush c b' hpc hc hb h => exact .noFlush hpc hc hb (by rw [withText_bufs (ck _ _ hpc hc hb)]; exact h)
    case mark c b' hpc hc hb h =>
      have := Step.mark (s := WithText s b x) hpc hc hb (by rw [withText_bufs (ck _ _ hpc hc hb)]; exact h)
      rw [withText_mark] at this
      exact this
    case nextFull b' c n hpc hc hn h =>
      have hne : s.made ≠ b := by
        intro e'
        have := hu (.write (.data s.made)) (by simp [userAccesses, callAccesses, hpc])
        simp [e'] at this
      have := Step.nextFull (s := WithText s b x) hpc hc hn (by rw [withText_need]; exact h)
      rw [show (WithText s b x).made = s.made from rfl, withText_setBuf hne] at this
      exact this
    case nextFree b' c n hpc hc hn h => exact .nextFree hpc hc hn (by rw [withText_need]; exact h)
    case add h h1 => exact .add h h1
    case added h h1 => exact .added h h1
    case stop h h1 => exact .stop h h1
    case stopNull h h1 h2 => exact .stopNull h h1 h2
    case stopJoined h h1 h2 => exact .stopJoined h h1 h2
    case stopSkip d b' i hpc hi hb h => exact .stopSkip hpc hi hb (by rw [withText_bufs (st _ _ _ hpc hi hb)]; exact h)
    case stopWrite d b' i hpc hi hb h =>
      have hne := st _ _ _ hpc hi hb
      have := Step.stopWrite (s := WithText s b x) hpc hi hb (by rw [withText_bufs hne]; exact h)
      rw [withText_bufs hne, withText_setBuf hne] at this
      exact this
    case stopFailed d b' i hpc hi hb h => exact .stopFailed hpc hi hb (by rw [withText_bufs (st _ _ _ hpc hi hb)]; exact h)
    case stopCut d b' k i hpc hi hb h =>
      have hne := st _ _ _ hpc hi hb
      have := Step.stopCut (s := WithText s b x) hpc hi hb (by rw [withText_bufs hne]; exact h)
      rw [withText_bufs hne, withText_setBuf hne] at this
      exact this
    case stopEnd h h1 => exact .stopEnd h h1
    case stopped h => exact .stopped h
    case destroy h h1 => exact .destroy h h1
    case destroyed h h1 => exact .destroyed h h1

/-- Hypotheses met: a new logger does not look at any text when `Init` is called. -/
example : ∀ a ∈ (newLogger []).userAccesses ++ (newLogger []).flushAccesses, a ≠ .read (.data 0) ∧ a ≠ .write (.data 0) := by
  decide +kernel

/-- What the two threads may access at the end of a concrete execution, and the execution's labels. -/
def raceView (cs : List LCmd) : Option (List LogAccess × List LogAccess × List LLabel) :=
  (lcmdRun (newLogger []) cs).map fun x => (x.1.userAccesses, x.1.flushAccesses, x.2)

theorem raceView_run {cs : List LCmd} {u f tr} (h : raceView cs = some (u, f, tr)) :
    ∃ s, LRun (newLogger []) tr s ∧ s.userAccesses = u ∧ s.flushAccesses = f := by
  simp only [raceView, Option.map_eq_some_iff] at h
  obtain ⟨⟨s, tr'⟩, h1, h2⟩ := h
  cases h2
  exact ⟨s, lcmdRun_sound h1, rfl, rfl⟩

/-- The worker is about to store the time of a flush when the logging thread comes round to the same buffer. -/
def raceRound : List LCmd :=
  [.setNum 2] ++ linit ++ llog b!"a" ++ lwk 6 ++ List.replicate 3 .flush ++ llog b!"b" ++ [.log .info b!"t" b!"c"]

/-- Hypotheses of `C137_text_partial` met where it matters: one thread is about to append to a buffer, the worker to write
another one to the file. -/
example : ∃ tr s, LRun (newLogger []) tr s ∧ (∀ l ∈ tr, NumOk l) ∧ .write (.data 1) ∈ s.userAccesses ∧ .read (.data 0) ∈ s.flushAccesses := by
  obtain ⟨u, f, tr, hv⟩ : ∃ u f tr, raceView ([.setNum 2] ++ linit ++ llog b!"a" ++ lwk 6) = some (u, f, tr) ∧
      tr.any numBad = false ∧ .write (.data 1) ∈ u ∧ .read (.data 0) ∈ f := by
    refine ⟨_, _, _, rfl, ?_⟩
    decide +kernel
  obtain ⟨s, h1, h2, h3⟩ := raceView_run hv.1
  exact ⟨tr, s, h1, numOk_of hv.2.1, h2 ▸ hv.2.2.1, h3 ▸ hv.2.2.2⟩

/-- C137 is false of the time of the last flush, in ordinary use: two buffers, no fault, no call but `Init` and logging.  The
worker marks a buffer as free before it stores the time, and the logging thread may by then be asking for that time. -/
theorem C137_time_refuted : ∃ tr s b, LRun (newLogger []) tr s ∧ (∀ l ∈ tr, NumOk l) ∧ (∀ l ∈ tr, NoFault l) ∧
    (∀ d, .stop d ∉ tr) ∧ tr.count .init = 1 ∧ LogRace s (.time b) := by
  obtain ⟨u, f, tr, hv⟩ : ∃ u f tr, raceView raceRound = some (u, f, tr) ∧ tr.any numBad = false ∧ tr.any isFault = false ∧
      (.stop true ∉ tr ∧ .stop false ∉ tr) ∧ tr.count .init = 1 ∧ .read (.time 0) ∈ u ∧ .write (.time 0) ∈ f := by
    refine ⟨_, _, _, rfl, ?_⟩
    decide +kernel
  obtain ⟨s, h1, h2, h3⟩ := raceView_run hv.1
  refine ⟨tr, s, 0, h1, numOk_of hv.2.1, noFault_of hv.2.2.1, fun d => ?_, hv.2.2.2.2.1, .inr ⟨h2 ▸ hv.2.2.2.2.2.1, h3 ▸ hv.2.2.2.2.2.2⟩⟩
  cases d
  · exact hv.2.2.2.1.2
  · exact hv.2.2.2.1.1

/-- C137 is false of the path if `Init` is called on a logger that is in use: it assigns the path before anything else, and
the worker may be copying it. -/
theorem C137_path_refuted : ∃ tr s s', LRun (newLogger []) tr s ∧ (∀ l ∈ tr, NumOk l) ∧ s.Step .init s' ∧ s.pool.phase = .live ∧
    LogRace s .path := by
  obtain ⟨v, hv⟩ : ∃ v, ((lcmdRun (newLogger []) ([.setNum 2] ++ linit ++ llog b!"a" ++ lwk 6)).bind fun x =>
        (lcmdStep x.1 .init).map fun y => (x.1.userAccesses, x.1.flushAccesses, x.1.pool.phase, x.2, y.2)) = some v ∧
      v.2.2.2.1.any numBad = false ∧ .write .path ∈ v.1 ∧ .read .path ∈ v.2.1 ∧ v.2.2.1 = .live ∧ v.2.2.2.2 = .init := by
    refine ⟨_, rfl, ?_⟩
    decide +kernel
  obtain ⟨h0, h1, h2, h3, h4, h5⟩ := hv
  simp only [Option.bind_eq_some_iff, Option.map_eq_some_iff] at h0
  obtain ⟨⟨s, tr⟩, e1, ⟨s', l⟩, e2, e3⟩ := h0
  subst e3
  simp only at h1 h2 h3 h4 h5 e2
  subst h5
  exact ⟨tr, s, s', lcmdRun_sound e1, numOk_of h1, lcmdStep_sound e2, h4, .inl ⟨h2, .inr h3⟩⟩

/-- Hypotheses of `C137_stop` met: `Stop` is about to write a buffer that the worker did not. -/
example : ∃ tr s, LRun (newLogger []) tr s ∧ (∀ l ∈ tr, NumOk l) ∧ (∃ d i, s.pc = .flush d i) ∧ s.userAccesses ≠ [] := by
  obtain ⟨v, hv⟩ : ∃ v, ((lcmdRun (newLogger []) (linit ++ llogQuiet b!"a" ++ [.stop false] ++ lcl 3 ++ lwk 3 ++ lcl 2)).map fun x =>
        (x.1.pc, x.1.userAccesses, x.2)) = some v ∧ v.1 = .flush false 0 ∧ v.2.1 ≠ [] ∧ v.2.2.any numBad = false := by
    refine ⟨_, rfl, ?_⟩
    decide +kernel
  obtain ⟨h0, h1, h2, h3⟩ := hv
  simp only [Option.map_eq_some_iff] at h0
  obtain ⟨⟨s, tr⟩, e1, e2⟩ := h0
  subst e2
  exact ⟨tr, s, lcmdRun_sound e1, numOk_of h3, ⟨_, _, h1⟩, h2⟩

/-- Hypotheses of `C137_path_partial` met: a logger that was used and stopped. -/
example : ∃ tr s, LRun (newLogger []) tr s ∧ (∀ l ∈ tr, NumOk l) ∧ s.cur = none ∧ .write .path ∈ s.userAccesses ∧ tr.contains .stopped = true := by
  obtain ⟨v, hv⟩ : ∃ v, ((lcmdRun (newLogger []) threeLines).map fun x => (x.1.cur, x.1.userAccesses, x.2)) = some v ∧
      v.1 = none ∧ .write .path ∈ v.2.1 ∧ v.2.2.any numBad = false ∧ v.2.2.contains .stopped = true := by
    refine ⟨_, rfl, ?_⟩
    decide +kernel
  obtain ⟨h0, h1, h2, h3, h4⟩ := hv
  simp only [Option.map_eq_some_iff] at h0
  obtain ⟨⟨s, tr⟩, e1, e2⟩ := h0
  subst e2
  exact ⟨tr, s, lcmdRun_sound e1, numOk_of h3, h1, h2, h4⟩

end Cppnet
