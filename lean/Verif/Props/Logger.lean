import Verif.Proofs.FileExec
import Verif.Proofs.LogStop

/-!
# Logger properties: C55–C59, C81–C84

The theorems about `FileLogger` are about every execution (`LRun`) of the transition system of
`Verif/Model/FileLogger.lean`: any messages, any clock, any schedule of the background thread, any length.
-/

namespace Cppnet
open Spec Pool FLog

theorem good_of {tr : List LLabel} (h1 : ∀ l ∈ tr, NumOk l) (h2 : .cut ∉ tr) (h3 : .stopOpenFailed ∉ tr) : ∀ l ∈ tr, GoodLabel l :=
  fun l hl => ⟨h1 l hl, fun e => h2 (e ▸ hl), fun e => h3 (e ▸ hl)⟩

theorem lrun_last {s s'' : FLog} {tr l} (h : LRun s (tr ++ [l]) s'') : ∃ s', LRun s tr s' ∧ s'.pool.phase = .live ∧ Step s' l s'' := by
  generalize ht : tr ++ [l] = t at h
  cases h with
  | nil => simp at ht
  | snoc h1 h2 h3 =>
    obtain ⟨rfl, e⟩ := List.append_inj' ht rfl
    cases e
    exact ⟨_, h1, h2, h3⟩

/-- At the end of `Stop` and of the destructor no buffer is left. -/
theorem stopped_cur {prev log} {s s' : FLog} {l} (hi : FInv True prev log s) (hj : JInv s) (hl : l = .stopped ∨ l = .destroyed) (h : Step s l s') :
    s.cur = none ∧ s'.file = s.file ∧ s'.pool.accepted = s.pool.accepted ∧ s'.pool.finished = s.pool.finished := by
  cases h <;> first | (rcases hl with hl | hl <;> cases hl <;> done) | skip
  case stopped hpc => exact ⟨(hi.fin _ hpc).1, rfl, rfl, rfl⟩
  case destroyed hpc h =>
    obtain ⟨_, _, a, _, b⟩ := ret_step h hi.others
    exact ⟨hj.dest (.inl hpc), rfl, a, b⟩

/-! ### C57, C55 -/

/-- C57: appends of the background thread that fail (the file cannot be opened) lose nothing: when a `Stop` whose
own appends succeed, or the destructor, has returned, the file holds its previous content followed by every line
logged since the logger was made, each exactly once.  (Missing: writes that the operating system cuts short, see
`C57_cut_refuted`; failures in `Stop` itself, see `C57_stop_refuted`.) -/
theorem C57_kept_partial (prev : Str) (tr : List LLabel) (s : FLog) (l : LLabel) (hl : l = .stopped ∨ l = .destroyed)
    (h : LRun (newLogger prev) (tr ++ [l]) s) (hnum : ∀ l ∈ tr, NumOk l) (hcut : .cut ∉ tr) (hstop : .stopOpenFailed ∉ tr) :
    ∃ lines : List Str, lines.Perm (loggedLines tr) ∧ s.file = prev ++ lines.flatten := by
  obtain ⟨s₁, h1, h2, h3⟩ := lrun_last h
  obtain ⟨hi, hj⟩ := finv_run h1 (good_of hnum hcut hstop)
  obtain ⟨hc, hf, _⟩ := stopped_cur hi hj hl h3
  obtain ⟨w, hw1, hw2⟩ := hi.keep trivial
  rw [hi.curNone hc] at hw2
  exact ⟨w, by simpa using hw2, hf.trans hw1⟩

/-- C55, if the number of buffers is at least one and is set before `Init`: when `Stop` or the destructor has
returned, and no file operation failed, the file holds its previous content followed by every logged line exactly
once.  (It is false if the number of buffers is changed later, see below.) -/
theorem C55_complete_partial (prev : Str) (tr : List LLabel) (s : FLog) (l : LLabel) (hl : l = .stopped ∨ l = .destroyed)
    (h : LRun (newLogger prev) (tr ++ [l]) s) (hnum : ∀ l ∈ tr, NumOk l) (hf : ∀ l ∈ tr, NoFault l) :
    ∃ lines : List Str, lines.Perm (loggedLines tr) ∧ s.file = prev ++ lines.flatten :=
  C57_kept_partial prev tr s l hl h hnum (fun e => (hf _ e).2.2 rfl) (fun e => (hf _ e).2.1 rfl)

/-- `n` steps of the logger's thread inside the pool. -/
def lcl (n : Nat) : List LCmd := List.replicate n .client
/-- `n` steps of the worker. -/
def lwk (n : Nat) : List LCmd := List.replicate n (.worker 0)
def linit : List LCmd := .init :: lcl 3
/-- A logging call that hands its buffer to the pool. -/
def llog (m : Str) : List LCmd := [.log .info b!"t" m, .main true, .main true, .main true] ++ lcl 5
/-- A logging call that does not. -/
def llogQuiet (m : Str) : List LCmd := [.log .info b!"t" m, .main false]
/-- The worker, when a task is queued, from the start of its loop through the whole task to its next wait. -/
def lflush : List LCmd := lwk 6 ++ List.replicate 4 .flush ++ lwk 2
/-- `Stop` with a worker at the start of its loop, and the loop over `n` buffers. -/
def lstop (n : Nat) : List LCmd := [.stop false] ++ lcl 3 ++ lwk 3 ++ lcl 2 ++ List.replicate (n + 2) (.main false)

def isFault : LLabel → Bool
  | .openFailed | .stopOpenFailed | .cut => true
  | _ => false

def numBad : LLabel → Bool
  | .setNum n r => decide (¬ (1 ≤ n ∧ r = false))
  | _ => false

theorem noFault_of {tr : List LLabel} (h : tr.any isFault = false) : ∀ l ∈ tr, NoFault l := by
  intro l hl
  have : isFault l = false := by
    cases e : isFault l with
    | false => rfl
    | true => rw [List.any_eq_true.2 ⟨l, hl, e⟩] at h; cases h
  refine ⟨?_, ?_, ?_⟩ <;> rintro rfl <;> cases this

theorem numOk_of {tr : List LLabel} (h : tr.any numBad = false) : ∀ l ∈ tr, NumOk l := by
  intro l hl n r e
  subst e
  have : numBad (.setNum n r) = false := by
    cases e : numBad (.setNum n r) with
    | false => rfl
    | true => rw [List.any_eq_true.2 ⟨_, hl, e⟩] at h; cases h
  simpa [numBad] using this

/-- Three lines, one of which the worker flushes, one of which is queued when `Stop` is called and one of which is
in the current buffer. -/
def threeLines : List LCmd := linit ++ llog b!"a" ++ lflush ++ llog b!"b" ++ llogQuiet b!"c" ++ lstop 4

/-- Hypotheses met. -/
example : ∃ tr s, LRun (newLogger b!"old\n") (tr ++ [.stopped]) s ∧ (∀ l ∈ tr, NumOk l) ∧ (∀ l ∈ tr, NoFault l) ∧
    loggedLines tr = [b!"[INFO]t|a\n", b!"[INFO]t|b\n", b!"[INFO]t|c\n"] ∧ s.file = b!"old\n[INFO]t|a\n[INFO]t|b\n[INFO]t|c\n" := by
  obtain ⟨v, hv⟩ : ∃ v, lshown (lcmdRun (newLogger b!"old\n") threeLines) = some v ∧
      v.trace = v.trace.dropLast ++ [.stopped] ∧ v.trace.dropLast.any numBad = false ∧ v.trace.dropLast.any isFault = false ∧
      loggedLines v.trace.dropLast = [b!"[INFO]t|a\n", b!"[INFO]t|b\n", b!"[INFO]t|c\n"] ∧ v.file = b!"old\n[INFO]t|a\n[INFO]t|b\n[INFO]t|c\n" := by
    refine ⟨_, rfl, ?_⟩
    decide +kernel
  obtain ⟨s, h1, h2, _⟩ := lshown_run hv.1
  rw [hv.2.1] at h1
  exact ⟨_, s, h1, numOk_of hv.2.2.1, noFault_of hv.2.2.2.1, hv.2.2.2.2.1, h2.trans hv.2.2.2.2.2⟩

/-- C55 is false if `set_buf_num` is called after `Init`: `Stop` visits only that many buffers and throws away the
others, here the second of two lines. -/
theorem C55_count_refuted : ∃ tr s, LRun (newLogger []) (tr ++ [.stopped]) s ∧ (∀ l ∈ tr, NoFault l) ∧
    (∀ n r, .setNum n r ∈ tr → 1 ≤ n) ∧ loggedLines tr = [b!"[INFO]t|a\n", b!"[INFO]t|b\n"] ∧ s.file = b!"[INFO]t|a\n" := by
  obtain ⟨v, hv⟩ : ∃ v, lshown (lcmdRun (newLogger []) (linit ++ llog b!"a" ++ lflush ++ llogQuiet b!"b" ++ [.setNum 1] ++ lstop 1)) = some v ∧
      v.trace = v.trace.dropLast ++ [.stopped] ∧ v.trace.dropLast.any isFault = false ∧
      (v.trace.dropLast.all fun l => match l with | .setNum n _ => decide (1 ≤ n) | _ => true) = true ∧
      loggedLines v.trace.dropLast = [b!"[INFO]t|a\n", b!"[INFO]t|b\n"] ∧ v.file = b!"[INFO]t|a\n" := by
    refine ⟨_, rfl, ?_⟩
    decide +kernel
  obtain ⟨s, h1, h2, _⟩ := lshown_run hv.1
  rw [hv.2.1] at h1
  refine ⟨_, s, h1, noFault_of hv.2.2.1, fun n r hn => ?_, hv.2.2.2.2.1, h2.trans hv.2.2.2.2.2⟩
  have := List.all_eq_true.1 hv.2.2.2.1 _ hn
  simpa using this

/-- Hypotheses of `C57_kept_partial` met, with an append that failed. -/
example : ∃ tr s, LRun (newLogger []) (tr ++ [.stopped]) s ∧ (∀ l ∈ tr, NumOk l) ∧ .openFailed ∈ tr ∧ .cut ∉ tr ∧ .stopOpenFailed ∉ tr ∧
    loggedLines tr = [b!"[INFO]t|a\n", b!"[INFO]t|b\n"] ∧ s.file = b!"[INFO]t|a\n[INFO]t|b\n" := by
  obtain ⟨v, hv⟩ : ∃ v, lshown (lcmdRun (newLogger []) (linit ++ llog b!"a" ++ lwk 6 ++ [.flushFails] ++ lwk 2 ++ llogQuiet b!"b" ++ lstop 4)) = some v ∧
      v.trace = v.trace.dropLast ++ [.stopped] ∧ v.trace.dropLast.any numBad = false ∧ .openFailed ∈ v.trace.dropLast ∧
      .cut ∉ v.trace.dropLast ∧ .stopOpenFailed ∉ v.trace.dropLast ∧
      loggedLines v.trace.dropLast = [b!"[INFO]t|a\n", b!"[INFO]t|b\n"] ∧ v.file = b!"[INFO]t|a\n[INFO]t|b\n" := by
    refine ⟨_, rfl, ?_⟩
    decide +kernel
  obtain ⟨s, h1, h2, _⟩ := lshown_run hv.1
  rw [hv.2.1] at h1
  exact ⟨_, s, h1, numOk_of hv.2.2.1, hv.2.2.2.1, hv.2.2.2.2.1, hv.2.2.2.2.2.1, hv.2.2.2.2.2.2.1, h2.trans hv.2.2.2.2.2.2.2⟩

/-- C57 is false of an append that the operating system cuts short (disk full): it is taken for a success, the
buffer is cleared, and the rest of the line never reaches the file although every later append succeeds. -/
theorem C57_cut_refuted : ∃ tr s, LRun (newLogger []) (tr ++ [.stopped]) s ∧ (∀ l ∈ tr, NumOk l) ∧ .stopOpenFailed ∉ tr ∧
    loggedLines tr = [b!"[INFO]t|a\n", b!"[INFO]t|b\n"] ∧ s.file = b!"[INF[INFO]t|b\n" := by
  obtain ⟨v, hv⟩ : ∃ v, lshown (lcmdRun (newLogger []) (linit ++ llog b!"a" ++ lwk 6 ++ [.flushCuts 4, .flush, .flush, .flush] ++ lwk 2 ++ llogQuiet b!"b" ++ lstop 4)) = some v ∧
      v.trace = v.trace.dropLast ++ [.stopped] ∧ v.trace.dropLast.any numBad = false ∧ .stopOpenFailed ∉ v.trace.dropLast ∧
      loggedLines v.trace.dropLast = [b!"[INFO]t|a\n", b!"[INFO]t|b\n"] ∧ v.file = b!"[INF[INFO]t|b\n" := by
    refine ⟨_, rfl, ?_⟩
    decide +kernel
  obtain ⟨s, h1, h2, _⟩ := lshown_run hv.1
  rw [hv.2.1] at h1
  exact ⟨_, s, h1, numOk_of hv.2.2.1, hv.2.2.2.1, hv.2.2.2.2.1, h2.trans hv.2.2.2.2.2⟩

/-- C57 is false of an append that fails in `Stop`: the buffers are thrown away, and a second `Stop` writes nothing. -/
theorem C57_stop_refuted : ∃ tr s, LRun (newLogger []) (tr ++ [.stopped]) s ∧ (∀ l ∈ tr, NumOk l) ∧ .cut ∉ tr ∧
    (tr.filter (· = .stopOpenFailed)).length = 1 ∧ stopsIn tr = 2 ∧ loggedLines tr = [b!"[INFO]t|a\n"] ∧ s.file = [] := by
  obtain ⟨v, hv⟩ : ∃ v, lshown (lcmdRun (newLogger []) (linit ++ llogQuiet b!"a" ++ [.stop false] ++ lcl 3 ++ lwk 3 ++ lcl 2 ++ [.stopFails] ++
        List.replicate 5 (.main false) ++ [.stop false] ++ lcl 1 ++ [.main false])) = some v ∧
      v.trace = v.trace.dropLast ++ [.stopped] ∧ v.trace.dropLast.any numBad = false ∧ .cut ∉ v.trace.dropLast ∧
      (v.trace.dropLast.filter (· = .stopOpenFailed)).length = 1 ∧ stopsIn v.trace.dropLast = 2 ∧
      loggedLines v.trace.dropLast = [b!"[INFO]t|a\n"] ∧ v.file = [] := by
    refine ⟨_, rfl, ?_⟩
    decide +kernel
  obtain ⟨s, h1, h2, _⟩ := lshown_run hv.1
  rw [hv.2.1] at h1
  exact ⟨_, s, h1, numOk_of hv.2.2.1, hv.2.2.2.1, hv.2.2.2.2.1, hv.2.2.2.2.2.1, hv.2.2.2.2.2.2.1, h2.trans hv.2.2.2.2.2.2.2⟩

/-! ### C56 -/

/-- C56 up to the first `Stop`, if no file operation fails: at every moment the file holds its previous content
followed by the first so many of the lines logged so far, in order. -/
theorem C56_prefix_partial (prev : Str) (tr : List LLabel) (s : FLog) (h : LRun (newLogger prev) tr s) (hnum : ∀ l ∈ tr, NumOk l)
    (hf : ∀ l ∈ tr, NoFault l) (hs : stopsIn tr = 0) : ∃ n, s.file = prev ++ ((loggedLines tr).take n).flatten := by
  obtain ⟨w, todo, o1, o2, o3, o4, o5⟩ := ((kinv_run h (fun l hl => ⟨hnum l hl, (hf l hl).2.2, (hf l hl).2.1⟩) (fun l hl => (hf l hl).1)).before hs).1.order
  exact ⟨w.length, by rw [o4, List.take_left, o1]⟩

/-- C56 for the first `Stop` (or the destructor), if no file operation fails and `Stop` finds no flush left over
(every flush given to the background thread was performed by it): the file holds its previous content followed by
all logged lines in order.  (Without that it is false, see below.) -/
theorem C56_no_drop_partial (prev : Str) (tr : List LLabel) (s : FLog) (l : LLabel) (hl : l = .stopped ∨ l = .destroyed)
    (h : LRun (newLogger prev) (tr ++ [l]) s) (hnum : ∀ l ∈ tr, NumOk l)
    (hf : ∀ l ∈ tr, NoFault l) (hs : stopsIn tr ≤ 1) (hd : s.pool.finished.length = s.pool.accepted.length) :
    s.file = prev ++ (loggedLines tr).flatten := by
  obtain ⟨s₁, h1, h2, h3⟩ := lrun_last h
  have hg : ∀ l ∈ tr, GoodLabel l := fun l hl => ⟨hnum l hl, (hf l hl).2.2, (hf l hl).2.1⟩
  obtain ⟨hi, hj⟩ := finv_run h1 hg
  have hk := kinv_run h1 hg (fun l hl => (hf l hl).1)
  obtain ⟨_, e1, e2, e3⟩ := stopped_cur hi hj hl h3
  rw [e1]
  refine hk.done hs ?_ (by unfold Drained; rw [← e2, ← e3]; exact hd)
  cases h3 <;> first | (rcases hl with hl | hl <;> cases hl <;> done) | skip
  case stopped hpc => exact .inl ⟨_, hpc⟩
  case destroyed hpc _ => exact .inr hpc

/-- Hypotheses met: one line flushed by the worker, one by `Stop`. -/
example : ∃ tr s, LRun (newLogger []) (tr ++ [.stopped]) s ∧ (∀ l ∈ tr, NumOk l) ∧ (∀ l ∈ tr, NoFault l) ∧ stopsIn tr ≤ 1 ∧
    s.pool.finished = [0] ∧ s.pool.accepted = [0] ∧ loggedLines tr = [b!"[INFO]t|a\n", b!"[INFO]t|b\n"] := by
  obtain ⟨v, hv⟩ : ∃ v, lshown (lcmdRun (newLogger []) (linit ++ llog b!"a" ++ lflush ++ llogQuiet b!"b" ++ lstop 4)) = some v ∧
      v.trace = v.trace.dropLast ++ [.stopped] ∧ v.trace.dropLast.any numBad = false ∧ v.trace.dropLast.any isFault = false ∧
      stopsIn v.trace.dropLast ≤ 1 ∧ v.finished = [0] ∧ v.accepted = [0] ∧
      loggedLines v.trace.dropLast = [b!"[INFO]t|a\n", b!"[INFO]t|b\n"] := by
    refine ⟨_, rfl, ?_⟩
    decide +kernel
  obtain ⟨s, h1, h2, _, _, _, _, _, _, _, h3, h4⟩ := lshown_run hv.1
  rw [hv.2.1] at h1
  exact ⟨_, s, h1, numOk_of hv.2.2.1, noFault_of hv.2.2.2.1, hv.2.2.2.2.1, h4.trans hv.2.2.2.2.2.1, h3.trans hv.2.2.2.2.2.2.1, hv.2.2.2.2.2.2.2⟩

/-- C56 is false: with two buffers, the first is flushed and used again while the second waits for the background
thread; `Stop` drops the waiting flush and writes the buffers in the order of the list, so that the third line comes
before the second. -/
theorem C56_order_refuted : ∃ tr s, LRun (newLogger []) (tr ++ [.stopped]) s ∧ (∀ l ∈ tr, NumOk l) ∧ (∀ l ∈ tr, NoFault l) ∧ stopsIn tr = 1 ∧
    loggedLines tr = [b!"[INFO]t|a\n", b!"[INFO]t|b\n", b!"[INFO]t|c\n"] ∧ s.file = b!"[INFO]t|a\n[INFO]t|c\n[INFO]t|b\n" := by
  obtain ⟨v, hv⟩ : ∃ v, lshown (lcmdRun (newLogger []) ([.setNum 2] ++ linit ++ llog b!"a" ++ lflush ++ llog b!"b" ++ llogQuiet b!"c" ++ lstop 2)) = some v ∧
      v.trace = v.trace.dropLast ++ [.stopped] ∧ v.trace.dropLast.any numBad = false ∧ v.trace.dropLast.any isFault = false ∧
      stopsIn v.trace.dropLast = 1 ∧
      loggedLines v.trace.dropLast = [b!"[INFO]t|a\n", b!"[INFO]t|b\n", b!"[INFO]t|c\n"] ∧ v.file = b!"[INFO]t|a\n[INFO]t|c\n[INFO]t|b\n" := by
    refine ⟨_, rfl, ?_⟩
    decide +kernel
  obtain ⟨s, h1, h2, _⟩ := lshown_run hv.1
  rw [hv.2.1] at h1
  exact ⟨_, s, h1, numOk_of hv.2.2.1, noFault_of hv.2.2.2.1, hv.2.2.2.2.1, hv.2.2.2.2.2.1, h2.trans hv.2.2.2.2.2.2⟩

/-! ### C84 -/

/-- C84: at every moment, also before `Stop` and whatever appends of the background thread have failed, the file
holds its previous content followed by whole lines, and these are among the logged lines, none more often than it
was logged. -/
theorem C84_whole_lines (prev : Str) (tr : List LLabel) (s : FLog) (h : LRun (newLogger prev) tr s) (hnum : ∀ l ∈ tr, NumOk l)
    (hcut : .cut ∉ tr) (hstop : .stopOpenFailed ∉ tr) :
    ∃ lines rest : List Str, s.file = prev ++ lines.flatten ∧ (lines ++ rest).Perm (loggedLines tr) := by
  obtain ⟨w, hw1, hw2⟩ := (finv_run h (good_of hnum hcut hstop)).1.keep trivial
  exact ⟨w, _, hw1, hw2⟩

/-- Hypotheses met: a run in which the worker has written the first of two lines and not yet cleared its buffer. -/
example : ∃ tr s, LRun (newLogger []) tr s ∧ (∀ l ∈ tr, NumOk l) ∧ .cut ∉ tr ∧ .stopOpenFailed ∉ tr ∧
    loggedLines tr = [b!"[INFO]t|a\n", b!"[INFO]t|b\n"] ∧ s.file = b!"[INFO]t|a\n" := by
  obtain ⟨v, hv⟩ : ∃ v, lshown (lcmdRun (newLogger []) (linit ++ llog b!"a" ++ lwk 6 ++ [.flush] ++ llogQuiet b!"b")) = some v ∧
      v.trace.any numBad = false ∧ .cut ∉ v.trace ∧ .stopOpenFailed ∉ v.trace ∧
      loggedLines v.trace = [b!"[INFO]t|a\n", b!"[INFO]t|b\n"] ∧ v.file = b!"[INFO]t|a\n" := by
    refine ⟨_, rfl, ?_⟩
    decide +kernel
  obtain ⟨s, h1, h2, _⟩ := lshown_run hv.1
  exact ⟨_, s, h1, numOk_of hv.2.1, hv.2.2.1, hv.2.2.2.1, hv.2.2.2.2.1, h2.trans hv.2.2.2.2.2⟩

/-! ### C58 -/

theorem atLeast_val (level lvl : Level) : atLeast level lvl ↔ level.val ≤ lvl.val := by
  cases level <;> cases lvl <;> decide

/-- C58, `StdLogger`: a message is printed exactly if its level is at least the logger's. -/
theorem C58_std (level lvl : Level) (msg : Str) :
    (Logger.std level).log lvl msg = .ok (if atLeast level lvl then [printed lvl msg] else []) := by
  cases level <;> cases lvl <;> rfl

/-- C58, any nesting of `MultiLogger`s without a null pointer: the message goes to each logger in the tree, in order,
and each applies its own level. -/
theorem C58_multi (lvl : Level) (msg : Str) (l : Logger) (ls : List Logger) (h : leaves l = some ls) :
    l.log lvl msg = .ok (ls.flatMap (leafOut lvl msg)) := by
  refine Logger.rec (motive_1 := fun l => ∀ ls, leaves l = some ls → l.log lvl msg = .ok (ls.flatMap (leafOut lvl msg)))
    (motive_2 := fun os => ∀ ls, leavesAll os = some ls → Logger.logAll os lvl msg = .ok (ls.flatMap (leafOut lvl msg)))
    (motive_3 := fun o => ∀ l, o = some l → ∀ ls, leaves l = some ls → l.log lvl msg = .ok (ls.flatMap (leafOut lvl msg)))
    ?_ ?_ ?_ ?_ ?_ ?_ ?_ ?_ l ls h
  · intro level ls h
    cases h
    simp [Logger.log, leafOut]
  · intro level ls h
    cases h
    rw [C58_std]; simp [leafOut]
  · intro n ls h
    cases h
    simp [Logger.log, leafOut]
  · intro level os ih ls h
    rw [Logger.log]
    exact ih ls h
  · intro ls h
    cases h
    rfl
  · intro o os ih1 ih2 ls h
    cases o with
    | none => simp [leavesAll] at h
    | some l =>
      simp only [leavesAll] at h
      split at h
      · rename_i a b ha hb
        cases h
        rw [Logger.logAll, ih1 l rfl a ha, ih2 b hb]
        simp [bind, Except.bind, List.flatMap_append]
      · cases h
  · intro l h; cases h
  · intro l ih l' e; cases e; exact ih

theorem leavesAll_append (as bs : List (Option Logger)) (la lb : List Logger) (ha : leavesAll as = some la) (hb : leavesAll bs = some lb) :
    leavesAll (as ++ bs) = some (la ++ lb) := by
  induction as generalizing la with
  | nil => cases ha; exact hb
  | cons a as ih =>
    cases a with
    | none => simp [leavesAll] at ha
    | some l =>
      simp only [leavesAll] at ha
      split at ha
      · rename_i x y hx hy
        cases ha
        simp only [List.cons_append, leavesAll, hx, ih y hy, List.append_assoc]
      · cases ha

/-- C58, `Init`: any number of calls of `Init` on a new `MultiLogger`, each with loggers that are not null: the message goes to the loggers
of all calls, in their order. -/
theorem C58_init (level lvl : Level) (msg : Str) (calls : List (List (Option Logger))) (given : List (List Logger))
    (h : calls.map leavesAll = given.map some) :
    (calls.foldl Logger.init (.multi level [])).log lvl msg = .ok (given.flatten.flatMap (leafOut lvl msg)) := by
  suffices H : ∀ (calls : List (List (Option Logger))) (given : List (List Logger)) (os : List (Option Logger)) (ls : List Logger),
      leavesAll os = some ls → calls.map leavesAll = given.map some →
      leaves (calls.foldl Logger.init (.multi level os)) = some (ls ++ given.flatten) from
    C58_multi lvl msg _ _ (H calls given [] [] rfl h)
  intro calls
  induction calls with
  | nil =>
    intro given os ls ho h
    cases given with
    | nil => simpa [leaves] using ho
    | cons g gs => cases h
  | cons c cs ih =>
    intro given os ls ho h
    cases given with
    | nil => cases h
    | cons g gs =>
      simp only [List.map_cons, List.cons.injEq] at h
      rw [List.foldl_cons, Logger.init, ih gs (os ++ c) (ls ++ g) (leavesAll_append os c ls g ho h.1) h.2]
      simp

example : ([[some (.std .warn)], [some (.sink 1), some (.std .error)]].foldl Logger.init (Logger.multi .debug [])).log .warn b!"m" =
    .ok [.cout b!"[WARN]:m\n", .sink 1 .warn b!"m"] := rfl

/-- Hypotheses met: a nest of loggers; the result. -/
example : leaves (.multi .fatal [some (.std .warn), some (.multi .debug [some (.sink 1), some (.std .error)])]) =
      some [.std .warn, .sink 1, .std .error] ∧
    (Logger.multi .fatal [some (.std .warn), some (.multi .debug [some (.sink 1), some (.std .error)])]).log .warn b!"m" =
      .ok [.cout b!"[WARN]:m\n", .sink 1 .warn b!"m"] := ⟨rfl, rfl⟩

theorem line_level {l l' : Level} {t t' m m' : Str} (h : FLog.line l t m = FLog.line l' t' m') : l = l' := by
  cases l <;> cases l' <;> first | rfl | (simp [FLog.line, FLog.tag] at h)

/-- C58, `FileLogger`: between two calls, a message is taken exactly if its level is at least the logger's and the
logger is initialised; otherwise, and only then, the call does nothing. -/
theorem C58_file (s : FLog) (hpc : s.pc = .idle) (lvl : Level) (time msg : Str) (hcur : ∀ c, s.cur = some c → c < s.ring.length) :
    ((∃ s', Step s (.log (FLog.line lvl time msg)) s') ↔ atLeast s.level lvl ∧ s.cur ≠ none) ∧
    ((∃ s', Step s (.ignored lvl msg) s') ↔ ¬ (atLeast s.level lvl ∧ s.cur ≠ none)) ∧
    ∀ s', Step s (.ignored lvl msg) s' → s' = s := by
  rw [atLeast_val]
  refine ⟨⟨?_, fun ⟨h1, h2⟩ => ?_⟩, ⟨?_, fun h => ?_⟩, ?_⟩
  · rintro ⟨s', h⟩
    generalize hl : LLabel.log (FLog.line lvl time msg) = l at h
    cases h <;> first | cases hl | skip
    case log lvl' time' msg' c b _ hlv hc hb =>
      simp only [LLabel.log.injEq] at hl
      rw [line_level hl, hc]
      exact ⟨by omega, by simp⟩
  · obtain ⟨c, hc⟩ := Option.ne_none_iff_exists'.1 h2
    have hlt := hcur c hc
    exact ⟨_, .log hpc (by omega) hc (List.getElem?_eq_getElem hlt)⟩
  · rintro ⟨s', h⟩
    cases h
    case ignored h =>
      rintro ⟨h1, h2⟩
      rcases h with h | h
      · omega
      · exact h2 h
  · refine ⟨s, .ignored hpc ?_⟩
    by_cases e : s.level.val ≤ lvl.val
    · exact .inr (Classical.byContradiction fun hc => h ⟨e, hc⟩)
    · exact .inl (by omega)
  · intro s' h
    cases h
    rfl

/-- Hypotheses met, with an initialised logger. -/
example : ∃ tr s, LRun (newLogger []) tr s ∧ s.pc = .idle ∧ s.cur ≠ none ∧ ∀ c, s.cur = some c → c < s.ring.length := by
  obtain ⟨v, hv⟩ : ∃ v, lshown (lcmdRun (newLogger []) linit) = some v ∧ v.trace.any numBad = false ∧ .cut ∉ v.trace ∧
      .stopOpenFailed ∉ v.trace ∧ v.pc = .idle := by
    refine ⟨_, rfl, ?_⟩
    decide +kernel
  simp only [lshown, Option.map_eq_some_iff] at hv
  obtain ⟨⟨⟨s, tr⟩, h1, rfl⟩, h2, h3, h4, h5⟩ := hv
  have hr := lcmdRun_sound h1
  refine ⟨tr, s, hr, h5, ?_, (finv_run hr (good_of (numOk_of h2) h3 h4)).1.curLt⟩
  have : (lcmdRun (newLogger []) linit).map (fun x => x.1.cur.isSome) = some true := by decide +kernel
  rw [h1] at this
  simp at this
  intro e; rw [e] at this; cases this

/-! ### C81 -/

/-- C81, `StdLogger`: after `set_level(v)` exactly the messages of level at least `v` are printed. -/
theorem C81_std_partial (level v lvl : Level) (msg : Str) :
    ((Logger.std level).setLevel v).log lvl msg = .ok (if atLeast v lvl then [printed lvl msg] else []) :=
  C58_std v lvl msg

/-- C81 is false of a `MultiLogger`: `set_level` changes nothing, for any loggers and any level. -/
theorem C81_multi_refuted (level v lvl : Level) (msg : Str) (ls : List (Option Logger)) :
    ((Logger.multi level ls).setLevel v).log lvl msg = (Logger.multi level ls).log lvl msg := by
  simp [Logger.setLevel, Logger.log]

example : ((Logger.multi .debug [some (.std .debug)]).setLevel .fatal).log .debug b!"m" = .ok [.cout b!"[DEBUG]:m\n"] := rfl

/-! ### C59 -/

/-- C59 is false: if the file exists but its owner may not write it, `Init` returns 0 without having initialised
anything; every message after that is thrown away. -/
theorem C59_unwritable_refuted : fileLoggerInit (.ok 0) (.ok false) = .ok (.inl 0) ∧
    ∀ (prev : Str) (lvl : Level) (msg : Str), Step (newLogger prev) (.ignored lvl msg) (newLogger prev) ∧
      ∀ time s', ¬ Step (newLogger prev) (.log (FLog.line lvl time msg)) s' := by
  refine ⟨rfl, fun prev lvl msg => ⟨.ignored rfl (.inr rfl), fun time s' h => ?_⟩⟩
  exact absurd rfl ((C58_file (newLogger prev) rfl lvl time msg (by simp [newLogger])).1.1 ⟨s', h⟩).2

/-- C59, if `File::CanWrite` says yes: `Init` returns an error code only when `File::Create` did, with the same code,
which is not 0; otherwise it goes on to start the background thread. -/
theorem C59_start_partial (created : Out Int) (r : Int ⊕ Unit) (h : fileLoggerInit created (.ok true) = .ok r) :
    (∃ rc, created = .ok rc ∧ rc ≠ 0 ∧ r = .inl rc) ∨ (created = .ok 0 ∧ r = .inr ()) := by
  unfold fileLoggerInit at h
  cases created with
  | error e => cases h
  | ok rc =>
    simp only [bind, Except.bind] at h
    split at h
    · cases h; exact .inl ⟨rc, rfl, ‹_›, rfl⟩
    · rename_i hrc
      simp at h hrc
      exact .inr ⟨by rw [hrc], h.symm⟩

/-- C59, continued: in every execution, once `Init` has reached its end (and until `Stop` is called) the logger is
usable between two calls: a message of sufficient level is taken. -/
theorem C59_usable_partial (prev : Str) (tr : List LLabel) (s : FLog) (tr' : List LLabel) (h : LRun (newLogger prev) (tr ++ [.inited] ++ tr') s)
    (hnum : ∀ l ∈ tr ++ [.inited] ++ tr', NumOk l) (hcut : .cut ∉ tr ++ [.inited] ++ tr') (hstop : .stopOpenFailed ∉ tr ++ [.inited] ++ tr')
    (hns : stopsIn tr' = 0) (hpc : s.pc = .idle) (lvl : Level) (hl : atLeast s.level lvl) (time msg : Str) :
    ∃ s', Step s (.log (FLog.line lvl time msg)) s' := by
  have hi := (finv_run h (good_of hnum hcut hstop)).1
  refine (C58_file s hpc lvl time msg hi.curLt).1.2 ⟨hl, ?_⟩
  -- `cur` is set from `Init` on
  have key : ∀ t s, LRun (newLogger prev) t s → ∀ tr', t = tr ++ [.inited] ++ tr' → stopsIn tr' = 0 →
      s.cur ≠ none ∧ (∀ d, s.pc ≠ .stopping d) ∧ s.pc.early = true := by
    intro t s hr
    induction hr with
    | nil => intro tr' e; simp at e
    | @snoc t s1 l s2 hr hlive hst ih =>
      intro tr' e hs
      rcases List.eq_nil_or_concat tr' with rfl | ⟨tr2, l2, rfl⟩
      · rw [List.append_nil] at e
        obtain ⟨_, e⟩ := List.append_inj' e rfl
        cases e
        cases hst
        exact ⟨by simp, by simp, rfl⟩
      · rw [List.concat_eq_append, ← List.append_assoc] at e
        obtain ⟨e1, e2⟩ := List.append_inj' e rfl
        cases e2
        rw [List.concat_eq_append, stopsIn_snoc] at hs
        obtain ⟨i1, i2, i3⟩ := ih tr2 e1 (by omega)
        cases hst <;> first | exact ⟨i1, i2, i3⟩ | skip
        case stop => simp [stopsIn] at hs
        case stopNull hp _ _ => exact absurd hp (i2 _)
        case stopJoined hp _ _ => exact absurd hp (i2 _)
        case stopSkip hp _ _ _ => rw [hp] at i3; cases i3
        case stopWrite hp _ _ _ => rw [hp] at i3; cases i3
        case stopFailed hp _ _ _ => rw [hp] at i3; cases i3
        case stopCut hp _ _ _ => rw [hp] at i3; cases i3
        case stopEnd hp _ => rw [hp] at i3; cases i3
        case stopped hp => rw [hp] at i3; cases i3
        case destroy hp _ => rw [hp] at i3; cases i3
        case destroyed hp _ => rw [hp] at i3; cases i3
        case inited => exact ⟨by simp, by simp, rfl⟩
        case nextFull => exact ⟨by simp, by simp, rfl⟩
        case nextFree => exact ⟨by simp, by simp, rfl⟩
        all_goals exact ⟨i1, by simp, rfl⟩
  exact (key _ s h tr' rfl hns).1

/-- Hypotheses met. -/
example : ∃ tr tr' s, LRun (newLogger []) (tr ++ [.inited] ++ tr') s ∧ (∀ l ∈ tr ++ [.inited] ++ tr', NumOk l) ∧
    .cut ∉ tr ++ [.inited] ++ tr' ∧ .stopOpenFailed ∉ tr ++ [.inited] ++ tr' ∧ stopsIn tr' = 0 ∧ s.pc = .idle ∧ tr' ≠ [] := by
  obtain ⟨v, hv⟩ : ∃ v, lshown (lcmdRun (newLogger []) (linit ++ llog b!"a")) = some v ∧
      v.trace = v.trace.take 3 ++ [.inited] ++ v.trace.drop 4 ∧ v.trace.any numBad = false ∧ .cut ∉ v.trace ∧
      .stopOpenFailed ∉ v.trace ∧ stopsIn (v.trace.drop 4) = 0 ∧ v.pc = .idle ∧ v.trace.drop 4 ≠ [] := by
    refine ⟨_, rfl, ?_⟩
    decide +kernel
  obtain ⟨s, h1, h2, h3, _⟩ := lshown_run hv.1
  obtain ⟨_, e, a1, a2, a3, a4, a5, a6⟩ := hv
  rw [e] at h1 a1 a2 a3
  exact ⟨_, _, s, h1, numOk_of a1, a2, a3, a4, h3.trans a5, a6⟩

/-! ### C82 -/

theorem stuck_lstep {s s' : FLog} {l d} (hs : Stuck s.pool) (hpc : s.pc = .stopping d) (hfl : s.fl = .none) (hl : l ≠ .spurious) (h : Step s l s') :
    Stuck s'.pool ∧ s'.pc = .stopping d ∧ l ≠ .stopped ∧ l ≠ .destroyed ∧ s'.fl = .none ∧ s'.file = s.file := by
  cases h
  case pool h _ _ => exact ⟨(stuck_step hs (by simp) h).1, hpc, by simp, by simp, hfl, rfl⟩
  case spurious => exact absurd rfl hl
  case flushStart h h1 _ _ =>
    have := (Dead.step (p := s.pool) ⟨hs.cont, by rw [hs.workers]; simp [noTask]⟩ h).2.1
    rw [h1] at this
    simp at this
  case flushDone h => rw [hfl] at h; cases h
  case flushEmpty h _ => rw [hfl] at h; cases h
  case flushFailed h _ => rw [hfl] at h; cases h
  case flushWritten h _ => rw [hfl] at h; cases h
  case flushCut h _ => rw [hfl] at h; cases h
  case flushClear h => rw [hfl] at h; cases h
  case flushUnmark h => rw [hfl] at h; cases h
  case flushTimed h => rw [hfl] at h; cases h
  case stopNull h _ => exact absurd rfl (stuck_step hs (by simp) h).2
  case stopJoined h _ => exact absurd rfl (stuck_step hs (by simp) h).2
  all_goals
    have hh := ‹s.pc = _›
    rw [hpc] at hh
    cases hh

/-- C82 is false: `Stop` (or the destructor) can hang for ever: if the background thread is just between its test and
going to sleep when `Stop` notifies it, then in every continuation without a spurious wake-up `Stop` never returns. -/
theorem C82_hangs_refuted : ∃ tr s, LRun (newLogger []) tr s ∧ .stop false ∈ tr ∧ loggedLines tr = [b!"[INFO]t|a\n"] ∧
    ∀ tr' s', LRun s tr' s' → .spurious ∉ tr' → .stopped ∉ tr' ∧ s'.file = [] := by
  obtain ⟨v, hv⟩ : ∃ v, lshown (lcmdRun (newLogger []) (linit ++ llogQuiet b!"a" ++ lwk 3 ++ [.stop false] ++ lcl 3 ++ lwk 1)) = some v ∧
      v.trace.any numBad = false ∧ .cut ∉ v.trace ∧ .stopOpenFailed ∉ v.trace ∧ .stop false ∈ v.trace ∧
      loggedLines v.trace = [b!"[INFO]t|a\n"] ∧ v.cont = false ∧ v.workers = [.waiting] ∧ v.threads = [(0, true)] ∧
      v.client = .stopJoin .ret 0 ∧ v.pc = .stopping false ∧ v.file = [] ∧ v.accepted = [] ∧ v.finished = [] := by
    refine ⟨_, rfl, ?_⟩
    decide +kernel
  obtain ⟨s, h1, h2, h3, h4, h5, h6, h7, h8, h9, _, _⟩ := lshown_run hv.1
  obtain ⟨_, a1, a2, a3, a4, a5, a6, a7, a8, a9, a10, a11, a12, a13⟩ := hv
  have hi := (finv_run h1 (good_of (numOk_of a1) a2 a3)).1
  have hstuck : Stuck s.pool := ⟨h6.trans a6, h7.trans a7, h8.trans a8, h9.trans a9, fun a ha => by rw [hi.others a ha]; rfl⟩
  have hfl : s.fl = .none := hi.deadFl ⟨h6.trans a6, by rw [h7, a7]; simp [noTask]⟩
  refine ⟨_, s, h1, a4, a5, ?_⟩
  intro tr' s' hr
  suffices .spurious ∉ tr' → .stopped ∉ tr' ∧ s'.file = [] ∧ Stuck s'.pool ∧ s'.pc = .stopping false ∧ s'.fl = .none by
    intro hn; exact ⟨(this hn).1, (this hn).2.1⟩
  induction hr with
  | nil => exact fun _ => ⟨by simp, h2.trans a11, hstuck, h3.trans a10, hfl⟩
  | @snoc tr s1 l s2 hr hlive hst ih =>
    intro hn
    simp only [List.mem_append, List.mem_singleton, not_or] at hn
    obtain ⟨i1, i2, i3, i4, i5⟩ := ih hn.1
    obtain ⟨j1, j2, j3, _, j5, j6⟩ := stuck_lstep i3 i4 i5 (Ne.symm hn.2) hst
    exact ⟨by simp [i1, Ne.symm j3], j6.trans i2, j1, j2, j5⟩

/-- C82, what holds: if the background thread is not just between its test and going to sleep when `Stop` notifies it,
then whatever happens afterwards (flushes that fail, a full disk, spurious wake-ups), as long as `Stop` (`d`: the
destructor) has not returned it can return, by silent steps of the flush already begun and of `Stop` itself. -/
theorem C82_returns_partial (prev : Str) (tr : List LLabel) (s : FLog) (d : Bool) (h : LRun (newLogger prev) tr s)
    (hlive : s.pool.phase = .live) (hpc : s.pc = .stopping d) (hn : s.pool.pcs (.client 0) = .stopNotify .ret)
    (hb : ∀ w ∈ s.pool.workers, w ≠ .block) :
    ∃ s₁, Step s .tau s₁ ∧ s₁.pool.pcs (.client 0) = .stopJoin .ret 0 ∧
    ∀ tr' s', LRun s₁ tr' s' → (if d then .destroyed else .stopped) ∉ tr' →
    ∃ tr'' s'', LRun s' (tr'' ++ [if d then .destroyed else .stopped]) s'' ∧ ∀ l ∈ tr'', l = .tau := by
  have hw := winv_run h
  obtain ⟨ptr, hr, hd⟩ := hw.run
  have dtau : Disciplined 0 (.tau : PoolLabel Nat) := by intro a op h; cases h
  obtain ⟨ht, hs, hj⟩ := pool_run_inv_labels (P := fun s => ThrInv s ∧ StopInv 0 s ∧ JoinInv 0 s) (Q := Disciplined 0)
    (fun s l s' _ hi hq ha => ⟨thrInv_step s l s' hi.1 ha, stopInv_step 0 s l s' hi.1 hi.2.1 hq ha, joinInv_step 0 s l s' hi.2.1 hi.2.2 ha⟩) hr hd
    ⟨thrInv_init, stopInv_init 0, joinInv_init 0⟩
  have hact := Act.stopNotified hn
  have hst := Step.pool hact rfl rfl
  refine ⟨_, hst, by simp, fun tr' s' hrun hno => ?_⟩
  have hdr : Draining 0 .ret ({ s.pool with workers := s.pool.workers.map WPc.notify }.setPc (.client 0) (.stopJoin .ret 0)) := by
    refine ⟨hlive, hj.flag (by rw [hn]; rfl), ⟨0, by simp⟩, ?_, lockInv_step _ _ _ (reachable_lock ⟨ptr, hr⟩) hact,
      thrInv_step _ _ _ ht hact, stopInv_step 0 _ _ _ ht hs dtau hact, joinInv_step 0 _ _ _ hs hj hact⟩
    intro w hw
    simp only [setPc_workers, List.mem_map] at hw
    obtain ⟨w', hw', rfl⟩ := hw
    have := hb w' hw'
    cases w' <;> simp [WPc.notify] at this ⊢
  have hend : WInv s' ∧ LPhase d s' := by
    induction hrun with
    | nil => exact ⟨winv_step hw hlive hst, .drain hpc hdr⟩
    | snoc hrun hl hstep ih =>
      simp only [List.mem_append, List.mem_singleton, not_or] at hno
      obtain ⟨i1, i2⟩ := ih hno.1
      exact ⟨winv_step i1 hl hstep, phase_step i1 i2 hstep (fun e => hno.2 (by rw [e]; rfl))⟩
  exact phase_ends hend.1 hend.2

/-- Hypotheses met: `Stop` is about to notify, the background thread is asleep, and one line is still in a buffer. -/
example : ∃ tr s, LRun (newLogger []) tr s ∧ s.pool.phase = .live ∧ s.pc = .stopping false ∧ s.pool.pcs (.client 0) = .stopNotify .ret ∧
    s.pool.workers = [.waiting] ∧ loggedLines tr = [b!"[INFO]t|a\n"] := by
  obtain ⟨v, hv⟩ : ∃ v, lshown (lcmdRun (newLogger []) (linit ++ llogQuiet b!"a" ++ lwk 4 ++ [.stop false] ++ lcl 2)) = some v ∧
      v.phase = .live ∧ v.pc = .stopping false ∧ v.client = .stopNotify .ret ∧ v.workers = [.waiting] ∧
      loggedLines v.trace = [b!"[INFO]t|a\n"] := by
    refine ⟨_, rfl, ?_⟩
    decide +kernel
  obtain ⟨s, h1, h2, h3, h4, h5, h6, h7, h8, h9, h10, h11⟩ := lshown_run hv.1
  obtain ⟨_, a1, a2, a3, a4, a5⟩ := hv
  exact ⟨_, s, h1, h5.trans a1, h3.trans a2, h9.trans a3, h7.trans a4, a5⟩

/-! ### C83 -/

/-- What the logger's pool does while the logger is not initialised again. -/
theorem lrun_pool {s s' : FLog} {tr} (h : LRun s tr s') (hn : .init ∉ tr) :
    ∃ ptr, Run s.pool ptr s'.pool ∧ ∀ l ∈ ptr, Disciplined 0 l ∧ NoSpawn l ∧ l ≠ .throws := by
  induction h with
  | nil => exact ⟨[], .nil _, by simp⟩
  | @snoc tr s1 l s2 hr hlive hst ih =>
    simp only [List.mem_append, List.mem_singleton, not_or] at hn
    obtain ⟨ptr, h1, h2⟩ := ih hn.1
    have one : ∀ l, Act s1.pool l s2.pool → Disciplined 0 l ∧ NoSpawn l ∧ l ≠ .throws → ∃ ptr, Run s.pool ptr s2.pool ∧ ∀ l ∈ ptr, Disciplined 0 l ∧ NoSpawn l ∧ l ≠ .throws := by
      intro l ha hl
      refine ⟨ptr ++ [l], .snoc h1 hlive ha, fun x hx => ?_⟩
      rcases List.mem_append.1 hx with hx | hx
      · exact h2 x hx
      · simp only [List.mem_singleton] at hx; subst hx; exact hl
    have dtau : Disciplined 0 (.tau : PoolLabel Nat) ∧ NoSpawn (.tau : PoolLabel Nat) ∧ (.tau : PoolLabel Nat) ≠ .throws := ⟨(by intro a op h; cases h), (by intro a op h; cases h), by simp⟩
    have dret : ∀ r, Disciplined 0 (.ret (.client 0) r : PoolLabel Nat) ∧ NoSpawn (.ret (.client 0) r : PoolLabel Nat) ∧ (.ret (.client 0) r : PoolLabel Nat) ≠ .throws :=
      fun r => ⟨(by intro a op h; cases h), (by intro a op h; cases h), by simp⟩
    have dcall : ∀ op, (∀ n, op ≠ .init n) → (∀ n, op ≠ .resize n) → Disciplined 0 (.call (.client 0) op : PoolLabel Nat) ∧ NoSpawn (.call (.client 0) op : PoolLabel Nat) ∧ (.call (.client 0) op : PoolLabel Nat) ≠ .throws := by
      intro op o1 o2
      exact ⟨(by intro a op' h; cases h; exact .inr (.inr rfl)), (by intro a op' h; cases h; exact ⟨o1, o2⟩), by simp⟩
    cases hst
    case pool h _ _ => exact one _ h dtau
    case spurious h => exact one _ h ⟨(by intro a op h; cases h), (by intro a op h; cases h), by simp⟩
    case flushStart h _ _ _ => exact one _ h dtau
    case flushDone h _ _ _ => exact one _ h dtau
    case init => exact absurd rfl hn.2
    case inited h _ => exact one _ h (dret _)
    case add h => exact one _ h (dcall _ (by simp) (by simp))
    case added h => exact one _ h (dret _)
    case stop h => exact one _ h (dcall _ (by simp) (by simp))
    case stopNull h _ => exact one _ h (dret _)
    case stopJoined h _ => exact one _ h (dret _)
    case destroy h => exact one _ h (dcall _ (by simp) (by simp))
    case destroyed h => exact one _ h (dret _)
    all_goals exact ⟨ptr, h1, h2⟩

theorem lrun_split {s s'' : FLog} {a b} (h : LRun s (a ++ b) s'') : ∃ s', LRun s a s' ∧ LRun s' b s'' := by
  generalize ht : a ++ b = t at h
  induction h generalizing b with
  | nil =>
    simp only [List.append_eq_nil_iff] at ht
    obtain ⟨rfl, rfl⟩ := ht
    exact ⟨_, .nil _, .nil _⟩
  | @snoc t s1 l s2 hr hl hst ih =>
    rcases List.eq_nil_or_concat b with rfl | ⟨b', l', rfl⟩
    · rw [List.append_nil] at ht
      subst ht
      exact ⟨s2, .snoc hr hl hst, .nil _⟩
    · rw [List.concat_eq_append, ← List.append_assoc] at ht
      obtain ⟨e1, e2⟩ := List.append_inj' ht rfl
      cases e2
      obtain ⟨s', h1, h2⟩ := ih e1
      rw [List.concat_eq_append]
      exact ⟨s', h1, .snoc h2 hl hst⟩

theorem idle_act {p p' : Pool Nat} {l} (h1 : ∀ a, p.pcs a = .idle) (h2 : p.workers = []) (hl : l = .tau ∨ l = .spurious) (h : Act p l p') : False := by
  cases h
  case call => rcases hl with hl | hl <;> cases hl
  all_goals first
    | (have hpc := ‹p.pcs _ = _›; rw [h1] at hpc; cases hpc; done)
    | (have hpc := ‹p.workers[_]? = some _›; rw [h2] at hpc; simp at hpc)

/-- Before `Init` and `Stop` the pool is as it was made. -/
theorem lrun_fresh {prev : Str} {s : FLog} {tr} (h : LRun (newLogger prev) tr s) (h1 : .init ∉ tr) (h2 : stopsIn tr = 0) :
    s.pool = {} ∧ s.pc = .idle ∧ s.fl = .none ∧ s.cur = none := by
  induction h with
  | nil => exact ⟨rfl, rfl, rfl, rfl⟩
  | @snoc tr s1 l s2 hr hlive hst ih =>
    simp only [List.mem_append, List.mem_singleton, not_or] at h1
    rw [stopsIn_snoc] at h2
    obtain ⟨i1, i2, i3, i4⟩ := ih h1.1 (by omega)
    have noAct : ∀ {l p}, (l = .tau ∨ l = .spurious) → Act s1.pool l p → False := fun hl ha =>
      idle_act (by rw [i1]; intro _; rfl) (by rw [i1]) hl ha
    cases hst
    case pool h _ _ => exact (noAct (.inl rfl) h).elim
    case spurious h => exact (noAct (.inr rfl) h).elim
    case flushStart h _ _ _ => exact (noAct (.inl rfl) h).elim
    case flushDone h _ _ _ => exact (noAct (.inl rfl) h).elim
    case setNum => exact ⟨i1, i2, i3, i4⟩
    case setSize => exact ⟨i1, i2, i3, i4⟩
    case setLevel => exact ⟨i1, i2, i3, i4⟩
    case ignored => exact ⟨i1, i2, i3, i4⟩
    case init => exact absurd rfl h1.2
    case stop => simp [stopsIn] at h2
    case log h _ => rw [i4] at h; cases h
    all_goals first
      | (have hh := ‹s1.pc = _›; rw [i2] at hh; cases hh; done)
      | (have hh := ‹s1.fl = _›; rw [i3] at hh; cases hh; done)

/-- C83, a logger that is initialised once, whatever happens to it afterwards (messages, any number of calls of
`Stop`, destruction) never terminates the program. -/
theorem C83_once_partial (prev : Str) (tr₁ tr₂ : List LLabel) (s : FLog) (h : LRun (newLogger prev) (tr₁ ++ [.init] ++ tr₂) s)
    (h1 : .init ∉ tr₁) (hs : stopsIn tr₁ = 0) (h2 : .init ∉ tr₂) : s.pool.phase ≠ .terminated := by
  obtain ⟨s₁, r1, r2⟩ := lrun_split h
  obtain ⟨s₀, r0, _, hst⟩ := lrun_last r1
  obtain ⟨e, _⟩ := lrun_fresh r0 h1 hs
  obtain ⟨ptr, p1, p2⟩ := lrun_pool r2 h2
  have : s₁.pool = ({} : Pool Nat).setPc (.client 0) (entry (.init 1)) := by
    cases hst
    case init h => rw [e] at h; exact (call_step h).2
  rw [this] at p1
  exact C80_no_terminate 0 1 _ _ p1 p2

/-- C83 is false: a logger that was stopped and initialised again cannot be destroyed.  The pool stays stopped, its
new thread is never joined, and the destructor of the `std::thread` ends the program. -/
theorem C83_again_refuted : ∃ tr s, LRun (newLogger []) tr s ∧ (∀ l ∈ tr, NumOk l) ∧ (∀ l ∈ tr, NoFault l) ∧
    loggedLines tr = [b!"[INFO]t|a\n", b!"[INFO]t|b\n"] ∧ (tr.filter (· = .inited)).length = 2 ∧ .stopped ∈ tr ∧ .stop true ∈ tr ∧
    s.pool.phase = .terminated := by
  obtain ⟨v, hv⟩ : ∃ v, lshown (lcmdRun (newLogger []) (linit ++ llogQuiet b!"a" ++ lstop 4 ++ linit ++ llogQuiet b!"b" ++
        [.stop true] ++ lcl 1 ++ List.replicate 6 (.main false) ++ lcl 2)) = some v ∧
      v.trace.any numBad = false ∧ v.trace.any isFault = false ∧ loggedLines v.trace = [b!"[INFO]t|a\n", b!"[INFO]t|b\n"] ∧
      (v.trace.filter (· = .inited)).length = 2 ∧ .stopped ∈ v.trace ∧ .stop true ∈ v.trace ∧ v.phase = .terminated := by
    refine ⟨_, rfl, ?_⟩
    decide +kernel
  obtain ⟨s, h1, _, _, _, h2, _⟩ := lshown_run hv.1
  exact ⟨_, s, h1, numOk_of hv.2.1, noFault_of hv.2.2.1, hv.2.2.2.1, hv.2.2.2.2.1, hv.2.2.2.2.2.1, hv.2.2.2.2.2.2.1, h2.trans hv.2.2.2.2.2.2.2⟩

/-- Hypotheses of `C83_once_partial` met: a logger that is initialised, used and destroyed. -/
example : ∃ tr₁ tr₂ s, LRun (newLogger []) (tr₁ ++ [.init] ++ tr₂) s ∧ .init ∉ tr₁ ∧ stopsIn tr₁ = 0 ∧ .init ∉ tr₂ ∧ .destroyed ∈ tr₂ ∧
    loggedLines tr₂ = [b!"[INFO]t|a\n"] := by
  obtain ⟨v, hv⟩ : ∃ v, lshown (lcmdRun (newLogger []) ([.setNum 2] ++ linit ++ llogQuiet b!"a" ++ [.stop true] ++ lcl 3 ++ lwk 3 ++ lcl 2 ++
        List.replicate 4 (.main false) ++ lcl 2)) = some v ∧
      v.trace = v.trace.take 1 ++ [.init] ++ v.trace.drop 2 ∧ .init ∉ v.trace.take 1 ∧ stopsIn (v.trace.take 1) = 0 ∧
      .init ∉ v.trace.drop 2 ∧ .destroyed ∈ v.trace.drop 2 ∧ loggedLines (v.trace.drop 2) = [b!"[INFO]t|a\n"] := by
    refine ⟨_, rfl, ?_⟩
    decide +kernel
  obtain ⟨s, h1, _⟩ := lshown_run hv.1
  rw [hv.2.1] at h1
  exact ⟨_, _, s, h1, hv.2.2⟩

end Cppnet
