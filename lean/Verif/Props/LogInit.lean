import Verif.Spec.LogInit
import Verif.Props.Logger

/-!
# C187: an `Init` that fails leaves the logger as it was
-/

namespace Cppnet
open Spec Pool FLog

/-- What `FileLogger` itself sees of a history. -/
def inner : PLabel → List LLabel
  | .init _ => [.init]
  | .initFailed _ _ => []
  | .log l => [l]

theorem prun_inner {s s' : PLog} {tr} (h : PRun s tr s') : LRun s.log (tr.flatMap inner) s'.log := by
  induction h with
  | nil => exact .nil _
  | @snoc tr s' l s'' h1 h2 h3 ih =>
    rw [List.flatMap_append]
    cases h3 with
    | init hc h => exact .snoc ih h2 h
    | initFailed hpc hc => simpa [inner] using ih
    | quiet hl h hd hf => exact .snoc ih h2 h
    | append hl h hd hn hf => exact .snoc ih h2 h

theorem prun_split {s s'' : PLog} {a b} (h : PRun s (a ++ b) s'') : ∃ s', PRun s a s' ∧ PRun s' b s'' := by
  generalize ht : a ++ b = t at h
  induction h generalizing b with
  | nil =>
    obtain ⟨rfl, rfl⟩ := List.append_eq_nil_iff.1 ht
    exact ⟨_, .nil _, .nil _⟩
  | @snoc tr s' l s'' h1 h2 h3 ih =>
    rcases List.eq_nil_or_concat b with rfl | ⟨b', x, rfl⟩
    · rw [List.append_nil] at ht; subst ht; exact ⟨_, .snoc h1 h2 h3, .nil _⟩
    · rw [List.concat_eq_append, ← List.append_assoc] at ht
      obtain ⟨e1, e2⟩ := List.append_inj' ht rfl
      cases e2
      obtain ⟨m, m1, m2⟩ := ih e1
      exact ⟨m, m1, by rw [List.concat_eq_append]; exact .snoc m2 h2 h3⟩

theorem prun_append {s s' s'' : PLog} {a b} (h : PRun s a s') (h' : PRun s' b s'') : PRun s (a ++ b) s'' := by
  induction h' with
  | nil => simpa using h
  | snoc _ h2 h3 ih => rw [← List.append_assoc]; exact .snoc ih h2 h3

/-- `Init` with its checks only ever creates the file. -/
theorem initChecks_files (f f' : FileAt) (r) (h : f.initChecks = (r, f')) : f' = f ∨ (f = .absent ∧ f' = .text [] ∧ r = .ok (.inr ())) := by
  unfold FileAt.initChecks at h
  cases f <;> simp [FileAt.create, fileLoggerInit, FileAt.canWrite] at h <;> simp [← h] <;> rfl

theorem idle_run {s s' : PLog} {tr} (h : PRun s tr s') (hi : ∀ l ∈ tr, Idle l) : s'.log = s.log ∧ s'.files = s.files := by
  induction h with
  | nil => exact ⟨rfl, rfl⟩
  | @snoc tr s' l s'' h1 h2 h3 ih =>
    obtain ⟨e1, e2⟩ := ih fun l hl => hi l (List.mem_append_left _ hl)
    have hl := hi l (List.mem_append_right _ (List.mem_singleton.2 rfl))
    cases h3 with
    | init hc h => exact hl.elim
    | @initFailed p rc f hpc hc =>
      refine ⟨e1, ?_⟩
      rw [← e2]
      rcases initChecks_files _ _ _ hc with h4 | ⟨_, _, h4⟩
      · funext q
        show putFile s'.files p f q = s'.files q
        unfold putFile
        by_cases hq : q = p
        · rw [if_pos hq, hq, h4]
        · rw [if_neg hq]
      · cases h4
    | @quiet l log' hl' h hd hf =>
      cases l <;> first | exact hl.elim | skip
      cases h
      exact ⟨e1, e2⟩
    | @append l log' d f hl' h hd hn hf =>
      cases l <;> first | exact hl.elim | skip
      cases h
      exact absurd (List.append_cancel_left (hd.symm.trans (List.append_nil _).symm)) hn

/-- After `Init p`, up to the next `Init`: what the logger writes goes to `p`, and nothing else changes. -/
theorem session_run {s s' : PLog} {tr} (h : PRun s tr s') (hn : ∀ l ∈ tr, ∃ x, l = PLabel.log x) (t : Str) (ht : s.files s.path = .text t) :
    s'.path = s.path ∧ ∃ d, s'.log.file = s.log.file ++ d ∧ s'.files = putFile s.files s.path (.text (t ++ d)) ∧
      ∀ x, PLabel.log x ∈ tr → x ≠ .openFailed ∧ x ≠ .stopOpenFailed := by
  induction h with
  | nil =>
    refine ⟨rfl, [], by simp, ?_, fun x hx => by simp at hx⟩
    funext q
    unfold putFile
    by_cases hq : q = s.path
    · rw [if_pos hq, hq, ht, List.append_nil]
    · rw [if_neg hq]
  | @snoc tr s' l s'' h1 h2 h3 ih =>
    obtain ⟨e1, d, e2, e3, e4⟩ := ih fun l hl => hn l (List.mem_append_left _ hl)
    obtain ⟨x, rfl⟩ := hn l (List.mem_append_right _ (List.mem_singleton.2 rfl))
    have hp : s'.files s'.path = .text (t ++ d) := by rw [e3, e1, putFile, if_pos rfl]
    cases h3 with
    | @quiet l log' hl h hd hf =>
      refine ⟨e1, d, by show log'.file = _; rw [hd, e2], e3, fun y hy => ?_⟩
      rcases List.mem_append.1 hy with h5 | h5
      · exact e4 y h5
      · cases List.mem_singleton.1 h5
        rw [hp] at hf
        constructor <;> intro h6 <;> subst h6
        · have := hf (.inl rfl) []; simp [FileAt.append] at this
        · have := hf (.inr rfl) []; simp [FileAt.append] at this
    | @append l log' d' f hl h hd hn' hf =>
      rw [hp] at hf
      simp only [FileAt.append, Option.some.injEq] at hf
      refine ⟨e1, d ++ d', by show log'.file = _; rw [hd, e2, List.append_assoc], ?_, fun y hy => ?_⟩
      · show putFile s'.files s'.path f = _
        rw [e3, e1, ← hf]
        funext q
        unfold putFile
        by_cases hq : q = s.path
        · simp [hq]
        · simp [hq]
      · rcases List.mem_append.1 hy with h5 | h5
        · exact e4 y h5
        · cases List.mem_singleton.1 h5
          constructor <;> intro h6 <;> subst h6 <;> cases h <;> exact absurd (List.append_cancel_left (hd.symm.trans (List.append_nil _).symm)) hn'

theorem inner_idle {tr : List PLabel} (h : ∀ l ∈ tr, Idle l) : loggedLines (tr.flatMap inner) = [] ∧ linesOf tr = [] := by
  induction tr with
  | nil => exact ⟨rfl, rfl⟩
  | cons l tr ih =>
    obtain ⟨a, b⟩ := ih fun x hx => h x (List.mem_cons_of_mem _ hx)
    have hl := h l List.mem_cons_self
    simp only [loggedLines, linesOf] at a b ⊢
    rw [List.flatMap_cons, List.flatMap_append, List.flatMap_cons, a, b]
    cases l with
    | init p => exact hl.elim
    | initFailed p rc => exact ⟨rfl, rfl⟩
    | log x => cases x <;> first | exact hl.elim | exact ⟨rfl, rfl⟩

theorem inner_lines (tr : List PLabel) : loggedLines (tr.flatMap inner) = linesOf tr := by
  induction tr with
  | nil => rfl
  | cons l tr ih =>
    simp only [loggedLines, linesOf] at ih ⊢
    rw [List.flatMap_cons, List.flatMap_append, List.flatMap_cons, ih]
    cases l with
    | init p => rfl
    | initFailed p rc => rfl
    | log x => cases x <;> rfl

theorem prun_one {s s' : PLog} {l} (h : PRun s [l] s') : PStep s l s' := by
  generalize ht : [l] = t at h
  cases h with
  | nil => cases ht
  | snoc h1 h2 h3 =>
    obtain ⟨rfl, e⟩ := List.append_inj' (s₁ := []) ht rfl
    cases e
    generalize hn : ([] : List PLabel) = t at h1
    cases h1 with
    | nil => exact h3
    | snoc => simp at hn

theorem flatMap_log (log : List LLabel) : (log.map PLabel.log).flatMap inner = log := by
  induction log with
  | nil => rfl
  | cons l log ih => rw [List.map_cons, List.flatMap_cons, ih]; rfl

theorem idle_good {tr : List PLabel} (h : ∀ l ∈ tr, Idle l) : ∀ x ∈ tr.flatMap inner, ∃ a b, x = .ignored a b := by
  intro x hx
  obtain ⟨l, h1, h2⟩ := List.mem_flatMap.1 hx
  have := h l h1
  cases l with
  | init p => exact this.elim
  | initFailed p rc => simp [inner] at h2
  | log y =>
    rw [inner, List.mem_singleton] at h2
    subst h2
    cases x <;> first | exact this.elim | exact ⟨_, _, rfl⟩

theorem initChecks_ok {f f' : FileAt} {t : Str} (ht : textAt f = some t) (h : f.initChecks = (.ok (.inr ()), f')) : f' = .text t := by
  unfold FileAt.initChecks at h
  cases f <;> simp [FileAt.create, fileLoggerInit, FileAt.canWrite, textAt, bind, Except.bind] at h ht
  · rw [← h, ht]
  · rw [← h, ht]

/-- **C187**, before the first successful `Init`: calls of `Init` that failed do no harm, whatever their files.  When `Init p`
then succeeds and `Stop` or the destructor has returned, the file `p` holds what it held, followed by every line logged, each once,
and no other file has changed.  (`before`: only failed calls of `Init`, and messages ignored; `log`: neither `Init` nor a write that
the system cut short.  Missing: an `Init` that fails while the logger runs, see `C187_running_refuted`.) -/
theorem C187_first_partial (files : Str → FileAt) (before : List PLabel) (log : List LLabel) (p : Str) (l : LLabel) (s : PLog)
    (hl : l = .stopped ∨ l = .destroyed) (h : PRun (newPLog files) (before ++ .init p :: (log ++ [l]).map .log) s)
    (hb : ∀ x ∈ before, Idle x) (hnum : ∀ x ∈ log, NumOk x) (hcut : .cut ∉ log) (t : Str) (ht : textAt (files p) = some t) :
    ∃ lines : List Str, lines.Perm (loggedLines log) ∧ s.files p = .text (t ++ lines.flatten) ∧ ∀ q, q ≠ p → s.files q = files q := by
  obtain ⟨s1, h1, h2⟩ := prun_split h
  obtain ⟨i1, i2⟩ := idle_run h1 hb
  rw [show (PLabel.init p :: (log ++ [l]).map .log) = [.init p] ++ (log ++ [l]).map .log from rfl] at h2
  obtain ⟨s2, h3, h4⟩ := prun_split h2
  have hs2 : s2.path = p ∧ s2.log.file = [] ∧ s2.files = putFile files p (.text t) := by
    cases prun_one h3 with
    | @init _ log' f hc h5 =>
      rw [i2] at hc
      refine ⟨rfl, ?_, ?_⟩
      · rw [i1] at h5
        cases h5
        rfl
      · show putFile s1.files p f = _
        rw [i2, initChecks_ok ht hc]
        rfl
  obtain ⟨p1, p2, p3⟩ := hs2
  obtain ⟨-, d, e2, e3, e4⟩ := session_run h4 (fun x hx => by obtain ⟨y, -, rfl⟩ := List.mem_map.1 hx; exact ⟨y, rfl⟩) t
    (by rw [p1, p3, putFile, if_pos rfl])
  have hr := prun_inner h
  rw [List.flatMap_append, List.flatMap_cons, flatMap_log, show inner (.init p) = [.init] from rfl, List.singleton_append,
    ← List.cons_append, ← List.append_assoc] at hr
  have hmem : ∀ x ∈ before.flatMap inner ++ .init :: log, (∃ a b, x = .ignored a b) ∨ x = .init ∨ x ∈ log := by
    intro x hx
    rcases List.mem_append.1 hx with h5 | h5
    · exact .inl (idle_good hb x h5)
    · exact .inr (List.mem_cons.1 h5)
  obtain ⟨lines, l1, l2⟩ := C57_kept_partial [] _ _ l hl hr
    (fun x hx => by
      rcases hmem x hx with ⟨a, b, rfl⟩ | rfl | h5
      · intro n r e; cases e
      · intro n r e; cases e
      · exact hnum x h5)
    (fun hx => by
      rcases hmem _ hx with ⟨a, b, e⟩ | e | h5
      · cases e
      · cases e
      · exact hcut h5)
    (fun hx => by
      rcases hmem _ hx with ⟨a, b, e⟩ | e | h5
      · cases e
      · cases e
      · exact (e4 _ (List.mem_map_of_mem (List.mem_append_left _ h5))).2 rfl)
  refine ⟨lines, ?_, ?_, fun q hq => ?_⟩
  · have : loggedLines (before.flatMap inner ++ .init :: log) = loggedLines log := by
      have := (inner_idle hb).1
      simp only [loggedLines] at this ⊢
      rw [List.flatMap_append, this]
      rfl
    rw [← this]; exact l1
  · rw [p2, List.nil_append] at e2
    rw [e3, p1, putFile, if_pos rfl, ← e2, l2, List.nil_append]
  · rw [e3, p1, putFile, if_neg hq, p3, putFile, if_neg hq]

/-- A run of the logger in which nothing is written, with the file that `file_path_` names. -/
theorem quiet_run {a b : FLog} {tr} (h : LRun a tr b) (path : Str) (files : Str → FileAt) (hi : .init ∉ tr)
    (hf : .openFailed ∈ tr ∨ .stopOpenFailed ∈ tr → ∀ d, (files path).append d = none) (he : b.file = a.file) :
    PRun ⟨a, path, files⟩ (tr.map .log) ⟨b, path, files⟩ := by
  have grow : ∀ {x y : FLog} {l}, Step x l y → ∃ d, y.file = x.file ++ d := by
    intro x y l h
    cases h <;> first | exact ⟨[], (List.append_nil _).symm⟩ | exact ⟨_, rfl⟩
  have growRun : ∀ {x y : FLog} {t}, LRun x t y → ∃ d, y.file = x.file ++ d := by
    intro x y t h
    induction h with
    | nil => exact ⟨[], (List.append_nil _).symm⟩
    | snoc _ _ h3 ih =>
      obtain ⟨d, e⟩ := ih
      obtain ⟨d', e'⟩ := grow h3
      exact ⟨d ++ d', by rw [e', e, List.append_assoc]⟩
  induction h with
  | nil => exact .nil _
  | @snoc tr s' l s'' h1 h2 h3 ih =>
    obtain ⟨d, e⟩ := growRun h1
    obtain ⟨d', e'⟩ := grow h3
    have hd : d = [] ∧ d' = [] := by
      rw [e', e, List.append_assoc] at he
      exact List.append_eq_nil_iff.1 (List.append_cancel_left (he.trans (List.append_nil _).symm))
    rw [hd.1, List.append_nil] at e
    rw [hd.2, List.append_nil] at e'
    rw [List.map_append]
    refine .snoc (ih (fun h => hi (List.mem_append_left _ h)) (fun h => hf (h.imp (List.mem_append_left _) (List.mem_append_left _))) e)
      h2 (.quiet (fun h => hi (List.mem_append_right _ (by rw [h]; exact List.mem_singleton.2 rfl))) h3 e' ?_)
    rintro (rfl | rfl)
    · exact hf (.inl (List.mem_append_right _ (List.mem_singleton.2 rfl)))
    · exact hf (.inr (List.mem_append_right _ (List.mem_singleton.2 rfl)))

/-- A run of the logger in which no append fails, with the file that `file_path_` names. -/
theorem loud_run {a b : FLog} {tr} (h : LRun a tr b) (path : Str) (files : Str → FileAt) (hi : .init ∉ tr)
    (hf : .openFailed ∉ tr ∧ .stopOpenFailed ∉ tr) (t : Str) (ht : files path = .text t) :
    ∃ d, b.file = a.file ++ d ∧ PRun ⟨a, path, files⟩ (tr.map .log) ⟨b, path, putFile files path (.text (t ++ d))⟩ := by
  induction h with
  | nil =>
    have e : putFile files path (.text (t ++ [])) = files := by
      funext q
      unfold putFile
      by_cases hq : q = path
      · rw [if_pos hq, hq, ht, List.append_nil]
      · rw [if_neg hq]
    exact ⟨[], (List.append_nil _).symm, by rw [e]; exact .nil _⟩
  | @snoc tr s' l s'' h1 h2 h3 ih =>
    obtain ⟨d, e, r⟩ := ih (fun h => hi (List.mem_append_left _ h)) ⟨fun h => hf.1 (List.mem_append_left _ h), fun h => hf.2 (List.mem_append_left _ h)⟩
    have hl : l ≠ .init := fun h => hi (List.mem_append_right _ (by rw [h]; exact List.mem_singleton.2 rfl))
    have hl1 : l ≠ .openFailed := fun h => hf.1 (List.mem_append_right _ (by rw [h]; exact List.mem_singleton.2 rfl))
    have hl2 : l ≠ .stopOpenFailed := fun h => hf.2 (List.mem_append_right _ (by rw [h]; exact List.mem_singleton.2 rfl))
    obtain ⟨d', e'⟩ : ∃ d', s''.file = s'.file ++ d' := by
      cases h3 <;> first | exact ⟨[], (List.append_nil _).symm⟩ | exact ⟨_, rfl⟩
    refine ⟨d ++ d', by rw [e', e, List.append_assoc], ?_⟩
    rw [List.map_append]
    refine .snoc r h2 ?_
    by_cases hd : d' = []
    · subst hd
      rw [List.append_nil] at e' ⊢
      exact .quiet hl h3 e' (fun h => by rcases h with h | h; exact (hl1 h).elim; exact (hl2 h).elim)
    · have e2 : putFile files path (.text (t ++ (d ++ d'))) = putFile (putFile files path (.text (t ++ d))) path (.text (t ++ d ++ d')) := by
        funext q
        unfold putFile
        by_cases hq : q = path
        · simp [hq]
        · simp [hq]
      rw [e2]
      exact .append hl h3 e' hd (by simp [putFile, FileAt.append])

theorem lrun_nil {s s' : FLog} (h : LRun s [] s') : s' = s := by
  generalize hn : ([] : List LLabel) = t at h
  cases h with
  | nil => rfl
  | snoc => simp at hn

theorem lrun_one {s s' : FLog} {l} (h : LRun s [l] s') : Step s l s' := by
  obtain ⟨x, h1, -, h3⟩ := lrun_last (tr := []) h
  rw [lrun_nil h1] at h3
  exact h3

/-- What is shown of two consecutive concrete executions. -/
def twoRuns (as bs : List LCmd) : Option ((LPc × PoolPhase) × Str × List LLabel × Str × List LLabel) :=
  (lcmdRun (newLogger []) as).bind fun x => (lcmdRun x.1 bs).map fun y => ((x.1.pc, x.1.pool.phase), x.1.file, x.2, y.1.file, y.2)

theorem twoRuns_run {as bs v} (h : twoRuns as bs = some v) : ∃ s s', LRun (newLogger []) v.2.2.1 s ∧ (s.pc, s.pool.phase) = v.1 ∧ s.file = v.2.1 ∧
    LRun s v.2.2.2.2 s' ∧ s'.file = v.2.2.2.1 := by
  unfold twoRuns at h
  cases ha : lcmdRun (newLogger []) as with
  | none => rw [ha] at h; cases h
  | some x =>
    rw [ha] at h
    simp only [Option.bind_some, Option.map_eq_some_iff] at h
    obtain ⟨y, hy, rfl⟩ := h
    exact ⟨x.1, y.1, lcmdRun_sound ha, rfl, rfl, lcmdRun_sound hy, rfl⟩

/-- Hypotheses of `C187_first_partial` met: an `Init` that fails, an ignored message, then a logger that works. -/
example : ∃ (files : Str → FileAt) (log : List LLabel) (s : PLog),
    PRun (newPLog files) ([.initFailed b!"/x/y" (-1), .log (.ignored .info b!"lost")] ++ .init b!"log" :: (log ++ [LLabel.stopped]).map .log) s ∧
    (∀ x ∈ log, NumOk x) ∧ .cut ∉ log ∧ textAt (files b!"log") = some [] ∧ loggedLines log = [b!"[INFO]t|a\n"] ∧
    s.files b!"log" = .text b!"[INFO]t|a\n" := by
  obtain ⟨v, hv⟩ : ∃ v, lshown (lcmdRun (newLogger []) (linit ++ llogQuiet b!"a" ++ lstop 4)) = some v ∧
      v.trace = [.init] ++ (v.trace.tail.dropLast ++ [.stopped]) ∧ v.trace.tail.dropLast.any numBad = false ∧ .cut ∉ v.trace.tail.dropLast ∧
      .init ∉ v.trace.tail.dropLast ∧ .openFailed ∉ v.trace.tail.dropLast ∧ .stopOpenFailed ∉ v.trace.tail.dropLast ∧
      loggedLines v.trace.tail.dropLast = [b!"[INFO]t|a\n"] ∧ v.file = b!"[INFO]t|a\n" := by
    refine ⟨_, rfl, ?_⟩
    decide +kernel
  obtain ⟨s, h1, h2, _⟩ := lshown_run hv.1
  rw [hv.2.1] at h1
  obtain ⟨s1, a1, a2⟩ := lrun_split h1
  have a3 := lrun_one a1
  let files : Str → FileAt := fun q => if q = b!"log" then .absent else .shut
  have hm : ∀ x : LLabel, x ≠ .stopped → x ∉ v.trace.tail.dropLast → x ∉ v.trace.tail.dropLast ++ [.stopped] := by
    intro x e1 e2 e3
    rcases List.mem_append.1 e3 with h | h
    · exact e2 h
    · exact e1 (List.mem_singleton.1 h)
  have f0 : s1.file = [] := by cases a3; rfl
  obtain ⟨d, d1, d2⟩ := loud_run a2 b!"log" (putFile files b!"log" (.text [])) (hm _ (by decide) hv.2.2.2.2.1)
    ⟨hm _ (by decide) hv.2.2.2.2.2.1, hm _ (by decide) hv.2.2.2.2.2.2.1⟩ [] (by simp [putFile])
  refine ⟨files, v.trace.tail.dropLast, ⟨s, b!"log", putFile (putFile files b!"log" (.text [])) b!"log" (.text ([] ++ d))⟩, ?_, numOk_of hv.2.2.1, hv.2.2.2.1, rfl, hv.2.2.2.2.2.2.2.1, ?_⟩
  · have r0 : PRun (newPLog files) ([] ++ [.initFailed b!"/x/y" (-1)]) ⟨newLogger [], b!"/x/y", putFile files b!"/x/y" .shut⟩ :=
      .snoc (.nil _) rfl (.initFailed rfl rfl)
    have e0 : putFile files b!"/x/y" .shut = files := by
      funext q
      unfold putFile
      by_cases hq : q = b!"/x/y"
      · rw [if_pos hq, hq]; rfl
      · rw [if_neg hq]
    rw [e0] at r0
    have r1 := PRun.snoc r0 rfl (.quiet (l := .ignored .info b!"lost") (by decide) (.ignored rfl (.inr rfl)) rfl (by rintro (h | h) <;> cases h))
    have r2 := PRun.snoc r1 rfl (.init (p := b!"log") (f := .text []) rfl a3)
    exact prun_append r2 d2 |> fun h => by simpa using h
  · rw [f0, List.nil_append, h2] at d1
    rw [← d1, hv.2.2.2.2.2.2.2.2]
    simp [putFile]

/-- **C187**, refuted: whatever the two files, if a running logger is told to use a file that cannot be written, `Init` says so
(-1), and yet the logger has taken over the name: the line logged before, still in its buffer, never reaches the file of the
logger, nor any other. -/
theorem C187_running_refuted (files : Str → FileAt) (p q : Str) (t : Str) (hp : files p = .text t) (hq : files q = .shut) :
    ∃ (before after : List LLabel) (s : PLog),
      PRun (newPLog files) (.init p :: before.map .log ++ .initFailed q (-1) :: (after ++ [LLabel.stopped]).map .log) s ∧
      loggedLines before = [b!"[INFO]t|a\n"] ∧ loggedLines after = [] ∧ .cut ∉ before ∧ .cut ∉ after ∧ s.files = files := by
  obtain ⟨v, hv⟩ : ∃ v, twoRuns (linit ++ llogQuiet b!"a") ([.stop false] ++ lcl 3 ++ lwk 3 ++ lcl 2 ++ [.stopFails] ++
        List.replicate 5 (.main false)) = some v ∧ v.1 = (.idle, .live) ∧ v.2.1 = [] ∧
      v.2.2.1 = [.init] ++ v.2.2.1.tail ∧ .init ∉ v.2.2.1.tail ∧ .openFailed ∉ v.2.2.1.tail ∧ .stopOpenFailed ∉ v.2.2.1.tail ∧ .cut ∉ v.2.2.1.tail ∧
      loggedLines v.2.2.1.tail = [b!"[INFO]t|a\n"] ∧ v.2.2.2.1 = [] ∧ v.2.2.2.2 = v.2.2.2.2.dropLast ++ [.stopped] ∧ .init ∉ v.2.2.2.2 ∧
      loggedLines v.2.2.2.2.dropLast = [] ∧ .cut ∉ v.2.2.2.2.dropLast := by
    refine ⟨_, rfl, ?_⟩
    decide +kernel
  obtain ⟨c0, c1, c2, c3, c4, c5, c6, c7, c8, c9, c10, c11, c12, c13⟩ := hv
  obtain ⟨s1, s2, a1, a2, a3, a4, a5⟩ := twoRuns_run c0
  rw [c3] at a1
  obtain ⟨s0, b1, b2⟩ := lrun_split a1
  have b3 := lrun_one b1
  have f0 : s0.file = [] := by cases b3; rfl
  have same : ∀ (x : Str), putFile files x (files x) = files := by
    intro x
    funext y
    unfold putFile
    by_cases hy : y = x
    · rw [if_pos hy, hy]
    · rw [if_neg hy]
  have r0 : PRun (newPLog files) ([] ++ [.init p]) ⟨s0, p, putFile files p (files p)⟩ :=
    .snoc (.nil _) rfl (.init (by show (files p).initChecks = _; rw [hp]; rfl) b3)
  rw [same] at r0
  have r1 := prun_append r0 (quiet_run b2 p files c4 (fun h => by rcases h with h | h; exact (c5 h).elim; exact (c6 h).elim)
    (by rw [f0, a3, c2]))
  rw [c1] at a2
  simp only [Prod.mk.injEq] at a2
  have r2 := PRun.snoc r1 a2.2 (.initFailed (p := q) (rc := -1) (f := files q) a2.1 (by
    show (files q).initChecks = _; rw [hq]; rfl))
  dsimp only at r2
  rw [same] at r2
  have r3 := prun_append r2 (quiet_run a4 q files c11 (fun _ d => by rw [hq]; rfl) (by rw [a5, c9, a3, c2]))
  rw [c10] at r3
  exact ⟨_, _, _, by simpa using r3, c8, c12, c7, c13, rfl⟩

/-- C59 is false in another way: `Init` of a directory, or of another user's file that its owner may write, returns 0 as if the
logger worked; every append fails, and the lines are lost. -/
theorem C59_foreign_refuted (files : Str → FileAt) (p : Str) (hp : files p = .foreign) :
    ∃ (log : List LLabel) (s : PLog), PRun (newPLog files) (.init p :: (log ++ [LLabel.stopped]).map .log) s ∧
      .inited ∈ log ∧ .cut ∉ log ∧ loggedLines log = [b!"[INFO]t|a\n"] ∧ s.files = files := by
  obtain ⟨v, hv⟩ : ∃ v, lshown (lcmdRun (newLogger []) (linit ++ llogQuiet b!"a" ++ [.stop false] ++ lcl 3 ++ lwk 3 ++ lcl 2 ++ [.stopFails] ++
        List.replicate 5 (.main false))) = some v ∧
      v.trace = [.init] ++ (v.trace.tail.dropLast ++ [.stopped]) ∧ .init ∉ v.trace.tail.dropLast ++ [.stopped] ∧ .inited ∈ v.trace.tail.dropLast ∧
      .cut ∉ v.trace.tail.dropLast ∧ loggedLines v.trace.tail.dropLast = [b!"[INFO]t|a\n"] ∧ v.file = [] := by
    refine ⟨_, rfl, ?_⟩
    decide +kernel
  obtain ⟨c0, c1, c2, c3, c4, c5, c6⟩ := hv
  obtain ⟨s, h1, h2, _⟩ := lshown_run c0
  rw [c1] at h1
  obtain ⟨s1, a1, a2⟩ := lrun_split h1
  have a3 := lrun_one a1
  have f0 : s1.file = [] := by cases a3; rfl
  have same : putFile files p .foreign = files := by
    funext y
    unfold putFile
    by_cases hy : y = p
    · rw [if_pos hy, hy, hp]
    · rw [if_neg hy]
  have r0 : PRun (newPLog files) ([] ++ [.init p]) ⟨s1, p, putFile files p .foreign⟩ :=
    .snoc (.nil _) rfl (.init (by show (files p).initChecks = _; rw [hp]; rfl) a3)
  rw [same] at r0
  have r1 := prun_append r0 (quiet_run a2 p files c2 (fun _ d => by rw [hp]; rfl) (by rw [h2, c6, f0]))
  exact ⟨_, _, r1, c3, c4, c5, rfl⟩

/-- C59 is false, with the file: `Init` of a file that its owner may not write returns 0; the logger stays uninitialised. -/
theorem C59_locked_refuted (files : Str → FileAt) (p t : Str) (hp : files p = .locked t) :
    ∃ s, PRun (newPLog files) [.initFailed p 0] s ∧ s.log = newLogger [] ∧ s.files p = .locked t := by
  refine ⟨⟨newLogger [], p, putFile files p (.locked t)⟩, ?_, rfl, by simp [putFile]⟩
  exact .snoc (.nil _) rfl (.initFailed rfl (by show (files p).initChecks = _; rw [hp]; rfl))

/-! ### An `Init` that throws -/

/-- **C187**, refuted: if `Init` runs out of memory, or is given a negative buffer size (`made = 1`), before the last of its
buffers has been made, `Stop`, and so the destructor, follows a null pointer. -/
theorem C187_memory_refuted (made num : Nat) (h0 : 0 < made) (h : made < num) : stopWalk (brokenNext made) num (some 0) = .error .ub := by
  have key : ∀ k b n, b + k + 1 = made → k + 1 < n → stopWalk (brokenNext made) n (some b) = .error .ub := by
    intro k
    induction k with
    | zero =>
      intro b n hb hn
      obtain ⟨n, rfl⟩ : ∃ m, n = m + 2 := ⟨n - 2, by omega⟩
      rw [stopWalk, brokenNext, if_neg (by omega), stopWalk]
    | succ k ih =>
      intro b n hb hn
      obtain ⟨n, rfl⟩ : ∃ m, n = m + 1 := ⟨n - 1, by omega⟩
      rw [stopWalk, brokenNext, if_pos (by omega)]
      exact ih (b + 1) n (by omega) (by omega)
  exact key (made - 1) 0 num (by omega) (by omega)

/-- Hypotheses met: the first of four buffers (the default) cannot be given its size. -/
example : stopWalk (brokenNext 1) 4 (some 0) = .error .ub := C187_memory_refuted 1 4 (by decide) (by decide)

/-- **C187**, what holds: if only the size of the last buffer is missing, `Stop` returns. -/
theorem C187_memory_partial (num : Nat) (h : 0 < num) : stopWalk (brokenNext num) num (some 0) = .ok none := by
  have key : ∀ k b, b + k + 1 = num → stopWalk (brokenNext num) (k + 1) (some b) = .ok none := by
    intro k
    induction k with
    | zero =>
      intro b hb
      rw [stopWalk, brokenNext, if_neg (by omega), stopWalk]
    | succ k ih =>
      intro b hb
      rw [stopWalk, brokenNext, if_pos (by omega)]
      exact ih (b + 1) (by omega)
  have := key (num - 1) 0 (by omega)
  rwa [show num - 1 + 1 = num by omega] at this

example : stopWalk (brokenNext 4) 4 (some 0) = .ok none := C187_memory_partial 4 (by decide)

end Cppnet
