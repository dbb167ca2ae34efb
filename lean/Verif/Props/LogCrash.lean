import Verif.Props.LogAge

/-!
# C193: what a crash costs the log

The program dies after any history of logging calls and turns of the worker; what is in the file then stays there.
-/

namespace Cppnet
open Spec

/-- What a logging call does to the lines in memory. -/
theorem ageLog_moves {s : ALog} {now t : Int} {log} (h : AgeOk s now log) (l : Str) :
    (ageLog s t l).file = s.file ∧ (ageLog s t l).size = s.size ∧
    ((∀ i ∈ s.queue, ((ageLog s t l).bufs i).lines = (s.bufs i).lines) ∧
      (((ageLog s t l).queue = s.queue ++ [s.curBuf] ∧
        ((ageLog s t l).bufs s.curBuf).lines = (s.bufs s.curBuf).lines ++ [(t, l)] ∧
        ((ageLog s t l).bufs (ageLog s t l).curBuf).lines = []) ∨
       ((ageLog s t l).queue = s.queue ∧
        ((ageLog s t l).bufs (ageLog s t l).curBuf).lines = (s.bufs s.curBuf).lines ++ [(t, l)] ∧
        ((ageLog s t l).bufs (ageLog s t l).curBuf).size ≤ intToSize s.size))) := by
  obtain ⟨cur, fresh, nodup, idle, queued, qnodup, qfresh, full, held, young, past, kept⟩ := h
  have hbm : s.curBuf ∈ s.ring := getD_mem cur
  have hbq : s.curBuf ∉ s.queue := fun hq => by
    have := (queued _).2 hq; rw [idle] at this; cases this
  have hbl : s.curBuf < s.made := fresh _ hbm
  generalize hb : s.curBuf = b at *
  generalize hx : ({ s.bufs b with lines := (s.bufs b).lines ++ [(t, l)] } : ABuf) = buf at *
  have hlog : ageLog s t l = ageCheck (s.setBuf b buf) t := by subst hx; subst hb; rfl
  have hbuf : buf.lines = (s.bufs b).lines ++ [(t, l)] := by subst hx; rfl
  have h1 : (s.setBuf b buf).curBuf = b := hb
  have h2 : (s.setBuf b buf).bufs b = buf := by simp [ALog.setBuf]
  by_cases hc : buf.size > intToSize s.size ∨ (buf.last + s.interval < t ∧ buf.size ≠ 0)
  · by_cases hn : (((s.setBuf b buf).setBuf b { buf with need := true }).bufs (s.ring.getD ((s.cur + 1) % s.ring.length) 0)).need = true
    · have e : ageLog s t l = ⟨fun i => if i = s.made then { last := t } else if i = b then { buf with need := true } else s.bufs i,
          s.ring.take (s.cur + 1) ++ s.made :: s.ring.drop (s.cur + 1), s.cur + 1, s.made + 1, s.size, s.interval, s.queue ++ [b],
          s.file⟩ := by
        rw [hlog]
        unfold ageCheck
        simp only [h1, h2]
        rw [if_pos (by exact hc), if_pos (by exact hn)]
        simp only [ALog.setBuf]
        congr 1
        funext i
        by_cases h1 : i = s.made
        · simp [h1]
        · by_cases h2 : i = b <;> simp [h1, h2]
      have hcb : (ageLog s t l).curBuf = s.made := by rw [e]; exact insert_getD _ _ _ cur
      have hne : b ≠ s.made := by omega
      refine ⟨by rw [e], by rw [e], fun i hi => ?_, .inl ⟨by rw [e], ?_, ?_⟩⟩
      · have h3 : i ≠ s.made := fun h => by have := qfresh i hi; omega
        have h4 : i ≠ b := fun h => hbq (h ▸ hi)
        rw [e]; simp [h3, h4]
      · rw [e]; simp [hne, hbuf]
      · rw [hcb, e]; simp
    · have e : ageLog s t l = ⟨fun i => if i = b then { buf with need := true } else s.bufs i,
          s.ring, (s.cur + 1) % s.ring.length, s.made, s.size, s.interval, s.queue ++ [b], s.file⟩ := by
        rw [hlog]
        unfold ageCheck
        simp only [h1, h2]
        rw [if_pos (by exact hc), if_neg (by exact hn)]
        simp only [ALog.setBuf]
        congr 1
        funext i
        by_cases h2 : i = b <;> simp [h2]
      generalize hnn : s.ring.getD ((s.cur + 1) % s.ring.length) 0 = n at hn
      have hcb : (ageLog s t l).curBuf = n := by rw [e]; exact hnn
      have hnb : n ≠ b := by
        rintro rfl
        simp [ALog.setBuf] at hn
      have hnn' : (s.bufs n).need = false := by
        simp only [ALog.setBuf, hnb, if_false] at hn
        simpa using hn
      have hnq : n ∉ s.queue := fun hq => by
        have := (queued _).2 hq; rw [hnn'] at this; cases this
      have hnl : (s.bufs n).lines = [] := by
        refine Decidable.byContradiction fun h0 => ?_
        rcases held n h0 with h1 | h1
        · exact hnq h1
        · exact hnb h1
      refine ⟨by rw [e], by rw [e], fun i hi => ?_, .inl ⟨by rw [e], ?_, ?_⟩⟩
      · have h4 : i ≠ b := fun h => hbq (h ▸ hi)
        rw [e]; simp [h4]
      · rw [e]; simp [hbuf]
      · rw [hcb, e]; simp [hnb, hnl]
  · have e : ageLog s t l = s.setBuf b buf := by
      rw [hlog]
      unfold ageCheck
      simp only [h1, h2]
      rw [if_neg (by exact hc)]
    rw [e, h1, h2]
    refine ⟨rfl, rfl, fun i hi => ?_, .inr ⟨rfl, hbuf, ?_⟩⟩
    · have h4 : i ≠ b := fun h => hbq (h ▸ hi)
      simp [ALog.setBuf, h4]
    · exact Nat.le_of_not_lt fun h => hc (.inl h)

/-- The lines in order: those in the file, those that the worker is to write, those in the current buffer, which is not over its size. -/
structure Ordered (s : ALog) (log : List (Int × Str)) : Prop where
  order : s.file ++ s.queue.flatMap (fun b => (s.bufs b).lines) ++ (s.bufs s.curBuf).lines = log
  small : (s.bufs s.curBuf).size ≤ intToSize s.size

theorem flatMap_congr' {f g : Nat → List (Int × Str)} {l : List Nat} (h : ∀ i ∈ l, f i = g i) : l.flatMap f = l.flatMap g := by
  induction l with
  | nil => rfl
  | cons a l ih =>
    simp only [List.flatMap_cons]
    rw [h a (List.mem_cons_self ..), ih fun i hi => h i (List.mem_cons_of_mem _ hi)]

theorem ageLog_ordered {s : ALog} {now t : Int} {log} (h : AgeOk s now log) (l : Str) (ho : Ordered s log) :
    Ordered (ageLog s t l) (log ++ [(t, l)]) := by
  obtain ⟨hf, hs, hq, hm⟩ := ageLog_moves (t := t) h l
  rcases hm with ⟨h1, h2, h3⟩ | ⟨h1, h2, h3⟩
  · refine ⟨?_, ?_⟩
    · rw [hf, h1, h3, List.flatMap_append, flatMap_congr' hq, ← ho.order]
      simp [h2]
    · simp [ABuf.size, h3]
  · refine ⟨?_, by rw [hs]; exact h3⟩
    rw [hf, h1, h2, flatMap_congr' hq, ← ho.order]
    simp

theorem ageFlush_ordered {s : ALog} {now t : Int} {log} (h : AgeOk s now log) (ho : Ordered s log) : Ordered (ageFlush s t) log := by
  cases hq : s.queue with
  | nil =>
    have e : ageFlush s t = s := by unfold ageFlush; rw [hq]
    rw [e]; exact ho
  | cons b q =>
    have hbq : b ∈ s.queue := by rw [hq]; exact List.mem_cons_self ..
    have hbc : s.curBuf ≠ b := by
      rintro rfl
      have := (h.queued _).2 hbq; rw [h.idle] at this; cases this
    have hqn := List.nodup_cons.1 (hq ▸ h.qnodup)
    have h0 : (s.bufs b).size ≠ 0 := fun h0 => h.full b hbq ((size_zero fun x hx => (h.young b x hx).2).1 h0)
    have e : ageFlush s t = { s.setBuf b { last := t } with queue := q, file := s.file ++ (s.bufs b).lines } := by
      unfold ageFlush
      rw [hq]
      simp only [h0, if_false]
      rfl
    have hcb : ({ s.setBuf b { last := t } with queue := q, file := s.file ++ (s.bufs b).lines } : ALog).curBuf = s.curBuf := rfl
    have hbo : ∀ i, i ≠ b → ({ s.setBuf b { last := t } with queue := q, file := s.file ++ (s.bufs b).lines } : ALog).bufs i = s.bufs i :=
      fun i hi => by simp [ALog.setBuf, hi]
    rw [e]
    refine ⟨?_, ?_⟩
    · rw [hcb, hbo _ hbc, ← ho.order, hq]
      have : q.flatMap (fun i => (({ s.setBuf b { last := t } with queue := q, file := s.file ++ (s.bufs b).lines } : ALog).bufs i).lines) =
          q.flatMap fun i => (s.bufs i).lines :=
        flatMap_congr' fun i hi => by rw [hbo i fun h => hqn.1 (h ▸ hi)]
      simp only [this, List.flatMap_cons, List.append_assoc]
    · rw [hcb, hbo _ hbc]; exact ho.small

theorem ageRun_ordered {evs : List AgeEv} : ∀ {s : ALog} {now : Int} {log}, AgeOk s now log → Ordered s log → Clock now evs →
    (∀ x ∈ loggedAt evs, x.2 ≠ []) → Ordered (ageRun s evs) (log ++ loggedAt evs) := by
  induction evs with
  | nil => intro s now log _ ho _ _; simpa [ageRun, loggedAt] using ho
  | cons e evs ih =>
    intro s now log h ho hc hl
    cases e with
    | flush t => exact ih (ageFlush_ok (t := t) h hc.1).1 (ageFlush_ordered (t := t) h ho) hc.2 hl
    | log t l =>
      have h1 := (ageLog_ok (t := t) h hc.1 l (hl (t, l) (List.mem_cons_self ..))).1
      have := ih h1 (ageLog_ordered (t := t) h l ho) hc.2 fun x hx => hl x (List.mem_cons_of_mem _ hx)
      simpa [ageRun, loggedAt] using this

theorem ageRun_size (evs : List AgeEv) : ∀ s : ALog, (ageRun s evs).size = s.size := by
  induction evs with
  | nil => intro s; rfl
  | cons e evs ih =>
    intro s
    cases e with
    | flush t =>
      show (ageRun (ageFlush s t) evs).size = _
      rw [ih]
      unfold ageFlush
      split
      · rfl
      · dsimp only; split <;> rfl
    | log t l =>
      show (ageRun (ageLog s t l) evs).size = _
      rw [ih]
      unfold ageLog ageCheck
      dsimp only
      split
      · split <;> rfl
      · rfl

/-- **C193**, what holds: whenever the program dies, the lines in the file are the first of those that were logged, in their order; the lost
ones are the last.  If the worker has nothing left to do they are no more than one buffer takes.
 Missing: that none is lost, and a bound for a worker that is behind, see the refutations. -/
theorem C193_lost_partial (num size interval start : Int) (evs : List AgeEv) (hc : Clock start evs) (hl : ∀ x ∈ loggedAt evs, x.2 ≠ []) :
    ∃ lost, loggedAt evs = (ageRun (ageInit num size interval start) evs).file ++ lost ∧
      ((ageRun (ageInit num size interval start) evs).queue = [] → (lost.map (·.2.length)).sum ≤ intToSize size) := by
  have h := ageRun_ordered (ageInit_ok num size interval start) ⟨by simp [ageInit], by simp [ageInit, ABuf.size]⟩ hc hl
  have hs : (ageRun (ageInit num size interval start) evs).size = size := ageRun_size evs _
  rw [List.nil_append] at h
  refine ⟨_, by rw [← List.append_assoc]; exact h.order.symm, fun hq => ?_⟩
  rw [hq, List.flatMap_nil, List.nil_append]
  exact Nat.le_trans h.small (by rw [hs]; exact Nat.le_refl _)

/-- **C193**, refuted: when a logging call (`Fatal` too) has returned, its message is not in the file yet, whatever was logged before; it is
lost if the program dies before the worker has run. -/
theorem C193_last_refuted (num size interval start t : Int) (evs : List AgeEv) (l : Str) (hc : Clock start (evs ++ [.log t l]))
    (hl : ∀ x ∈ loggedAt (evs ++ [.log t l]), x.2 ≠ []) :
    (ageRun (ageInit num size interval start) (evs ++ [.log t l])).file ≠ loggedAt (evs ++ [.log t l]) := by
  have hla : ∀ b : List AgeEv, loggedAt (b ++ [.log t l]) = loggedAt b ++ [(t, l)] := by
    intro b
    induction b with
    | nil => rfl
    | cons e b ih => cases e <;> simp [loggedAt, ih]
  have hlb : ∀ x ∈ loggedAt evs, x.2 ≠ [] := fun x hx => hl x (by rw [hla]; exact List.mem_append_left _ hx)
  obtain ⟨t0, h1, _, _⟩ := ageRun_ok (ageInit_ok num size interval start) (clock_prefix hc) hlb _ hc
  obtain ⟨lost, h2, _⟩ := C193_lost_partial num size interval start evs (clock_prefix hc) hlb
  have h3 : (ageRun (ageInit num size interval start) (evs ++ [.log t l])).file = (ageRun (ageInit num size interval start) evs).file := by
    rw [ageRun_append]
    exact (ageLog_moves (t := t) h1 l).1
  rw [h3, hla, h2]
  intro h
  have := congrArg List.length h
  simp at this

theorem noWorker_file (evs : List AgeEv) (h : ∀ e ∈ evs, ∃ t l, e = .log t l) : ∀ s : ALog, (ageRun s evs).file = s.file := by
  induction evs with
  | nil => intro s; rfl
  | cons e evs ih =>
    intro s
    obtain ⟨t, l, rfl⟩ := h e (List.mem_cons_self ..)
    show (ageRun (ageLog s t l) evs).file = _
    rw [ih fun x hx => h x (List.mem_cons_of_mem _ hx)]
    unfold ageLog ageCheck
    dsimp only
    split
    · split <;> rfl
    · rfl

/-- **C193**, refuted for a worker that is behind: there is no bound on what is lost, whatever the settings. -/
theorem C193_behind_refuted (num size interval start : Int) (n : Nat) : ∃ evs, Clock start evs ∧ (∀ x ∈ loggedAt evs, x.2 ≠ []) ∧
    (loggedAt evs).length = n ∧ (ageRun (ageInit num size interval start) evs).file = [] := by
  refine ⟨List.replicate n (.log start b!"x"), ?_, ?_, ?_, ?_⟩
  · induction n with
    | zero => trivial
    | succ n ih => exact ⟨Int.le_refl _, ih⟩
  · induction n with
    | zero => intro x hx; cases hx
    | succ n ih =>
      intro x hx
      rw [List.replicate_succ] at hx
      rcases List.mem_cons.1 hx with rfl | hx
      · simp
      · exact ih x hx
  · induction n with
    | zero => rfl
    | succ n ih => simp only [List.replicate_succ, loggedAt, List.length_cons, ih]
  · rw [noWorker_file _ (fun e he => ⟨start, b!"x", List.eq_of_mem_replicate he⟩)]
    rfl

/-- Three lines, of which two fill a buffer and were written: the third is lost. -/
example : Clock 100 [.log 101 b!"aaa", .log 102 b!"bb", .flush 102, .log 103 b!"c"] ∧
    (ageRun (ageInit 4 4 3 100) [.log 101 b!"aaa", .log 102 b!"bb", .flush 102, .log 103 b!"c"]).queue = [] ∧
    (ageRun (ageInit 4 4 3 100) [.log 101 b!"aaa", .log 102 b!"bb", .flush 102, .log 103 b!"c"]).file = [(101, b!"aaa"), (102, b!"bb")] := by
  refine ⟨by simp [Clock, AgeEv.time], by decide +kernel, by decide +kernel⟩

end Cppnet
