import Verif.Spec.Backends
import Verif.Proofs.TcpRel
import Mathlib.Data.List.Perm.Subperm

/-!
# C124–C127: the multiplexers of the other platforms
-/

namespace Cppnet
open Spec

/-! ### C124 -/

/-- What the calls so far have done to the set. -/
structure SelInv (all : List MuxAct) (s : Sel) : Prop where
  nodup : s.fds.Nodup
  from_ : ∀ fd ∈ s.fds, MuxAct.monitor fd ∈ all

theorem sel_watch (all : List MuxAct) (hall : AtMost fdSetSize all) : ∀ (acts : List MuxAct) (s : Sel),
    SelInv all s → (∀ a ∈ acts, a ∈ all) → ∀ fd, fd ∈ (acts.foldl selAct s).fds ↔ toWatch fd acts (decide (fd ∈ s.fds)) = true := by
  intro acts
  induction acts with
  | nil => intro s _ _ fd; simp [toWatch]
  | cons a as ih =>
    intro s hs ha fd
    have ha' : ∀ a ∈ as, a ∈ all := fun x hx => ha x (List.mem_cons_of_mem _ hx)
    rw [List.foldl_cons]
    cases a with
    | monitor x =>
      have hx := ha (.monitor x) (by simp)
      have key : SelInv all (selAct s (.monitor x)) ∧ ∀ fd, fd ∈ (selAct s (.monitor x)).fds ↔ (x = fd ∨ fd ∈ s.fds) := by
        simp only [selAct, selMonitor, fdSet]
        by_cases hm : x ∈ s.fds
        · rw [if_pos hm]
          exact ⟨⟨hs.nodup, hs.from_⟩, fun fd => ⟨.inr, fun h => h.elim (fun e => e ▸ hm) id⟩⟩
        · have nd : (s.fds ++ [x]).Nodup := by
            rw [List.nodup_append]
            refine ⟨hs.nodup, by simp, ?_⟩
            intro a ha b hb
            simp only [List.mem_singleton] at hb
            rintro rfl
            exact hm (hb ▸ ha)
          have fr : ∀ fd ∈ s.fds ++ [x], MuxAct.monitor fd ∈ all := by
            intro fd hfd
            simp only [List.mem_append, List.mem_singleton] at hfd
            rcases hfd with h | h
            · exact hs.from_ fd h
            · rw [h]; exact hx
          have room : s.fds.length < fdSetSize := by
            have := hall _ nd fr
            simp only [List.length_append, List.length_singleton] at this
            omega
          rw [if_neg hm, if_pos room]
          refine ⟨⟨nd, fr⟩, fun fd => ?_⟩
          simp only [List.mem_append, List.mem_singleton]
          constructor
          · rintro (h | h)
            · exact .inr h
            · exact .inl h.symm
          · rintro (h | h)
            · exact .inr h.symm
            · exact .inl h
      rw [ih _ key.1 ha' fd]
      simp only [toWatch]
      by_cases e : x = fd
      · simp only [e, if_true]
        have : fd ∈ (selAct s (.monitor fd)).fds := by
          have := (key.2 fd).mpr (.inl e); rw [e] at this; exact this
        simp [this]
      · simp only [e, if_false]
        have : decide (fd ∈ (selAct s (.monitor x)).fds) = decide (fd ∈ s.fds) := by
          simp only [key.2 fd, e, false_or]
        rw [this]
    | remove x =>
      have inv : SelInv all (selAct s (.remove x)) := by
        simp only [selAct, selRemove, fdClr]
        exact ⟨hs.nodup.erase x, fun fd h => hs.from_ fd (List.mem_of_mem_erase h)⟩
      rw [ih _ inv ha' fd]
      simp only [toWatch]
      by_cases e : x = fd
      · subst e
        have : x ∉ (selAct s (.remove x)).fds := by
          simp only [selAct, selRemove, fdClr]
          exact fun h => (hs.nodup.mem_erase_iff.mp h).1 rfl
        simp [this]
      · simp only [e, if_false]
        have : decide (fd ∈ (selAct s (.remove x)).fds) = decide (fd ∈ s.fds) := by
          refine decide_eq_decide.mpr ?_
          simp only [selAct, selRemove, fdClr]
          rw [hs.nodup.mem_erase_iff]
          simp only [ne_eq, Ne.symm e, not_false_eq_true, true_and]
        rw [this]
    | stop =>
      exact ih { s with loop := false } ⟨hs.nodup, hs.from_⟩ ha' fd

/-- **C124**, what holds with `select`: as long as at most 64 different descriptors are ever monitored, exactly those are
watched that were monitored and not removed since `Init`, whatever the set held before.  Missing: more descriptors, see the
refutation. -/
theorem C124_select_partial (s : Sel) (acts : List MuxAct) (h : AtMost 64 acts) (fd : Int) :
    fd ∈ (acts.foldl selAct (selZero s)).fds ↔ toWatch fd acts false = true := by
  have := sel_watch acts h acts (selZero s) ⟨by simp [selZero], by simp [selZero]⟩ (fun _ h => h) fd
  simpa [selZero] using this

/-- **C124**, refuted as stated: with `select` the 65th descriptor is reported as monitored and is not watched. -/
theorem C124_select_refuted : ¬ ∀ (acts : List MuxAct) (fd : Int),
    (selMonitor (acts.foldl selAct {}) fd).2 = 0 → fd ∈ (selMonitor (acts.foldl selAct {}) fd).1.fds := fun h =>
  absurd (h ((List.range 64).map fun i => MuxAct.monitor (i : Nat)) 64 (by decide +kernel)) (by decide +kernel)

/-- **C124**, with `select`, for the calls one by one: neither ever reports failure; a descriptor that is removed is not watched any
more, and the others are watched as before. -/
theorem C124_answers_partial (s : Sel) (fd : Int) (h : s.fds.Nodup) :
    (selMonitor s fd).2 = 0 ∧ (selRemove s fd).2 = 0 ∧ ∀ x, x ∈ (selRemove s fd).1.fds ↔ x ∈ s.fds ∧ x ≠ fd := by
  refine ⟨rfl, rfl, fun x => ?_⟩
  simp only [selRemove, fdClr, h.mem_erase_iff]
  exact And.comm

example : ({ fds := [3, 4, 5] } : Sel).fds.Nodup ∧ (selRemove { fds := [3, 4, 5] } 4).1.fds = [3, 5] := by decide

/-- **C124**, with `select` and any 64 descriptors: every further one is reported as monitored, and is not. -/
theorem C124_full_refuted (s : Sel) (fd : Int) (h : s.fds.length = 64) (hn : fd ∉ s.fds) :
    (selMonitor s fd).2 = 0 ∧ (selMonitor s fd).1 = s := by
  refine ⟨rfl, ?_⟩
  simp [selMonitor, fdSet, hn, h, fdSetSize]

example : (((List.range 64).map fun i => MuxAct.monitor (i : Nat)).foldl selAct {}).fds.length = 64 ∧
    (64 : Int) ∉ (((List.range 64).map fun i => MuxAct.monitor (i : Nat)).foldl selAct {}).fds := by decide +kernel

/-- **C124**, what holds with `kqueue`: a call that reports success has its effect, and one that reports failure has
none. -/
theorem C124_kqueue_partial (k : Kq) (fd res : Int) :
    (((kqMonitor k fd res).2 = kSuccess → fd ∈ (kqMonitor k fd res).1.fds ∧ ∀ x, x ≠ fd → (x ∈ (kqMonitor k fd res).1.fds ↔ x ∈ k.fds)) ∧
      ((kqMonitor k fd res).2 ≠ kSuccess → (kqMonitor k fd res).1 = k)) ∧
    (k.fds.Nodup → (kqRemove k fd res).2 = kSuccess →
      fd ∉ (kqRemove k fd res).1.fds ∧ ∀ x, x ≠ fd → (x ∈ (kqRemove k fd res).1.fds ↔ x ∈ k.fds)) ∧
      ((kqRemove k fd res).2 ≠ kSuccess → (kqRemove k fd res).1 = k) := by
  have ne : (kSysErr : Int) ≠ kSuccess := by decide
  by_cases hr : res = -1
  · simp only [kqMonitor, kqRemove, hr, if_true, ne, false_imp_iff, not_false_eq_true, true_imp_iff, and_self, imp_true_iff,
      ne_eq]
  · simp only [kqMonitor, kqRemove, hr, if_false, true_imp_iff, ne_eq, not_true_eq_false, false_imp_iff, and_true]
    refine ⟨⟨?_, fun x hx => ?_⟩, fun nd => ⟨?_, fun x hx => ?_⟩⟩
    · by_cases h : fd ∈ k.fds <;> simp [h]
    · by_cases h : fd ∈ k.fds <;> simp [h, hx]
    · exact fun h => (nd.mem_erase_iff.mp h).1 rfl
    · rw [nd.mem_erase_iff]; simp [hx]

example : AtMost 64 [.monitor 3, .monitor 4, .remove 3] := by
  intro l nd h
  have sub : l ⊆ [3, 4] := by
    intro x hx
    have := h x hx
    simpa using this
  have := (List.subperm_of_subset nd sub).length_le
  simp only [List.length_cons, List.length_nil] at this
  omega
example : ([.monitor 3, .monitor 4, .remove 3] : List MuxAct).foldl selAct {} = { fds := [4] } := by decide

/-! ### C125 -/

/-- `fd` is in the set, with `n` others before it, and the set fits. -/
def SelAt (fd : Int) (n : Nat) (s : Sel) : Prop :=
  ∃ pre post, s.fds = pre ++ fd :: post ∧ fd ∉ pre ∧ pre.length = n ∧ s.fds.length ≤ fdSetSize

theorem selAct_at (fd : Int) (a : MuxAct) (ha : a ≠ .remove fd) (n : Nat) (s : Sel) (h : SelAt fd n s) :
    ∃ m, m ≤ n ∧ SelAt fd m (selAct s a) := by
  obtain ⟨pre, post, e, hp, hn, hl⟩ := h
  cases a with
  | stop => exact ⟨n, Nat.le_refl _, pre, post, e, hp, hn, hl⟩
  | monitor x =>
    refine ⟨n, Nat.le_refl _, ?_⟩
    simp only [selAct, selMonitor, fdSet]
    by_cases hm : x ∈ s.fds
    · rw [if_pos hm]; exact ⟨pre, post, e, hp, hn, hl⟩
    · rw [if_neg hm]
      by_cases hr : s.fds.length < fdSetSize
      · rw [if_pos hr]
        refine ⟨pre, post ++ [x], by simp [e], hp, hn, ?_⟩
        simp only [List.length_append, List.length_singleton]
        omega
      · rw [if_neg hr]; exact ⟨pre, post, e, hp, hn, hl⟩
  | remove x =>
    have hx : x ≠ fd := fun h => ha (by rw [h])
    simp only [selAct, selRemove, fdClr]
    have hlen : (s.fds.erase x).length ≤ fdSetSize := Nat.le_trans List.length_erase_le hl
    by_cases hm : x ∈ pre
    · refine ⟨(pre.erase x).length, ?_, pre.erase x, post, ?_, fun h => hp (List.mem_of_mem_erase h), rfl, hlen⟩
      · rw [← hn]; exact List.length_erase_le
      · rw [e, List.erase_append_left _ hm]
    · refine ⟨n, Nat.le_refl _, pre, post.erase x, ?_, hp, hn, hlen⟩
      rw [e, List.erase_append_right _ hm, List.erase_cons_tail (by simpa using fun h => hx h.symm)]

theorem selActs_at (fd : Int) : ∀ (acts : List MuxAct) (n : Nat) (s : Sel), MuxAct.remove fd ∉ acts → SelAt fd n s →
    ∃ m, m ≤ n ∧ SelAt fd m (acts.foldl selAct s) := by
  intro acts
  induction acts with
  | nil => intro n s _ h; exact ⟨n, Nat.le_refl _, h⟩
  | cons a as ih =>
    intro n s ha h
    obtain ⟨m, h1, h2⟩ := selAct_at fd a (fun e => ha (by simp [e])) n s h
    obtain ⟨m', h3, h4⟩ := ih m _ (fun h => ha (List.mem_cons_of_mem _ h)) h2
    exact ⟨m', by omega, h4⟩

theorem selActs_loop : ∀ (acts : List MuxAct) (s : Sel), MuxAct.stop ∉ acts → (acts.foldl selAct s).loop = s.loop := by
  intro acts
  induction acts with
  | nil => intro s _; rfl
  | cons a as ih =>
    intro s h
    rw [List.foldl_cons, ih _ (fun h' => h (List.mem_cons_of_mem _ h'))]
    cases a with
    | stop => simp at h
    | monitor x => rfl
    | remove x => rfl

theorem selScan_loop (r : SelRound) (event : List Int) (hr : ∀ x, MuxAct.stop ∉ r.acts x (selEvent (r.peek x))) : ∀ (fuel i : Nat) (s : Sel),
    (selScan r event fuel i s).1.loop = s.loop := by
  intro fuel
  induction fuel with
  | zero => intro i s; rfl
  | succ fuel ih =>
    intro i s
    unfold selScan
    cases s.fds[i]? with
    | none => rfl
    | some x =>
      simp only
      by_cases hx : x ∈ event
      · rw [if_pos hx]
        simp only
        rw [ih, selActs_loop _ _ (hr x)]
      · rw [if_neg hx]; exact ih _ _

/-- After the scan has passed `fd`, it only moves up. -/
theorem selScan_after (r : SelRound) (fd : Int) (hr : ∀ x, MuxAct.remove fd ∉ r.acts x (selEvent (r.peek x))) (event : List Int) :
    ∀ (fuel i n : Nat) (s : Sel), SelAt fd n s → ∃ m, m ≤ n ∧ SelAt fd m (selScan r event fuel i s).1 := by
  intro fuel
  induction fuel with
  | zero => intro i n s h; exact ⟨n, Nat.le_refl _, h⟩
  | succ fuel ih =>
    intro i n s h
    unfold selScan
    cases s.fds[i]? with
    | none => exact ⟨n, Nat.le_refl _, h⟩
    | some x =>
      simp only
      by_cases hx : x ∈ event
      · rw [if_pos hx]
        obtain ⟨m, h1, h2⟩ := selActs_at fd _ n s (hr x) h
        obtain ⟨m', h3, h4⟩ := ih (i + 1) m _ h2
        exact ⟨m', by omega, h4⟩
      · rw [if_neg hx]; exact ih _ _ _ h

/-- While the scan is before `fd`: either it will be reported in this round, or it ends up with fewer before it. -/
theorem selScan_before (r : SelRound) (fd : Int) (hr : ∀ x, MuxAct.remove fd ∉ r.acts x (selEvent (r.peek x))) (event : List Int)
    (he : fd ∈ event) : ∀ (fuel i n : Nat) (s : Sel), SelAt fd n s → i ≤ n → fdSetSize ≤ fuel + i →
    (∃ ev, (fd, ev) ∈ (selScan r event fuel i s).2) ∨ ∃ m, m < n ∧ SelAt fd m (selScan r event fuel i s).1 := by
  intro fuel
  induction fuel with
  | zero =>
    intro i n s h hi hf
    obtain ⟨pre, post, e, _, hn, hl⟩ := h
    have : s.fds.length = pre.length + (post.length + 1) := by rw [e]; simp
    omega
  | succ fuel ih =>
    intro i n s h hi hf
    have h0 := h
    obtain ⟨pre, post, e, hp, hn, hl⟩ := h
    rcases Nat.lt_or_ge i n with hlt | hge
    · obtain ⟨x, hx⟩ : ∃ x, s.fds[i]? = some x := by
        have : i < s.fds.length := by rw [e]; simp; omega
        exact ⟨_, List.getElem?_eq_getElem this⟩
      unfold selScan
      rw [hx]
      simp only
      by_cases hm : x ∈ event
      · rw [if_pos hm]
        obtain ⟨m, h1, h2⟩ := selActs_at fd _ n s (hr x) h0
        rcases Nat.lt_or_ge m (i + 1) with hs | hs
        · obtain ⟨m', h3, h4⟩ := selScan_after r fd hr event fuel (i + 1) m _ h2
          exact .inr ⟨m', by omega, h4⟩
        · rcases ih (i + 1) m _ h2 hs (by omega) with ⟨ev, h3⟩ | ⟨m', h3, h4⟩
          · exact .inl ⟨ev, List.mem_cons_of_mem _ h3⟩
          · exact .inr ⟨m', by omega, h4⟩
      · rw [if_neg hm]
        exact ih (i + 1) n s h0 (by omega) (by omega)
    · have : i = n := by omega
      subst this
      have hx : s.fds[i]? = some fd := by rw [e, ← hn]; simp
      unfold selScan
      rw [hx]
      simp only
      rw [if_pos he]
      exact .inl ⟨_, List.mem_cons_self⟩

/-- **C125**, what holds with `select`: a watched descriptor that stays ready, and that no callback removes, is reported
within as many rounds as there are descriptors before it, plus one.  Missing: in the very round, see the refutation. -/
theorem C125_select_partial (fd : Int) : ∀ (n : Nat) (rounds : List SelRound) (s : Sel), SelAt fd n s → s.loop = true →
    n < rounds.length → (∀ r ∈ rounds, KeepsReady fd r) → ∃ t ∈ (selLoop rounds s).2.1, ∃ ev, (fd, ev) ∈ t := by
  intro n
  induction n using Nat.strongRecOn with
  | _ n ih =>
    intro rounds s hs hl hn hr
    cases rounds with
    | nil => simp at hn
    | cons r rounds =>
      obtain ⟨hk, ha⟩ := hr r (by simp)
      have hfd : fd ∈ s.fds := by obtain ⟨pre, post, e, _⟩ := hs; rw [e]; simp
      have q : selLoop (r :: rounds) s = ((selLoop rounds (selRound r s).1).1,
          (selRound r s).2 :: (selLoop rounds (selRound r s).1).2.1, (selLoop rounds (selRound r s).1).2.2) := by
        conv => lhs; unfold selLoop
        rw [if_neg (by simp [hl]), if_neg (List.ne_nil_of_mem hfd)]
      rw [q]
      rcases selScan_before r fd (fun x => (ha x).1) (s.fds.filter r.ready) (by simp [hfd, hk]) fdSetSize 0 n s hs
        (by omega) (by omega) with ⟨ev, h⟩ | ⟨m, h1, h2⟩
      · exact ⟨_, List.mem_cons_self, ev, h⟩
      · have hl' : (selRound r s).1.loop = true := by
          unfold selRound
          rw [selScan_loop r _ (fun x => (ha x).2), hl]
        simp only [List.length_cons] at hn
        obtain ⟨t, h3, h4⟩ := ih m h1 rounds (selRound r s).1 h2 hl' (by omega)
          (fun r' h => hr r' (List.mem_cons_of_mem _ h))
        exact ⟨t, List.mem_cons_of_mem _ h3, h4⟩

/-- Two connections are ready; the callback of the first removes it (its peer has left). -/
def skipRound : SelRound :=
  { ready := fun _ => true, peek := fun fd => if fd = 4 then 0 else 1, acts := fun fd ev => if ev = .leave then [.remove fd] else [] }

/-- **C125**, refuted as stated: with `select`, when a callback removes its connection, the next one in the set is
skipped in this round although it is ready. -/
theorem C125_select_refuted : ¬ ∀ (r : SelRound) (s : Sel) (fd : Int), fd ∈ s.fds → r.ready fd = true →
    ∃ ev, (fd, ev) ∈ (selRound r s).2 := by
  intro h
  obtain ⟨ev, h⟩ := h skipRound { fds := [3, 4, 5] } 5 (by decide) rfl
  have e : (selRound skipRound { fds := [3, 4, 5] }).2 = [(3, .read), (4, .leave)] := by decide +kernel
  rw [e] at h
  simp at h

/-- The skipped connection is reported in the next round. -/
example : KeepsReady 5 skipRound ∧ SelAt 5 2 { fds := [3, 4, 5] } ∧
    (selLoop [skipRound, skipRound, skipRound] { fds := [3, 4, 5] }).2.1.map (·.map (·.1)) = [[3, 4], [3, 5], [3, 5]] := by
  refine ⟨⟨rfl, fun x => ?_⟩, ⟨[3, 4], [], rfl, by decide, rfl, by decide⟩, by decide +kernel⟩
  simp only [skipRound, selEvent]
  by_cases h : x = 4
  · subst h; decide
  · simp [h]

/-- **C125**, what holds with `kqueue` (and with epoll, see `ioBatch`): every event that the kernel reports and that says
leave, error or read is passed on, in order, whatever the callbacks do. -/
theorem C125_kqueue_partial (acts : Int → SrvEvent → List MuxAct) : ∀ (evs : List (Int × KqBits)) (k : Kq),
    (kqBatch acts evs k).2 = evs.filterMap fun x => (kqEvent x.2).map fun ev => (x.1, ev) := by
  intro evs
  induction evs with
  | nil => intro k; rfl
  | cons x evs ih =>
    obtain ⟨fd, b⟩ := x
    intro k
    unfold kqBatch
    cases h : kqEvent b with
    | none => simp only [List.filterMap_cons, h, Option.map_none]; exact ih k
    | some ev => simp only [List.filterMap_cons, h, Option.map_some, ih]

/-! ### C126 -/

/-- **C126**, what holds with epoll: waits that are interrupted by a signal change nothing: the server and the way the
loop ends are those of the run without them, and so is all that happens besides the failed waits. -/
theorem C126_epoll_partial : ∀ (rounds : List Round) (s s' : TcpSrv) (t : List NetEv) (e : LoopEnd),
    ioLoop s rounds = .ok (s', t, e) →
    ∃ t', ioLoop s (rounds.filter fun r => !interrupted r) = .ok (s', t', e) ∧ t'.filter withoutIntr = t.filter withoutIntr := by
  intro rounds
  induction rounds with
  | nil => intro s s' t e h; exact ⟨t, h, rfl⟩
  | cons r rounds ih =>
    intro s s' t e h
    cases hio : s.io with
    | none => simp [ioLoop, hio] at h
    | some ep =>
      by_cases hl : ep.loop = true
      · obtain ⟨res, stopped⟩ := r
        cases res with
        | never =>
          have hf : interrupted ⟨.never, stopped⟩ = false := rfl
          rw [List.filter_cons_of_pos (by simp [hf])]
          simp only [ioLoop, hio, hl, if_true] at h ⊢
          exact ⟨t, h, rfl⟩
        | fail =>
          have hf : interrupted ⟨.fail, stopped⟩ = false := rfl
          rw [List.filter_cons_of_pos (by simp [hf])]
          simp only [ioLoop, hio, hl, if_true] at h ⊢
          exact ⟨t, h, rfl⟩
        | intr =>
          simp only [ioLoop, hio, hl, if_true] at h
          obtain ⟨s1, h1, h⟩ := bind_ok h
          obtain ⟨⟨s2, t2, e2⟩, h2, h⟩ := bind_ok h
          simp only [Except.ok.injEq, Prod.mk.injEq] at h
          obtain ⟨rfl, rfl, rfl⟩ := h
          obtain ⟨t', h3, h4⟩ := ih s1 _ _ _ h2
          cases stopped with
          | false =>
            have hf : interrupted ⟨.intr, false⟩ = true := rfl
            rw [List.filter_cons_of_neg (by simp [hf])]
            simp only [stopIf, Bool.false_eq_true, if_false, Except.ok.injEq] at h1
            subst h1
            exact ⟨t', h3, by rw [h4]; rfl⟩
          | true =>
            have hf : interrupted ⟨.intr, true⟩ = false := rfl
            rw [List.filter_cons_of_pos (by simp [hf])]
            simp only [ioLoop, hio, hl, if_true, h1, h3, bind, Except.bind]
            exact ⟨_, rfl, by simpa [withoutIntr] using h4⟩
        | events evs =>
          have hf : interrupted ⟨.events evs, stopped⟩ = false := rfl
          rw [List.filter_cons_of_pos (by simp [hf])]
          simp only [ioLoop, hio, hl, if_true] at h ⊢
          obtain ⟨⟨s0, t0⟩, h0, h⟩ := bind_ok h
          obtain ⟨s1, h1, h⟩ := bind_ok h
          obtain ⟨⟨s2, t2, e2⟩, h2, h⟩ := bind_ok h
          simp only [Except.ok.injEq, Prod.mk.injEq] at h
          obtain ⟨rfl, rfl, rfl⟩ := h
          obtain ⟨t', h3, h4⟩ := ih s1 _ _ _ h2
          simp only [h0, h1, h3, bind, Except.bind]
          exact ⟨_, rfl, by simp [h4, List.filter_cons]⟩
      · have e1 : ∀ rs, ioLoop s rs = .ok (s, [], .returned kSuccess) := by
          intro rs
          cases rs with
          | nil => simp [ioLoop, hio, hl]
          | cons a as => simp [ioLoop, hio, hl]
        rw [e1] at h ⊢
        exact ⟨t, h, rfl⟩

/-- **C126**, refuted as stated: with `kqueue` a signal ends the loop with an error. -/
theorem C126_kqueue_refuted : ¬ ∀ (ws : List KqWait) (k : Kq), (kqLoop (.intr :: ws) k).2.2 = (kqLoop ws k).2.2 := fun h =>
  absurd (h [] {}) (by decide)

example : (do
    let r ← ioLoop { io := some { fd := { fd := 5, status := .init } } } [⟨.intr, false⟩, ⟨.intr, false⟩, ⟨.fail, false⟩]
    .ok (r.2.1, r.2.2) : Out (List NetEv × LoopEnd)) =
    .ok ([.waitFailed 5, .waitFailed 5, .waitFailed 5], .returned kSysErr) := by decide +kernel

/-! ### C127 -/

theorem selScan_events (r : SelRound) (event : List Int) : ∀ (fuel i : Nat) (s : Sel) (x : Int × SrvEvent),
    x ∈ (selScan r event fuel i s).2 → x.1 ∈ event ∧ x.2 = selEvent (r.peek x.1) := by
  intro fuel
  induction fuel with
  | zero => intro i s x h; simp [selScan] at h
  | succ fuel ih =>
    intro i s x h
    unfold selScan at h
    cases hx : s.fds[i]? with
    | none => simp [hx] at h
    | some y =>
      rw [hx] at h
      simp only at h
      by_cases hy : y ∈ event
      · rw [if_pos hy] at h
        simp only [List.mem_cons] at h
        rcases h with h | h
        · rw [h]; exact ⟨hy, rfl⟩
        · exact ih _ _ _ h
      · rw [if_neg hy] at h; exact ih _ _ _ h

/-- **C127**, what holds with `select`: only ready, watched descriptors are reported; `leave` is reported only when there
is nothing left to read, and `read` exactly when there is something. -/
theorem C127_select_partial (r : SelRound) (s : Sel) (fd : Int) (ev : SrvEvent) (h : (fd, ev) ∈ (selRound r s).2) :
    fd ∈ s.fds ∧ r.ready fd = true ∧ (ev = .leave ↔ r.peek fd = 0) ∧ (ev = .read ↔ 0 < r.peek fd) ∧
      (ev = .error ↔ r.peek fd < 0) := by
  have h' := selScan_events r _ _ _ _ _ h
  simp only [List.mem_filter] at h'
  refine ⟨h'.1.1, h'.1.2, ?_⟩
  rw [h'.2]
  simp only [selEvent]
  by_cases a : r.peek fd = 0
  · simp [a]
  · by_cases b : r.peek fd > 0
    · simp only [a, b, if_false, if_true, reduceCtorEq, true_and, false_iff]
      omega
    · simp only [a, b, if_false, reduceCtorEq, true_and, false_iff, true_iff]
      omega

/-- **C127**, refuted as stated: with `kqueue` a connection that has unread data and whose peer has closed is reported as
left, and the server closes it. -/
theorem C127_kqueue_refuted : ¬ ∀ b : KqBits, b.read = true → b.error = false → kqEvent b = some .read := fun h =>
  absurd (h { eof := true } rfl rfl) (by decide)

/-- **C127**, what holds with `kqueue`: while the peer has not closed, an event is reported as what it is. -/
theorem C127_kqueue_partial (b : KqBits) (h : b.eof = false) :
    kqEvent b = if b.error then some .error else if b.read then some .read else none := by
  simp [kqEvent, h]

/-! ### C85 -/

theorem selAct_flag (s : Sel) (a : MuxAct) : (selAct s a).loop = (s.loop && decide (a ≠ .stop)) := by
  cases a <;> simp [selAct, selMonitor, selRemove]

theorem selActs_flag (acts : List MuxAct) : ∀ s : Sel, (acts.foldl selAct s).loop = (s.loop && decide (MuxAct.stop ∉ acts)) := by
  induction acts with
  | nil => intro s; simp
  | cons a as ih =>
    intro s
    rw [List.foldl_cons, ih, selAct_flag]
    by_cases h : a = .stop
    · simp [h]
    · have h' : ¬ MuxAct.stop = a := fun e => h e.symm
      simp [h, h']

theorem selScan_flag (r : SelRound) (event : List Int) : ∀ (fuel i : Nat) (s : Sel),
    (selScan r event fuel i s).1.loop =
      (s.loop && decide (∀ p ∈ (selScan r event fuel i s).2, MuxAct.stop ∉ r.acts p.1 p.2)) := by
  intro fuel
  induction fuel with
  | zero => intro i s; simp [selScan]
  | succ fuel ih =>
    intro i s
    unfold selScan
    cases hx : s.fds[i]? with
    | none => simp
    | some y =>
      simp only
      by_cases hy : y ∈ event
      · simp only [if_pos hy]
        rw [ih, selActs_flag]
        simp only [List.forall_mem_cons, Bool.decide_and, Bool.and_assoc]
      · simp only [if_neg hy]
        rw [ih]

/-- **C85**, what holds with `select`: the round in which a callback calls `Stop` is the last one, whatever would be
reported later; the loop returns 0 then, and while nothing was stopped it does not return 0. -/
theorem C85_select_partial (rs : List SelRound) : ∀ s : Sel, s.loop = true →
    (∀ (i : Nat) (r : SelRound) (t : List (Int × SrvEvent)), rs[i]? = some r → (selLoop rs s).2.1[i]? = some t →
      (∃ p ∈ t, MuxAct.stop ∈ r.acts p.1 p.2) → i + 1 = (selLoop rs s).2.1.length ∧ (selLoop rs s).2.2 = .returned 0) ∧
    ((selLoop rs s).2.2 = .returned 0 → ∃ (i : Nat) (r : SelRound) (t : List (Int × SrvEvent)), rs[i]? = some r ∧
      (selLoop rs s).2.1[i]? = some t ∧ ∃ p ∈ t, MuxAct.stop ∈ r.acts p.1 p.2) := by
  induction rs with
  | nil =>
    intro s hs
    refine ⟨fun i r t h => by simp at h, fun h => ?_⟩
    unfold selLoop at h
    simp only [hs, Bool.not_true, Bool.false_eq_true, if_false] at h
    split at h <;> simp at h
  | cons r rs ih =>
    intro s hs
    by_cases he : s.fds = []
    · have : selLoop (r :: rs) s = (s, [], .returned (-1)) := by
        unfold selLoop; simp [hs, he]
      rw [this]
      refine ⟨fun i r t _ h => by simp at h, fun h => by simp at h⟩
    · have e : selLoop (r :: rs) s = ((selLoop rs (selRound r s).1).1, (selRound r s).2 :: (selLoop rs (selRound r s).1).2.1,
          (selLoop rs (selRound r s).1).2.2) := by
        conv_lhs => unfold selLoop
        simp [hs, he]
      have flag := selScan_flag r (s.fds.filter r.ready) fdSetSize 0 s
      rw [hs, Bool.true_and] at flag
      have flag : (selRound r s).1.loop = decide (∀ p ∈ (selRound r s).2, MuxAct.stop ∉ r.acts p.1 p.2) := flag
      rw [e]
      cases hf : (selRound r s).1.loop with
      | false =>
        have stop : selLoop rs (selRound r s).1 = ((selRound r s).1, [], .returned 0) := by
          unfold selLoop; simp [hf]
        rw [stop]
        rw [hf] at flag
        have flag := of_decide_eq_false flag.symm
        refine ⟨fun i r' t h1 h2 h3 => ?_, fun _ => ?_⟩
        · cases i with
          | zero => exact ⟨rfl, rfl⟩
          | succ i => simp at h2
        · refine ⟨0, r, _, rfl, rfl, ?_⟩
          exact Classical.byContradiction fun hc => flag fun p hp hs => hc ⟨p, hp, hs⟩
      | true =>
        obtain ⟨i1, i2⟩ := ih _ hf
        rw [hf] at flag
        have flag := of_decide_eq_true flag.symm
        refine ⟨fun i r' t h1 h2 h3 => ?_, fun h => ?_⟩
        · cases i with
          | zero =>
            simp only [List.getElem?_cons_zero, Option.some.injEq] at h1 h2
            subst h1; subst h2
            obtain ⟨p, hp, hs⟩ := h3
            exact absurd hs (flag p hp)
          | succ i =>
            simp only [List.getElem?_cons_succ] at h1 h2
            obtain ⟨j1, j2⟩ := i1 i r' t h1 h2 h3
            exact ⟨by simp [← j1], j2⟩
        · obtain ⟨i, r', t, a1, a2, a3⟩ := i2 h
          exact ⟨i + 1, r', t, by simpa using a1, by simpa using a2, a3⟩

theorem kqAct_flag (k : Kq) (a : MuxAct) : (kqAct k a).loop = (k.loop && decide (a ≠ .stop)) := by
  cases a <;> simp [kqAct, kqMonitor, kqRemove]

theorem kqActs_flag (acts : List MuxAct) : ∀ k : Kq, (acts.foldl kqAct k).loop = (k.loop && decide (MuxAct.stop ∉ acts)) := by
  induction acts with
  | nil => intro k; simp
  | cons a as ih =>
    intro k
    rw [List.foldl_cons, ih, kqAct_flag]
    by_cases h : a = .stop
    · simp [h]
    · have h' : ¬ MuxAct.stop = a := fun e => h e.symm
      simp [h, h']

theorem kqBatch_flag (acts : Int → SrvEvent → List MuxAct) (evs : List (Int × KqBits)) : ∀ k : Kq,
    (kqBatch acts evs k).1.loop = (k.loop && decide (∀ p ∈ (kqBatch acts evs k).2, MuxAct.stop ∉ acts p.1 p.2)) := by
  induction evs with
  | nil => intro k; simp [kqBatch]
  | cons e evs ih =>
    obtain ⟨fd, b⟩ := e
    intro k
    unfold kqBatch
    cases hb : kqEvent b with
    | none => simp only; rw [ih]
    | some ev =>
      simp only
      rw [ih, kqActs_flag]
      simp only [List.forall_mem_cons, Bool.decide_and, Bool.and_assoc]

/-- **C85**, what holds with `kqueue`: the round in which a callback calls `Stop` is the last one, whatever would be
reported later; the loop returns 0 then, and while nothing was stopped it does not return 0. -/
theorem C85_kqueue_partial (ws : List KqWait) : ∀ k : Kq, k.loop = true →
    (∀ (i : Nat) evs acts (t : List (Int × SrvEvent)), ws[i]? = some (.events evs acts) → (kqLoop ws k).2.1[i]? = some t →
      (∃ p ∈ t, MuxAct.stop ∈ acts p.1 p.2) → i + 1 = (kqLoop ws k).2.1.length ∧ (kqLoop ws k).2.2 = .returned 0) ∧
    ((kqLoop ws k).2.2 = .returned 0 → ∃ (i : Nat) (evs : _) (acts : _) (t : List (Int × SrvEvent)),
      ws[i]? = some (.events evs acts) ∧ (kqLoop ws k).2.1[i]? = some t ∧ ∃ p ∈ t, MuxAct.stop ∈ acts p.1 p.2) := by
  induction ws with
  | nil =>
    intro k hk
    refine ⟨fun i evs acts t h => by simp at h, fun h => ?_⟩
    unfold kqLoop at h
    simp [hk] at h
  | cons w ws ih =>
    intro k hk
    have bad : ∀ x : KqWait, x = .intr ∨ x = .fail → kqLoop (x :: ws) k = (k, [], .returned kSysErr) := by
      intro x hx
      unfold kqLoop
      rcases hx with rfl | rfl <;> simp [hk]
    cases w with
    | intr =>
      rw [bad _ (Or.inl rfl)]
      exact ⟨fun i evs acts t _ h => by simp at h, fun h => by simp [kSysErr] at h⟩
    | fail =>
      rw [bad _ (Or.inr rfl)]
      exact ⟨fun i evs acts t _ h => by simp at h, fun h => by simp [kSysErr] at h⟩
    | events evs acts =>
      have e : kqLoop (.events evs acts :: ws) k = ((kqLoop ws (kqBatch acts evs k).1).1,
          (kqBatch acts evs k).2 :: (kqLoop ws (kqBatch acts evs k).1).2.1, (kqLoop ws (kqBatch acts evs k).1).2.2) := by
        conv_lhs => unfold kqLoop
        simp [hk]
      have flag := kqBatch_flag acts evs k
      rw [hk, Bool.true_and] at flag
      rw [e]
      cases hf : (kqBatch acts evs k).1.loop with
      | false =>
        have stop : kqLoop ws (kqBatch acts evs k).1 = ((kqBatch acts evs k).1, [], .returned 0) := by
          unfold kqLoop; simp [hf]
        rw [stop]
        rw [hf] at flag
        have flag := of_decide_eq_false flag.symm
        refine ⟨fun i ev ac t h1 h2 h3 => ?_, fun _ => ?_⟩
        · cases i with
          | zero => exact ⟨rfl, rfl⟩
          | succ i => simp at h2
        · refine ⟨0, evs, acts, _, rfl, rfl, ?_⟩
          exact Classical.byContradiction fun hc => flag fun p hp hs => hc ⟨p, hp, hs⟩
      | true =>
        obtain ⟨i1, i2⟩ := ih _ hf
        rw [hf] at flag
        have flag := of_decide_eq_true flag.symm
        refine ⟨fun i ev ac t h1 h2 h3 => ?_, fun h => ?_⟩
        · cases i with
          | zero =>
            simp only [List.getElem?_cons_zero, Option.some.injEq, KqWait.events.injEq] at h1 h2
            obtain ⟨rfl, rfl⟩ := h1; subst h2
            obtain ⟨p, hp, hs⟩ := h3
            exact absurd hs (flag p hp)
          | succ i =>
            simp only [List.getElem?_cons_succ] at h1 h2
            obtain ⟨j1, j2⟩ := i1 i ev ac t h1 h2 h3
            exact ⟨by simp [← j1], j2⟩
        · obtain ⟨i, ev, ac, t, a1, a2, a3⟩ := i2 h
          exact ⟨i + 1, ev, ac, t, by simpa using a1, by simpa using a2, a3⟩

/-- A callback that stops the loop when the peer of descriptor 4 has closed. -/
def stopOn4 (fd : Int) (_ : SrvEvent) : List MuxAct := if fd = 4 then [.stop] else []

example : (selLoop [{ ready := fun fd => fd = 3, acts := stopOn4 }, { ready := fun _ => true, acts := stopOn4 }, { ready := fun _ => true }]
    { fds := [3, 4] }).2 = ([[(3, .read)], [(3, .read), (4, .read)]], .returned 0) := by decide +kernel
example : (kqLoop [.events [(3, {})] stopOn4, .events [(4, {}), (3, {})] stopOn4, .events [(3, {})] stopOn4] { fds := [3, 4] }).2 =
    ([[(3, .read)], [(4, .read), (3, .read)]], .returned 0) := by decide +kernel

end Cppnet
