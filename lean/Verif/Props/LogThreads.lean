import Verif.Spec.LogThreads

/-!
# C163, C164: loggers in several threads
-/

namespace Cppnet
open Spec

/-! ### C163: the lines on the console -/

section Lines
variable {β : Type}

theorem Interleaved.perm {ts : List (List β)} {out : List β} (h : Interleaved ts out) : ts.flatten.Perm out := by
  induction h with
  | done h =>
    rw [List.flatten_eq_nil_iff.2 h]
  | @step ts out x rest i h h' ih =>
    have hi : i < ts.length := by
      rcases Nat.lt_or_ge i ts.length with h1 | h1
      · exact h1
      · rw [List.getElem?_eq_none h1] at h; cases h
    have e : ts = ts.take i ++ (x :: rest) :: ts.drop (i + 1) := by
      rw [List.getElem?_eq_getElem hi, Option.some.injEq] at h
      rw [← h, ← List.drop_eq_getElem_cons hi, List.take_append_drop]
    have e2 : ts.set i rest = ts.take i ++ rest :: ts.drop (i + 1) := by
      rw [List.set_eq_take_append_cons_drop, if_pos hi]
    rw [e2] at ih
    rw [e]
    simp only [List.flatten_append, List.flatten_cons, List.cons_append] at ih ⊢
    exact List.perm_middle.trans (ih.cons x)

theorem Interleaved.sublist {ts : List (List β)} {out : List β} (h : Interleaved ts out) :
    ∀ (i : Nat) (t : List β), ts[i]? = some t → t.Sublist out := by
  induction h with
  | done h =>
    intro i t ht
    rw [h t (List.mem_of_getElem? ht)]
    exact List.Sublist.refl _
  | @step ts out x rest i h h' ih =>
    intro j t ht
    by_cases hji : j = i
    · subst hji
      rw [h] at ht
      cases ht
      have hi : j < ts.length := by
        rcases Nat.lt_or_ge j ts.length with h1 | h1
        · exact h1
        · rw [List.getElem?_eq_none h1] at h; cases h
      exact (ih j rest (by rw [List.getElem?_set_self hi])).cons_cons x
    · exact (ih j t (by rw [List.getElem?_set_ne (fun h => hji h.symm)]; exact ht)).cons x

theorem Interleaved.single {l out : List β} (h : Interleaved [l] out) : out = l := by
  generalize e : [l] = ts at h
  induction h generalizing l with
  | done h => subst e; exact (h l (by simp)).symm
  | @step ts out x rest i h h' ih =>
    subst e
    cases i with
    | zero =>
      simp only [List.getElem?_cons_zero, Option.some.injEq] at h
      rw [h, ih rfl]
    | succ i => simp at h

end Lines

/-- The operations of a call write what the call is said to write. -/
theorem stdOps_text (level lvl : Level) (msg : Str) :
    onConsole false (stdOps level lvl msg) = (stdLog level lvl msg).flatMap (fun | .cout t => t | _ => []) ∧
    onConsole true (stdOps level lvl msg) = (stdLog level lvl msg).flatMap (fun | .cerr t => t | _ => []) := by
  cases lvl <;> simp only [stdOps, stdLog] <;> (try split) <;> simp [onConsole]

theorem onConsole_append (err : Bool) (a b : List OutOp) : onConsole err (a ++ b) = onConsole err a ++ onConsole err b := by
  simp [onConsole]

/-- **C163**, one thread: the console shows exactly the lines of its calls, one after the other. -/
theorem C163_one_thread (calls : List (Level × Level × Str)) (out : List OutOp) (h : Interleaved [threadOps calls] out) :
    onConsole false out = calls.flatMap (fun c => (stdLog c.1 c.2.1 c.2.2).flatMap (fun | .cout t => t | _ => [])) ∧
    onConsole true out = calls.flatMap (fun c => (stdLog c.1 c.2.1 c.2.2).flatMap (fun | .cerr t => t | _ => [])) := by
  rw [h.single]
  clear h
  induction calls with
  | nil => exact ⟨rfl, rfl⟩
  | cons c cs ih =>
    have e : threadOps (c :: cs) = stdOps c.1 c.2.1 c.2.2 ++ threadOps cs := rfl
    rw [e, onConsole_append, onConsole_append, ih.1, ih.2, (stdOps_text _ _ _).1, (stdOps_text _ _ _).2]
    exact ⟨rfl, rfl⟩

theorem onConsole_count (x : UInt8) (err : Bool) {a b : List OutOp} (h : a.Perm b) : (onConsole err a).count x = (onConsole err b).count x := by
  have h1 : ((a.filter fun o => o.err == err).map (·.text)).flatten.Perm ((b.filter fun o => o.err == err).map (·.text)).flatten :=
    ((h.filter _).map _).flatten
  exact h1.count_eq x

/-- **C163**, what holds for several threads: nothing is lost or invented.  Every thread's pieces are on the console in its own order,
and each character is there as often as all the lines together contain it, so that in particular there are as many
ends of lines.  Missing: that the pieces of one line stay together, see the refutation. -/
theorem C163_pieces_partial (threads : List (List (Level × Level × Str))) (out : List OutOp)
    (h : Interleaved (threads.map threadOps) out) :
    (∀ (i : Nat) calls, threads[i]? = some calls → (threadOps calls).Sublist out) ∧
    ∀ x : UInt8,
      (onConsole false out).count x = (threads.flatten.flatMap fun c => (stdLog c.1 c.2.1 c.2.2).flatMap (fun | .cout t => t | _ => [])).count x ∧
      (onConsole true out).count x = (threads.flatten.flatMap fun c => (stdLog c.1 c.2.1 c.2.2).flatMap (fun | .cerr t => t | _ => [])).count x := by
  refine ⟨fun i calls hi => h.sublist i _ (by simp [hi]), fun x => ?_⟩
  have e : (threads.map threadOps).flatten = threadOps threads.flatten := by
    clear h
    induction threads with
    | nil => rfl
    | cons t ts ih => simp [threadOps] at ih ⊢; exact ih
  have h1 := h.perm
  rw [e] at h1
  have self : Interleaved [threadOps threads.flatten] (threadOps threads.flatten) := by
    generalize threadOps threads.flatten = l
    induction l with
    | nil => exact .done (by simp)
    | cons a l ih => exact .step 0 rfl ih
  have h2 := C163_one_thread threads.flatten _ self
  exact ⟨by rw [← onConsole_count x false h1, h2.1], by rw [← onConsole_count x true h1, h2.2]⟩

/-- **C163**, refuted: two threads that log one line each, at the same time, may leave two tags on one line. -/
theorem C163_refuted (m1 m2 : Str) :
    ∃ out, Interleaved ([[(Level.debug, Level.info, m1)], [(Level.debug, Level.info, m2)]].map threadOps) out ∧
      onConsole false out = b!"[INFO]:[INFO]:" ++ m1 ++ m2 ++ b!"\n\n" := by
  refine ⟨_, .step 0 rfl (.step 1 rfl (.step 0 rfl (.step 1 rfl (.step 0 rfl (.step 1 rfl (.done ?_)))))), ?_⟩
  · simp
  · simp [onConsole]

example : Interleaved ([[(Level.debug, Level.info, b!"a"), (Level.warn, Level.info, b!"b")], [(Level.debug, Level.error, b!"c")]].map threadOps)
    [⟨true, b!"[ERROR]:"⟩, ⟨false, b!"[INFO]:"⟩, ⟨true, b!"c"⟩, ⟨true, b!"\n"⟩, ⟨false, b!"a"⟩, ⟨false, b!"\n"⟩] :=
  .step 1 rfl (.step 0 rfl (.step 1 rfl (.step 1 rfl (.step 0 rfl (.step 0 rfl (.done (by decide +kernel)))))))

/-! ### C164: the time stamps -/

section Stamp
variable {τ : Type} {loc : τ → Nat → Nat}

theorem Stamps.at_self (s : Stamps τ) (i : Nat) (p : StampPc τ) : (s.at i p).pcs i = p := by simp [Stamps.at]
theorem Stamps.at_ne (s : Stamps τ) {i j : Nat} (p : StampPc τ) (h : j ≠ i) : (s.at i p).pcs j = s.pcs j := by simp [Stamps.at, h]

/-- What thread `i`, having read `now`, has done so far. -/
def StampInv (loc : τ → Nat → Nat) (now : τ) (s : Stamps τ) : StampPc τ → Prop
  | .idle => True
  | .fill n k => n = now ∧ k ≤ 6 ∧ ∀ m < k, s.tm m = loc now m
  | .print k => k ≤ 6 ∧ (∀ m < 6, s.tm m = loc now m) ∧ ∀ m < k, s.buf m = loc now m
  | .copy got => got.length ≤ 6 ∧ (∀ m < 6, s.buf m = loc now m) ∧ ∀ m < got.length, got[m]? = some (loc now m)

theorem lastNow_append (i : Nat) (a b : List (StampEv τ)) :
    lastNow i (a ++ b) = match lastNow i b with
      | some t => some t
      | none => lastNow i a := by
  induction a with
  | nil => simp only [List.nil_append, lastNow]; split <;> simp_all
  | cons e a ih =>
    simp only [List.cons_append, lastNow, ih]
    cases lastNow i b with
    | some t => rfl
    | none => rfl

theorem lastNow_none {i : Nat} {b : List (StampEv τ)} (h : ∀ n, .call i n ∉ b) : lastNow i b = none := by
  induction b with
  | nil => rfl
  | cons e b ih =>
    have := ih fun n hn => h n (List.mem_cons_of_mem _ hn)
    simp only [lastNow, this]
    cases e with
    | call j now =>
      simp only
      split
      · subst_vars; exact absurd (List.mem_cons_self ..) (h now)
      · rfl
    | _ => rfl

theorem fields_eq {now : τ} {got : List Nat} (h1 : got.length = 6) (h2 : ∀ m < got.length, got[m]? = some (loc now m)) :
    got = fieldsOf loc now := by
  apply List.ext_getElem?
  intro m
  rcases Nat.lt_or_ge m 6 with h | h
  · rw [h2 m (by omega)]
    rcases m with _ | _ | _ | _ | _ | _ | m
    all_goals first | rfl | omega
  · rw [List.getElem?_eq_none (by omega), List.getElem?_eq_none (by simp [fieldsOf]; omega)]

theorem oneAtATime_prefix {tr : List (StampEv τ)} {e : StampEv τ} (h : OneAtATime (tr ++ [e])) : OneAtATime tr := by
  intro a i now b e' c he hb
  exact h a i now b e' (c ++ [e]) (by rw [he]; simp) hb

/-- The thread that is inside, if there is one. -/
def Inside (loc : τ → Nat → Nat) (tr : List (StampEv τ)) (s : Stamps τ) : Prop :=
  ∀ i, s.pcs i = .idle ∨ ∃ a now b, tr = a ++ .call i now :: b ∧ (∀ g, .ret i g ∉ b) ∧ (∀ n, .call i n ∉ b) ∧ StampInv loc now s (s.pcs i)

theorem inside_run {tr : List (StampEv τ)} {s : Stamps τ} (h : StampRun loc tr s) (ho : OneAtATime tr) : Inside loc tr s := by
  induction h with
  | start => exact fun i => .inl rfl
  | @step tr s e s' h h' ih =>
    replace ih := ih (oneAtATime_prefix ho)
    -- a thread that is inside is the one that moves
    have only : ∀ j, s.pcs j ≠ .idle → stampWho e = j := by
      intro j hj
      rcases ih j with h1 | ⟨a, now, b, e1, e2, _, _⟩
      · exact absurd h1 hj
      · exact ho a j now b e [] (by rw [e1]) e2
    -- a step of thread `i` inside
    have move : ∀ (i : Nat) (p : StampPc τ), s.pcs i ≠ .idle → s'.pcs = (s.at i p).pcs → e = .tau i →
        (∀ now, StampInv loc now s (s.pcs i) → StampInv loc now s' p) → Inside loc (tr ++ [e]) s' := by
      intro i p hne hs' he hinv j
      rw [hs']
      by_cases hj : j = i
      · subst hj
        right
        rcases ih j with h1 | ⟨a, now, b, e1, e2, e3, e4⟩
        · exact absurd h1 hne
        · refine ⟨a, now, b ++ [e], by rw [e1]; simp, fun g hg => ?_, fun n hn => ?_, ?_⟩
          · rcases List.mem_append.1 hg with h | h
            · exact e2 g h
            · rw [he] at h; simp at h
          · rcases List.mem_append.1 hn with h | h
            · exact e3 n h
            · rw [he] at h; simp at h
          · rw [Stamps.at_self]; exact hinv now e4
      · left
        rw [Stamps.at_ne _ _ hj]
        by_cases h0 : s.pcs j = .idle
        · exact h0
        · have := only j h0
          have := only i hne
          omega
    cases h' with
    | @call i now hpc =>
      intro j
      by_cases hj : j = i
      · subst hj
        exact .inr ⟨tr, now, [], by simp, by simp, by simp, by rw [Stamps.at_self]; exact ⟨rfl, by omega, fun m hm => by omega⟩⟩
      · left
        rw [Stamps.at_ne _ _ hj]
        by_cases h0 : s.pcs j = .idle
        · exact h0
        · exact absurd (only j h0).symm hj
    | @fill i now k hpc hk =>
      refine move i (.fill now (k + 1)) (by simp [hpc]) rfl rfl fun now' hinv => ?_
      rw [hpc] at hinv
      obtain ⟨rfl, h2, h3⟩ := hinv
      refine ⟨rfl, by omega, fun m hm => ?_⟩
      show (if m = k then loc now k else s.tm m) = _
      split
      · subst_vars; rfl
      · exact h3 m (by omega)
    | @filled i now k hpc hk =>
      refine move i (.print 0) (by simp [hpc]) rfl rfl fun now' hinv => ?_
      rw [hpc] at hinv
      obtain ⟨rfl, h2, h3⟩ := hinv
      exact ⟨by omega, fun m hm => h3 m (by omega), fun m hm => by omega⟩
    | @print i k hpc hk =>
      refine move i (.print (k + 1)) (by simp [hpc]) rfl rfl fun now' hinv => ?_
      rw [hpc] at hinv
      obtain ⟨h1, h2, h3⟩ := hinv
      refine ⟨by omega, h2, fun m hm => ?_⟩
      show (if m = k then s.tm k else s.buf m) = _
      split
      · subst_vars; exact h2 _ hk
      · exact h3 m (by omega)
    | @printed i k hpc hk =>
      refine move i (.copy []) (by simp [hpc]) rfl rfl fun now' hinv => ?_
      rw [hpc] at hinv
      obtain ⟨h1, h2, h3⟩ := hinv
      exact ⟨by simp, fun m hm => h3 m (by omega), fun m hm => by simp at hm⟩
    | @copy i got hpc hk =>
      refine move i (.copy (got ++ [s.buf got.length])) (by simp [hpc]) rfl rfl fun now' hinv => ?_
      rw [hpc] at hinv
      obtain ⟨h1, h2, h3⟩ := hinv
      refine ⟨by simp; omega, h2, fun m hm => ?_⟩
      simp only [List.length_append, List.length_singleton] at hm
      rcases Nat.lt_or_ge m got.length with h | h
      · rw [List.getElem?_append_left h]; exact h3 m h
      · have : m = got.length := by omega
        subst this
        simp [h2 _ hk]
    | @ret i got hpc hk =>
      intro j
      left
      by_cases hj : j = i
      · subst hj; exact Stamps.at_self ..
      · rw [Stamps.at_ne _ _ hj]
        by_cases h0 : s.pcs j = .idle
        · exact h0
        · exact absurd (only j h0).symm hj

/-- **C164**, what holds: if no two threads are in a logging call at the same time, be it on different loggers, every line
gets the time that its own call read from the clock. -/
theorem C164_one_at_a_time_partial (loc : τ → Nat → Nat) (tr : List (StampEv τ)) (s : Stamps τ) (h : StampRun loc tr s)
    (ho : OneAtATime tr) (pre post : List (StampEv τ)) (i : Nat) (stamp : List Nat) (e : tr = pre ++ .ret i stamp :: post) :
    ∃ now, lastNow i pre = some now ∧ stamp = fieldsOf loc now := by
  induction h generalizing post with
  | start => simp at e
  | @step tr s ev s' h h' ih =>
    rcases List.eq_nil_or_concat post with rfl | ⟨post', x, rfl⟩
    · have hi := inside_run h (oneAtATime_prefix ho) i
      rw [show pre ++ [StampEv.ret i stamp] = pre ++ [StampEv.ret i stamp] from rfl] at e
      obtain ⟨rfl, e2⟩ := List.append_inj' e rfl
      simp only [List.cons.injEq, and_true] at e2
      subst e2
      cases h' with
      | ret hpc hk =>
        rcases hi with h1 | ⟨a, now, b, e1, -, e3, e4⟩
        · rw [hpc] at h1; cases h1
        · rw [hpc] at e4
          refine ⟨now, ?_, fields_eq (by have := e4.1; omega) e4.2.2⟩
          rw [e1, lastNow_append, show StampEv.call i now :: b = [StampEv.call i now] ++ b from rfl, lastNow_append, lastNow_none e3]
          simp [lastNow]
    · have e' : tr ++ [ev] = (pre ++ .ret i stamp :: post') ++ [x] := by rw [e]; simp
      obtain ⟨e1, -⟩ := List.append_inj' e' rfl
      exact ih (oneAtATime_prefix ho) post' e1

/-- A value that some call's clock reading has as its field `m`. -/
def FieldOf (loc : τ → Nat → Nat) (tr : List (StampEv τ)) (m v : Nat) : Prop := ∃ j now, .call j now ∈ tr ∧ v = loc now m

theorem FieldOf.mono {tr : List (StampEv τ)} {e : StampEv τ} {m v : Nat} (h : FieldOf loc tr m v) : FieldOf loc (tr ++ [e]) m v := by
  obtain ⟨j, now, h1, h2⟩ := h
  exact ⟨j, now, List.mem_append_left _ h1, h2⟩

/-- What holds of a thread however the others run. -/
def MixInv (loc : τ → Nat → Nat) (tr : List (StampEv τ)) (s : Stamps τ) : StampPc τ → Prop
  | .idle => True
  | .fill n k => k ≤ 6 ∧ (∃ j, .call j n ∈ tr) ∧ ∀ m < k, FieldOf loc tr m (s.tm m)
  | .print k => k ≤ 6 ∧ (∀ m < 6, FieldOf loc tr m (s.tm m)) ∧ ∀ m < k, FieldOf loc tr m (s.buf m)
  | .copy got => got.length ≤ 6 ∧ (∀ m < 6, FieldOf loc tr m (s.buf m)) ∧ ∀ m < got.length, ∃ v, got[m]? = some v ∧ FieldOf loc tr m v

theorem MixInv.mono {tr : List (StampEv τ)} {e : StampEv τ} {s s' : Stamps τ} {p : StampPc τ} (h : MixInv loc tr s p)
    (h1 : ∀ m, FieldOf loc tr m (s.tm m) → FieldOf loc (tr ++ [e]) m (s'.tm m))
    (h2 : ∀ m, FieldOf loc tr m (s.buf m) → FieldOf loc (tr ++ [e]) m (s'.buf m)) : MixInv loc (tr ++ [e]) s' p := by
  cases p with
  | idle => trivial
  | fill n k =>
    obtain ⟨a, ⟨j, b⟩, c⟩ := h
    exact ⟨a, ⟨j, List.mem_append_left _ b⟩, fun m hm => h1 m (c m hm)⟩
  | print k => exact ⟨h.1, fun m hm => h1 m (h.2.1 m hm), fun m hm => h2 m (h.2.2 m hm)⟩
  | copy got =>
    refine ⟨h.1, fun m hm => h2 m (h.2.1 m hm), fun m hm => ?_⟩
    obtain ⟨v, e1, e2⟩ := h.2.2 m hm
    exact ⟨v, e1, e2.mono⟩

theorem mix_run {tr : List (StampEv τ)} {s : Stamps τ} (h : StampRun loc tr s) : ∀ i, MixInv loc tr s (s.pcs i) := by
  induction h with
  | start => exact fun i => trivial
  | @step tr s e s' h h' ih =>
    have move : ∀ (i : Nat) (p : StampPc τ), s'.pcs = (s.at i p).pcs →
        (∀ m, FieldOf loc tr m (s.tm m) → FieldOf loc (tr ++ [e]) m (s'.tm m)) →
        (∀ m, FieldOf loc tr m (s.buf m) → FieldOf loc (tr ++ [e]) m (s'.buf m)) →
        MixInv loc (tr ++ [e]) s' p → ∀ j, MixInv loc (tr ++ [e]) s' (s'.pcs j) := by
      intro i p hs h1 h2 h3 j
      rw [hs]
      by_cases hj : j = i
      · subst hj; rw [Stamps.at_self]; exact h3
      · rw [Stamps.at_ne _ _ hj]; exact (ih j).mono h1 h2
    cases h' with
    | @call i now hpc =>
      exact move i _ rfl (fun m h => h.mono) (fun m h => h.mono) ⟨by omega, ⟨i, by simp⟩, fun m hm => by omega⟩
    | @fill i now k hpc hk =>
      have hi := ih i
      rw [hpc] at hi
      obtain ⟨a, ⟨j, b⟩, c⟩ := hi
      have ht : ∀ m, (m = k ∨ FieldOf loc tr m (s.tm m)) →
          FieldOf loc (tr ++ [.tau i]) m (if m = k then loc now k else s.tm m) := by
        intro m hm
        split
        · subst_vars; exact ⟨j, now, List.mem_append_left _ b, rfl⟩
        · exact (hm.resolve_left ‹_›).mono
      refine move i _ rfl (fun m h => ht m (.inr h)) (fun m h => h.mono) ⟨by omega, ⟨j, List.mem_append_left _ b⟩, fun m hm => ?_⟩
      exact ht m (by
        rcases Nat.lt_or_ge m k with h | h
        · exact .inr (c m h)
        · exact .inl (by omega))
    | @filled i now k hpc hk =>
      have hi := ih i
      rw [hpc] at hi
      obtain ⟨a, b, c⟩ := hi
      exact move i _ rfl (fun m h => h.mono) (fun m h => h.mono) ⟨by omega, fun m hm => (c m (by omega)).mono, fun m hm => by omega⟩
    | @print i k hpc hk =>
      have hi := ih i
      rw [hpc] at hi
      obtain ⟨a, b, c⟩ := hi
      have ht : ∀ m, (m = k ∨ FieldOf loc tr m (s.buf m)) →
          FieldOf loc (tr ++ [.tau i]) m (if m = k then s.tm k else s.buf m) := by
        intro m hm
        split
        · subst_vars; exact (b _ hk).mono
        · exact (hm.resolve_left ‹_›).mono
      refine move i _ rfl (fun m h => h.mono) (fun m h => ht m (.inr h)) ⟨by omega, fun m hm => (b m hm).mono, fun m hm => ?_⟩
      exact ht m (by
        rcases Nat.lt_or_ge m k with h | h
        · exact .inr (c m h)
        · exact .inl (by omega))
    | @printed i k hpc hk =>
      have hi := ih i
      rw [hpc] at hi
      obtain ⟨a, b, c⟩ := hi
      exact move i _ rfl (fun m h => h.mono) (fun m h => h.mono)
        ⟨by simp, fun m hm => (c m (by omega)).mono, fun m hm => by simp at hm⟩
    | @copy i got hpc hk =>
      have hi := ih i
      rw [hpc] at hi
      obtain ⟨a, b, c⟩ := hi
      refine move i _ rfl (fun m h => h.mono) (fun m h => h.mono) ⟨by simp; omega, fun m hm => (b m hm).mono, fun m hm => ?_⟩
      simp only [List.length_append, List.length_singleton] at hm
      rcases Nat.lt_or_ge m got.length with h | h
      · obtain ⟨v, e1, e2⟩ := c m h
        exact ⟨v, by rw [List.getElem?_append_left h]; exact e1, e2.mono⟩
      · have : m = got.length := by omega
        subst this
        exact ⟨s.buf got.length, by simp, (b _ hk).mono⟩
    | @ret i got hpc hk =>
      exact move i _ rfl (fun m h => h.mono) (fun m h => h.mono) trivial

/-- **C164**, what holds for loggers in several threads: a stamp always has its six fields, and each of them is that of a time
which some thread has read from the clock for a line of its own. -/
theorem C164_fields_partial (loc : τ → Nat → Nat) (tr : List (StampEv τ)) (s : Stamps τ) (h : StampRun loc tr s)
    (i : Nat) (stamp : List Nat) (e : .ret i stamp ∈ tr) :
    stamp.length = 6 ∧ ∀ m < 6, ∃ j now, .call j now ∈ tr ∧ stamp[m]? = some (loc now m) := by
  induction h with
  | start => simp at e
  | @step tr s ev s' h h' ih =>
    rcases List.mem_append.1 e with h1 | h1
    · obtain ⟨a, b⟩ := ih h1
      refine ⟨a, fun m hm => ?_⟩
      obtain ⟨j, now, c, d⟩ := b m hm
      exact ⟨j, now, List.mem_append_left _ c, d⟩
    · simp only [List.mem_singleton] at h1
      subst h1
      cases h' with
      | ret hpc hk =>
        have := mix_run h i
        rw [hpc] at this
        obtain ⟨a, -, c⟩ := this
        refine ⟨by omega, fun m hm => ?_⟩
        obtain ⟨v, e1, j, now, e2, e3⟩ := c m (by omega)
        exact ⟨j, now, List.mem_append_left _ e2, by rw [e1, e3]⟩

theorem stampSeen_append (a b : List (StampEv τ)) : stampSeen (a ++ b) = stampSeen a ++ stampSeen b := by simp [stampSeen]
theorem stampSeen_tau (a : List (StampEv τ)) (i : Nat) : stampSeen (a ++ [.tau i]) = stampSeen a := by simp [stampSeen]

theorem run_fill {i : Nat} {now : τ} : ∀ (n k : Nat) (tr : List (StampEv τ)) (s : Stamps τ), n + k = 6 → StampRun loc tr s →
    s.pcs i = .fill now k → (∀ m < k, s.tm m = loc now m) →
    ∃ tr' s', StampRun loc tr' s' ∧ stampSeen tr' = stampSeen tr ∧ s'.pcs i = .print 0 ∧ (∀ m < 6, s'.tm m = loc now m) ∧
      s'.buf = s.buf ∧ ∀ j, j ≠ i → s'.pcs j = s.pcs j
  | 0, k, tr, s, hk, h, hpc, ht =>
    ⟨_, _, h.step (.filled hpc (by omega)), stampSeen_tau .., Stamps.at_self .., fun m hm => ht m (by omega), rfl, fun j hj => Stamps.at_ne _ _ hj⟩
  | n + 1, k, tr, s, hk, h, hpc, ht => by
    obtain ⟨tr', s', a, b, c, d, e, f⟩ := run_fill n (k + 1) _ _ (by omega) (h.step (.fill hpc (by omega))) (Stamps.at_self ..) (by
      intro m hm
      show (if m = k then loc now k else s.tm m) = _
      split
      · subst_vars; rfl
      · exact ht m (by omega))
    exact ⟨tr', s', a, by rw [b, stampSeen_tau], c, d, e, fun j hj => by rw [f j hj, Stamps.at_ne _ _ hj]⟩

theorem run_print {i : Nat} {now : τ} : ∀ (n k : Nat) (tr : List (StampEv τ)) (s : Stamps τ), n + k = 6 → StampRun loc tr s →
    s.pcs i = .print k → (∀ m < 6, s.tm m = loc now m) → (∀ m < k, s.buf m = loc now m) →
    ∃ tr' s', StampRun loc tr' s' ∧ stampSeen tr' = stampSeen tr ∧ s'.pcs i = .copy [] ∧ (∀ m < 6, s'.buf m = loc now m) ∧
      ∀ j, j ≠ i → s'.pcs j = s.pcs j
  | 0, k, tr, s, hk, h, hpc, _, hb =>
    ⟨_, _, h.step (.printed hpc (by omega)), stampSeen_tau .., Stamps.at_self .., fun m hm => hb m (by omega), fun j hj => Stamps.at_ne _ _ hj⟩
  | n + 1, k, tr, s, hk, h, hpc, ht, hb => by
    obtain ⟨tr', s', a, b, c, d, f⟩ := run_print (now := now) n (k + 1) _ _ (by omega) (h.step (.print hpc (by omega))) (Stamps.at_self ..) ht (by
      intro m hm
      show (if m = k then s.tm k else s.buf m) = _
      split
      · subst_vars; exact ht _ (by omega)
      · exact hb m (by omega))
    exact ⟨tr', s', a, by rw [b, stampSeen_tau], c, d, fun j hj => by rw [f j hj, Stamps.at_ne _ _ hj]⟩

theorem run_copy {i : Nat} {now : τ} : ∀ (n : Nat) (tr : List (StampEv τ)) (s : Stamps τ) (got : List Nat), n + got.length ≤ 6 →
    StampRun loc tr s → s.pcs i = .copy got → (∀ m < 6, s.buf m = loc now m) →
    ∃ tr' s', StampRun loc tr' s' ∧ stampSeen tr' = stampSeen tr ∧
      s'.pcs i = .copy (got ++ ((fieldsOf loc now).drop got.length).take n) ∧ s'.buf = s.buf ∧ ∀ j, j ≠ i → s'.pcs j = s.pcs j
  | 0, tr, s, got, _, h, hpc, _ => ⟨tr, s, h, rfl, by simpa using hpc, rfl, fun _ _ => rfl⟩
  | n + 1, tr, s, got, hn, h, hpc, hb => by
    have hk : got.length < 6 := by omega
    obtain ⟨tr', s', a, b, c, d, f⟩ := run_copy n _ _ (got ++ [s.buf got.length]) (by simp; omega) (h.step (.copy hpc hk)) (Stamps.at_self ..) hb
    refine ⟨tr', s', a, by rw [b, stampSeen_tau], ?_, d, fun j hj => by rw [f j hj, Stamps.at_ne _ _ hj]⟩
    rw [c, hb _ hk]
    have hg : got.length < (fieldsOf loc now).length := by simp [fieldsOf]; omega
    have e : (fieldsOf loc now)[got.length] = loc now got.length := by
      generalize got.length = m at hk hg
      rcases m with _ | _ | _ | _ | _ | _ | m
      all_goals first | rfl | omega
    rw [List.drop_eq_getElem_cons hg, e]
    simp

/-- **C164**, refuted: while a thread copies its time stamp, another thread that logs to another file may overwrite it.  From
whatever two times the clocks of the two calls give, the first line gets any number of fields of the one and the rest of the other. -/
theorem C164_refuted (loc : τ → Nat → Nat) (now1 now2 : τ) (n : Nat) (hn : n ≤ 6) :
    ∃ tr s, StampRun loc tr s ∧ stampSeen tr =
      [.call 0 now1, .call 1 now2, .ret 0 ((fieldsOf loc now1).take n ++ (fieldsOf loc now2).drop n)] := by
  have h0 : StampRun loc ([] ++ [.call 0 now1]) _ := StampRun.start.step (.call (i := 0) now1 rfl)
  obtain ⟨t1, s1, a1, b1, c1, d1, -, f1⟩ := run_fill 6 0 _ _ rfl h0 (Stamps.at_self ..) (fun m hm => by omega)
  obtain ⟨t2, s2, a2, b2, c2, d2, f2⟩ := run_print 6 0 _ _ rfl a1 c1 d1 (fun m hm => by omega)
  obtain ⟨t3, s3, a3, b3, c3, -, f3⟩ := run_copy n _ _ [] (by simpa using hn) a2 c2 d2
  have i3 : s3.pcs 1 = .idle := by rw [f3 1 (by simp), f2 1 (by simp), f1 1 (by simp)]; rfl
  obtain ⟨t4, s4, a4, b4, c4, d4, -, f4⟩ := run_fill 6 0 _ _ rfl (a3.step (.call now2 i3)) (Stamps.at_self ..) (fun m hm => by omega)
  obtain ⟨t5, s5, a5, b5, c5, d5, f5⟩ := run_print 6 0 _ _ rfl a4 c4 d4 (fun m hm => by omega)
  have hlen : ((fieldsOf loc now1).take n).length = n := by simp [fieldsOf]; omega
  have i5 : s5.pcs 0 = .copy ((fieldsOf loc now1).take n) := by
    rw [f5 0 (by simp), f4 0 (by simp), Stamps.at_ne _ _ (by simp), c3]; simp
  obtain ⟨t6, s6, a6, b6, c6, -, -⟩ := run_copy (6 - n) _ _ _ (by rw [hlen]; omega) a5 i5 d5
  rw [hlen] at c6
  have e : ((fieldsOf loc now2).drop n).take (6 - n) = (fieldsOf loc now2).drop n := List.take_of_length_le (by simp [fieldsOf])
  rw [e] at c6
  refine ⟨_, _, a6.step (.ret c6 ?_), ?_⟩
  · rw [List.length_append, hlen]; simp [fieldsOf]; omega
  · rw [stampSeen_append, b6, b5, b4, stampSeen_append, b3, b2, b1]; rfl

/-- The time of day of the example below, from two seconds of the year 2026 before and after ten o'clock. -/
def tenOClock : Bool → Nat → Nat
  | false, k => [2026, 1, 1, 9, 59, 59].getD k 0
  | true, k => [2026, 1, 1, 10, 0, 0].getD k 0

/-- At ten o'clock a line may say nine. -/
example : ∃ tr s, StampRun tenOClock tr s ∧
    stampSeen tr = [.call 0 false, .call 1 true, .ret 0 [2026, 1, 1, 9, 0, 0]] := C164_refuted tenOClock false true 4 (by omega)

theorem oneAtATime_single {tr : List (StampEv τ)} {i : Nat} (h : ∀ e ∈ tr, stampWho e = i) : OneAtATime tr := by
  intro a j now b e c he _
  have h1 := h (.call j now) (by rw [he]; simp)
  have h2 := h e (by rw [he]; simp)
  rw [h2, ← h1]
  rfl

/-- A thread that never calls does nothing. -/
theorem seen_single {tr : List (StampEv τ)} {s : Stamps τ} {i : Nat} (h : StampRun loc tr s) (hs : ∀ e ∈ stampSeen tr, stampWho e = i) :
    (∀ e ∈ tr, stampWho e = i) ∧ ∀ j, j ≠ i → s.pcs j = .idle := by
  induction h with
  | start => exact ⟨by simp, fun _ _ => rfl⟩
  | @step tr s e s' h h' ih =>
    rw [stampSeen_append] at hs
    obtain ⟨h1, h2⟩ := ih fun x hx => hs x (List.mem_append_left _ hx)
    have hw : stampWho e = i := by
      cases h' with
      | call now hpc => exact hs _ (List.mem_append_right _ (by simp [stampSeen]))
      | ret hpc hk => exact hs _ (List.mem_append_right _ (by simp [stampSeen]))
      | @fill j now k hpc hk =>
        by_cases hj : j = i
        · exact hj
        · rw [h2 j hj] at hpc; cases hpc
      | @filled j now k hpc hk =>
        by_cases hj : j = i
        · exact hj
        · rw [h2 j hj] at hpc; cases hpc
      | @print j k hpc hk =>
        by_cases hj : j = i
        · exact hj
        · rw [h2 j hj] at hpc; cases hpc
      | @printed j k hpc hk =>
        by_cases hj : j = i
        · exact hj
        · rw [h2 j hj] at hpc; cases hpc
      | @copy j got hpc hk =>
        by_cases hj : j = i
        · exact hj
        · rw [h2 j hj] at hpc; cases hpc
    refine ⟨fun x hx => ?_, fun j hj => ?_⟩
    · rcases List.mem_append.1 hx with h | h
      · exact h1 x h
      · rw [List.mem_singleton.1 h]; exact hw
    · have : s'.pcs j = s.pcs j := by
        cases h' <;> exact Stamps.at_ne _ _ (fun h => hj (h.trans hw))
      rw [this, h2 j hj]

/-- A run that meets the condition of `C164_one_at_a_time_partial`. -/
example : ∃ tr s, StampRun tenOClock tr s ∧ OneAtATime tr ∧ stampSeen tr = [.call 3 true, .ret 3 [2026, 1, 1, 10, 0, 0]] := by
  have h0 : StampRun tenOClock ([] ++ [.call 3 true]) _ := StampRun.start.step (.call (i := 3) true rfl)
  obtain ⟨t1, s1, a1, b1, c1, d1, -, -⟩ := run_fill 6 0 _ _ rfl h0 (Stamps.at_self ..) (fun m hm => by omega)
  obtain ⟨t2, s2, a2, b2, c2, d2, -⟩ := run_print 6 0 _ _ rfl a1 c1 d1 (fun m hm => by omega)
  obtain ⟨t3, s3, a3, b3, c3, -, -⟩ := run_copy 6 _ _ [] (by simp) a2 c2 d2
  replace c3 : s3.pcs 3 = .copy ([] ++ List.take 6 (List.drop 0 (fieldsOf tenOClock true))) := c3
  have h := a3.step (.ret c3 (by simp [fieldsOf]))
  have e : stampSeen (t3 ++ [.ret 3 ([] ++ List.take 6 (List.drop 0 (fieldsOf tenOClock true)))]) =
      [.call 3 true, .ret 3 [2026, 1, 1, 10, 0, 0]] := by
    rw [stampSeen_append, b3, b2, b1]; rfl
  exact ⟨_, _, h, oneAtATime_single (seen_single (i := 3) h (by rw [e]; simp [stampWho])).1, e⟩

end Stamp
end Cppnet
