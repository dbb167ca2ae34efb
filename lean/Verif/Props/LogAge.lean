import Verif.Spec.LogAge

/-!
# C190: a log line reaches the file in time
-/

namespace Cppnet
open Spec

/-- What holds between the calls; `now`: the last time read, `log`: what was logged. -/
structure AgeOk (s : ALog) (now : Int) (log : List (Int × Str)) : Prop where
  cur : s.cur < s.ring.length
  fresh : ∀ b ∈ s.ring, b < s.made
  nodup : s.ring.Nodup
  idle : (s.bufs s.curBuf).need = false
  queued : ∀ b, (s.bufs b).need = true ↔ b ∈ s.queue
  qnodup : s.queue.Nodup
  qfresh : ∀ b ∈ s.queue, b < s.made
  full : ∀ b ∈ s.queue, (s.bufs b).lines ≠ []
  held : ∀ b, (s.bufs b).lines ≠ [] → b ∈ s.queue ∨ b = s.curBuf
  young : ∀ b, ∀ x ∈ (s.bufs b).lines, (s.bufs b).last ≤ x.1 ∧ x.2 ≠ []
  past : ∀ b, (s.bufs b).last ≤ now
  kept : ∀ x ∈ log, x ∈ s.file ∨ ∃ b, x ∈ (s.bufs b).lines

theorem getD_mem {l : List Nat} {i : Nat} (h : i < l.length) : l.getD i 0 ∈ l := by
  rw [List.getD_eq_getElem?_getD, List.getElem?_eq_getElem h]; exact List.getElem_mem h

theorem size_zero {b : ABuf} (h : ∀ x ∈ b.lines, x.2 ≠ []) : b.size = 0 ↔ b.lines = [] := by
  constructor
  · intro h0
    cases hl : b.lines with
    | nil => rfl
    | cons x xs =>
      have := h x (by rw [hl]; exact List.mem_cons_self ..)
      unfold ABuf.size at h0
      rw [hl] at h0
      simp at h0
      exact absurd h0.1 this
  · intro h0; simp [ABuf.size, h0]

theorem ageInit_ok (num size interval now : Int) : AgeOk (ageInit num size interval now) now [] := by
  have hm : 0 < max 1 num.toNat := by omega
  refine ⟨by simpa [ageInit] using hm, fun b hb => ?_, List.nodup_range, rfl, fun b => ?_, List.nodup_nil, fun b hb => ?_, fun b hb => ?_,
    fun b hb => absurd rfl hb, fun b x hx => ?_, fun b => Int.le_refl _, fun x hx => ?_⟩
  · simpa [ageInit] using hb
  · simp [ageInit]
  · cases hb
  · cases hb
  · cases hx
  · cases hx

theorem insert_getD (l : List Nat) (c m : Nat) (h : c < l.length) : (l.take (c + 1) ++ m :: l.drop (c + 1)).getD (c + 1) 0 = m := by
  rw [List.getD_eq_getElem?_getD, List.getElem?_append_right (by simp; omega)]
  have : (l.take (c + 1)).length = c + 1 := by simp; omega
  rw [this]; simp

/-- After a logging call at time `t`: what is left in the current buffer is at most `interval` old. -/
def CurYoung (s : ALog) (t : Int) : Prop := ∀ x ∈ (s.bufs s.curBuf).lines, t ≤ x.1 + s.interval

theorem ageLog_interval (s : ALog) (t : Int) (l : Str) : (ageLog s t l).interval = s.interval := by
  unfold ageLog ageCheck
  dsimp only
  split
  · split <;> rfl
  · rfl

theorem ageLog_ok {s : ALog} {now t : Int} {log} (h : AgeOk s now log) (ht : now ≤ t) (l : Str) (hl : l ≠ []) :
    AgeOk (ageLog s t l) t (log ++ [(t, l)]) ∧ CurYoung (ageLog s t l) t := by
  obtain ⟨cur, fresh, nodup, idle, queued, qnodup, qfresh, full, held, young, past, kept⟩ := h
  have hbm : s.curBuf ∈ s.ring := getD_mem cur
  have hbq : s.curBuf ∉ s.queue := fun hq => by
    have := (queued _).2 hq; rw [idle] at this; cases this
  have hbl : s.curBuf < s.made := fresh _ hbm
  generalize hb : s.curBuf = b at *
  generalize hx : ({ s.bufs b with lines := (s.bufs b).lines ++ [(t, l)] } : ABuf) = buf at *
  have hlog : ageLog s t l = ageCheck (s.setBuf b buf) t := by subst hx; subst hb; rfl
  have hbuf : buf.lines = (s.bufs b).lines ++ [(t, l)] ∧ buf.last = (s.bufs b).last ∧ buf.need = false := by
    subst hx; exact ⟨rfl, rfl, idle⟩
  have hyoung : ∀ x ∈ buf.lines, buf.last ≤ x.1 ∧ x.2 ≠ [] := by
    intro x hx'
    rw [hbuf.1] at hx'
    rw [hbuf.2.1]
    rcases List.mem_append.1 hx' with hx' | hx'
    · exact young b x hx'
    · cases List.mem_singleton.1 hx'
      exact ⟨Int.le_trans (past b) ht, hl⟩
  have hne0 : buf.lines ≠ [] := by rw [hbuf.1]; simp
  have hsz : buf.size ≠ 0 := by
    intro h0
    have := (size_zero (fun x hx' => (hyoung x hx').2)).1 h0
    rw [hbuf.1] at this
    simp at this
  have hkept : ∀ x ∈ log ++ [(t, l)], x ∈ s.file ∨ x ∈ buf.lines ∨ ∃ i, i ≠ b ∧ x ∈ (s.bufs i).lines := by
    intro x hx'
    rcases List.mem_append.1 hx' with hx' | hx'
    · rcases kept x hx' with h1 | ⟨i, h1⟩
      · exact .inl h1
      · by_cases hi : i = b
        · subst hi; right; left; rw [hbuf.1]; exact List.mem_append_left _ h1
        · exact .inr (.inr ⟨i, hi, h1⟩)
    · right; left; rw [hbuf.1]; exact List.mem_append_right _ hx'
  by_cases hc : buf.size > intToSize s.size ∨ (buf.last + s.interval < t ∧ buf.size ≠ 0)
  · by_cases hn : (((s.setBuf b buf).setBuf b { buf with need := true }).bufs (s.ring.getD ((s.cur + 1) % s.ring.length) 0)).need = true
    · have e : ageLog s t l = ⟨fun i => if i = s.made then { last := t } else if i = b then { buf with need := true } else s.bufs i,
          s.ring.take (s.cur + 1) ++ s.made :: s.ring.drop (s.cur + 1), s.cur + 1, s.made + 1, s.size, s.interval, s.queue ++ [b],
          s.file⟩ := by
        rw [hlog]
        unfold ageCheck
        have h1 : (s.setBuf b buf).curBuf = b := hb
        have h2 : (s.setBuf b buf).bufs b = buf := by simp [ALog.setBuf]
        simp only [h1, h2]
        rw [if_pos (by exact hc), if_pos (by exact hn)]
        simp only [ALog.setBuf]
        congr 1
        funext i
        by_cases h1 : i = s.made
        · simp [h1]
        · by_cases h2 : i = b <;> simp [h1, h2]
      have hcb : (ageLog s t l).curBuf = s.made := by rw [e]; exact insert_getD _ _ _ cur
      have hne : s.made ≠ b := by omega
      have hbm' : (ageLog s t l).bufs s.made = { last := t } := by rw [e]; simp
      have hbb : (ageLog s t l).bufs b = { buf with need := true } := by rw [e]; simp [hne.symm]
      have hbo : ∀ i, i ≠ s.made → i ≠ b → (ageLog s t l).bufs i = s.bufs i := fun i h1 h2 => by rw [e]; simp [h1, h2]
      have hq : (ageLog s t l).queue = s.queue ++ [b] := by rw [e]
      have hf : (ageLog s t l).file = s.file := by rw [e]
      have hmade : (ageLog s t l).made = s.made + 1 := by rw [e]
      have hring : (ageLog s t l).ring = s.ring.take (s.cur + 1) ++ s.made :: s.ring.drop (s.cur + 1) := by rw [e]
      have hmnew : s.made ∉ s.ring := fun hm => by have := fresh _ hm; omega
      have hmq : s.made ∉ s.queue := fun hm => by have := qfresh _ hm; omega
      have hperm : (s.ring.take (s.cur + 1) ++ s.made :: s.ring.drop (s.cur + 1)).Perm (s.made :: s.ring) := by
        refine List.perm_middle.trans ?_
        rw [List.take_append_drop]
      refine ⟨⟨?_, ?_, ?_, ?_, ?_, ?_, ?_, ?_, ?_, ?_, ?_, ?_⟩, ?_⟩
      · rw [hring, hperm.length_eq, e]; simp; omega
      · intro i hi
        rw [hring] at hi
        rw [hmade]
        rcases List.mem_cons.1 (hperm.mem_iff.1 hi) with rfl | hi
        · omega
        · have := fresh i hi; omega
      · rw [hring]
        exact hperm.nodup_iff.2 (List.nodup_cons.2 ⟨hmnew, nodup⟩)
      · rw [hcb, hbm']
      · intro i
        rw [hq, List.mem_append, List.mem_singleton]
        by_cases h1 : i = s.made
        · subst h1
          rw [hbm']
          refine ⟨fun h => absurd h (by simp), fun h => ?_⟩
          rcases h with h | h
          · exact absurd h hmq
          · exact absurd h hne
        · by_cases h2 : i = b
          · subst h2; rw [hbb]; simp
          · rw [hbo i h1 h2, queued i]; simp [h2]
      · rw [hq]
        exact List.nodup_append.2 ⟨qnodup, by simp, by intro x hx' y hy; cases List.mem_singleton.1 hy; rintro rfl; exact hbq hx'⟩
      · intro i hi
        rw [hq] at hi
        rw [hmade]
        rcases List.mem_append.1 hi with hi | hi
        · have := qfresh i hi; omega
        · cases List.mem_singleton.1 hi; omega
      · intro i hi
        rw [hq] at hi
        rcases List.mem_append.1 hi with hi | hi
        · have h1 : i ≠ s.made := fun h => hmq (h ▸ hi)
          have h2 : i ≠ b := fun h => hbq (h ▸ hi)
          rw [hbo i h1 h2]; exact full i hi
        · cases List.mem_singleton.1 hi; rw [hbb]; exact hne0
      · intro i hi
        rw [hq, hcb]
        by_cases h1 : i = s.made
        · exact .inr h1
        · by_cases h2 : i = b
          · exact .inl (List.mem_append_right _ (by simp [h2]))
          · rw [hbo i h1 h2] at hi
            rcases held i hi with h3 | h3
            · exact .inl (List.mem_append_left _ h3)
            · exact absurd h3 h2
      · intro i x hx'
        by_cases h1 : i = s.made
        · subst h1; rw [hbm'] at hx'; cases hx'
        · by_cases h2 : i = b
          · subst h2; rw [hbb] at hx' ⊢; exact hyoung x hx'
          · rw [hbo i h1 h2] at hx' ⊢; exact young i x hx'
      · intro i
        by_cases h1 : i = s.made
        · subst h1; rw [hbm']; exact Int.le_refl _
        · by_cases h2 : i = b
          · subst h2; rw [hbb]; exact (hbuf.2.1 ▸ Int.le_trans (past _) ht : buf.last ≤ t)
          · rw [hbo i h1 h2]; exact Int.le_trans (past i) ht
      · intro x hx'
        rw [hf]
        rcases hkept x hx' with h1 | h1 | ⟨i, h1, h2⟩
        · exact .inl h1
        · exact .inr ⟨b, by rw [hbb]; exact h1⟩
        · by_cases h3 : i = s.made
          · subst h3
            rcases held s.made (by intro h0; rw [h0] at h2; cases h2) with h4 | h4
            · exact absurd h4 hmq
            · exact absurd h4 hne
          · exact .inr ⟨i, by rw [hbo i h3 h1]; exact h2⟩
      · intro x hx'
        rw [hcb, hbm'] at hx'
        cases hx'
    · have hr : 0 < s.ring.length := by omega
      have hn0 : (s.cur + 1) % s.ring.length < s.ring.length := Nat.mod_lt _ hr
      have e : ageLog s t l = ⟨fun i => if i = b then { buf with need := true } else s.bufs i,
          s.ring, (s.cur + 1) % s.ring.length, s.made, s.size, s.interval, s.queue ++ [b], s.file⟩ := by
        rw [hlog]
        unfold ageCheck
        have h1 : (s.setBuf b buf).curBuf = b := hb
        have h2 : (s.setBuf b buf).bufs b = buf := by simp [ALog.setBuf]
        simp only [h1, h2]
        rw [if_pos (by exact hc), if_neg (by exact hn)]
        simp only [ALog.setBuf]
        congr 1
        funext i
        by_cases h2 : i = b <;> simp [h2]
      generalize hnn : s.ring.getD ((s.cur + 1) % s.ring.length) 0 = n at hn
      have hcb : (ageLog s t l).curBuf = n := by rw [e]; exact hnn
      have hnb : n ≠ b := by
        rintro rfl
        simp [ALog.setBuf] at hn
      have hnn' : (s.bufs n).need = false := by
        simp only [ALog.setBuf, hnb, if_false] at hn
        simpa using hn
      have hnq : n ∉ s.queue := fun hq => by
        have := (queued _).2 hq; rw [hnn'] at this; cases this
      have hnl : (s.bufs n).lines = [] := by
        refine Decidable.byContradiction fun h0 => ?_
        rcases held n h0 with h1 | h1
        · exact hnq h1
        · exact hnb h1
      have hbb : (ageLog s t l).bufs b = { buf with need := true } := by rw [e]; simp
      have hbo : ∀ i, i ≠ b → (ageLog s t l).bufs i = s.bufs i := fun i h2 => by rw [e]; simp [h2]
      have hq : (ageLog s t l).queue = s.queue ++ [b] := by rw [e]
      have hf : (ageLog s t l).file = s.file := by rw [e]
      refine ⟨⟨?_, ?_, ?_, ?_, ?_, ?_, ?_, ?_, ?_, ?_, ?_, ?_⟩, ?_⟩
      · rw [e]; exact hn0
      · rw [e]; exact fresh
      · rw [e]; exact nodup
      · rw [hcb, hbo n hnb]; exact hnn'
      · intro i
        rw [hq, List.mem_append, List.mem_singleton]
        by_cases h2 : i = b
        · subst h2; rw [hbb]; simp
        · rw [hbo i h2, queued i]; simp [h2]
      · rw [hq]
        exact List.nodup_append.2 ⟨qnodup, by simp, by intro x hx' y hy; cases List.mem_singleton.1 hy; rintro rfl; exact hbq hx'⟩
      · intro i hi
        rw [hq] at hi
        have hmade : (ageLog s t l).made = s.made := by rw [e]
        rw [hmade]
        rcases List.mem_append.1 hi with hi | hi
        · exact qfresh i hi
        · cases List.mem_singleton.1 hi; exact hbl
      · intro i hi
        rw [hq] at hi
        rcases List.mem_append.1 hi with hi | hi
        · have h2 : i ≠ b := fun h => hbq (h ▸ hi)
          rw [hbo i h2]; exact full i hi
        · cases List.mem_singleton.1 hi; rw [hbb]; exact hne0
      · intro i hi
        rw [hq, hcb]
        by_cases h2 : i = b
        · exact .inl (List.mem_append_right _ (by simp [h2]))
        · rw [hbo i h2] at hi
          rcases held i hi with h3 | h3
          · exact .inl (List.mem_append_left _ h3)
          · exact absurd h3 h2
      · intro i x hx'
        by_cases h2 : i = b
        · subst h2; rw [hbb] at hx' ⊢; exact hyoung x hx'
        · rw [hbo i h2] at hx' ⊢; exact young i x hx'
      · intro i
        by_cases h2 : i = b
        · subst h2; rw [hbb]; exact (hbuf.2.1 ▸ Int.le_trans (past _) ht : buf.last ≤ t)
        · rw [hbo i h2]; exact Int.le_trans (past i) ht
      · intro x hx'
        rw [hf]
        rcases hkept x hx' with h1 | h1 | ⟨i, h1, h2⟩
        · exact .inl h1
        · exact .inr ⟨b, by rw [hbb]; exact h1⟩
        · exact .inr ⟨i, by rw [hbo i h1]; exact h2⟩
      · intro x hx'
        rw [hcb, hbo n hnb, hnl] at hx'
        cases hx'
  · have e : ageLog s t l = s.setBuf b buf := by
      rw [hlog]
      unfold ageCheck
      have h1 : (s.setBuf b buf).curBuf = b := hb
      have h2 : (s.setBuf b buf).bufs b = buf := by simp [ALog.setBuf]
      simp only [h1, h2]
      rw [if_neg (by exact hc)]
    have hcb : (s.setBuf b buf).curBuf = b := hb
    have hbb : (s.setBuf b buf).bufs b = buf := by simp [ALog.setBuf]
    have hbo : ∀ i, i ≠ b → (s.setBuf b buf).bufs i = s.bufs i := fun i h2 => by simp [ALog.setBuf, h2]
    rw [e]
    refine ⟨⟨cur, fresh, nodup, ?_, ?_, qnodup, qfresh, ?_, ?_, ?_, ?_, ?_⟩, ?_⟩
    · rw [hcb, hbb]; exact hbuf.2.2
    · intro i
      by_cases h2 : i = b
      · subst h2; rw [hbb, hbuf.2.2]; exact ⟨fun h => absurd h (by simp), fun h => absurd h hbq⟩
      · rw [hbo i h2]; exact queued i
    · intro i hi
      have h2 : i ≠ b := fun h => hbq (h ▸ hi)
      rw [hbo i h2]; exact full i hi
    · intro i hi
      rw [hcb]
      by_cases h2 : i = b
      · exact .inr h2
      · rw [hbo i h2] at hi; exact held i hi
    · intro i x hx'
      by_cases h2 : i = b
      · subst h2; rw [hbb] at hx' ⊢; exact hyoung x hx'
      · rw [hbo i h2] at hx' ⊢; exact young i x hx'
    · intro i
      by_cases h2 : i = b
      · subst h2; rw [hbb]; exact (hbuf.2.1 ▸ Int.le_trans (past _) ht : buf.last ≤ t)
      · rw [hbo i h2]; exact Int.le_trans (past i) ht
    · intro x hx'
      rcases hkept x hx' with h1 | h1 | ⟨i, h1, h2⟩
      · exact .inl h1
      · exact .inr ⟨b, by rw [hbb]; exact h1⟩
      · exact .inr ⟨i, by rw [hbo i h1]; exact h2⟩
    · intro x hx'
      rw [hcb, hbb] at hx'
      have h1 := (hyoung x hx').1
      have h2 : ¬ (buf.last + s.interval < t) := fun h => hc (.inr ⟨h, hsz⟩)
      show t ≤ x.1 + s.interval
      omega

theorem ageFlush_ok {s : ALog} {now t : Int} {log} (h : AgeOk s now log) (ht : now ≤ t) :
    AgeOk (ageFlush s t) t log ∧ (ageFlush s t).curBuf = s.curBuf ∧ (ageFlush s t).bufs s.curBuf = s.bufs s.curBuf ∧
    (ageFlush s t).interval = s.interval := by
  obtain ⟨cur, fresh, nodup, idle, queued, qnodup, qfresh, full, held, young, past, kept⟩ := h
  cases hq : s.queue with
  | nil =>
    have e : ageFlush s t = s := by unfold ageFlush; rw [hq]
    rw [e]
    exact ⟨⟨cur, fresh, nodup, idle, queued, qnodup, qfresh, full, held, young, fun b => Int.le_trans (past b) ht, kept⟩, rfl, rfl, rfl⟩
  | cons b q =>
    have hbq : b ∈ s.queue := by rw [hq]; exact List.mem_cons_self ..
    have hbc : b ≠ s.curBuf := by
      rintro rfl
      have := (queued _).2 hbq; rw [idle] at this; cases this
    have hqn := List.nodup_cons.1 (hq ▸ qnodup)
    have hbn := (queued b).2 hbq
    have key : ∀ (x : ABuf) (file : List (Int × Str)), x.need = (false : Bool) → x.lines = [] → x.last ≤ t →
        (∀ y, y ∈ s.file ∨ y ∈ (s.bufs b).lines → y ∈ file) →
        AgeOk { s.setBuf b x with queue := q, file := file } t log := by
      intro x file h1 h2 h3 h4
      have hbb : ({ s.setBuf b x with queue := q, file := file } : ALog).bufs b = x := by simp [ALog.setBuf]
      have hbo : ∀ i, i ≠ b → ({ s.setBuf b x with queue := q, file := file } : ALog).bufs i = s.bufs i :=
        fun i hi => by simp [ALog.setBuf, hi]
      have hcb : ({ s.setBuf b x with queue := q, file := file } : ALog).curBuf = s.curBuf := rfl
      refine ⟨cur, fresh, nodup, ?_, ?_, hqn.2, ?_, ?_, ?_, ?_, ?_, ?_⟩
      · rw [hcb, hbo _ (Ne.symm hbc)]; exact idle
      · intro i
        by_cases hi : i = b
        · subst hi; rw [hbb, h1]; exact ⟨fun h => absurd h (by simp), fun h => absurd h hqn.1⟩
        · rw [hbo i hi, queued i, hq, List.mem_cons]; simp [hi]
      · intro i hi; exact qfresh i (by rw [hq]; exact List.mem_cons_of_mem _ hi)
      · intro i hi
        have hib : i ≠ b := fun h => hqn.1 (h ▸ hi)
        rw [hbo i hib]; exact full i (by rw [hq]; exact List.mem_cons_of_mem _ hi)
      · intro i hi
        by_cases hib : i = b
        · subst hib; rw [hbb] at hi; exact absurd h2 hi
        · rw [hbo i hib] at hi
          rcases held i hi with h5 | h5
          · rw [hq, List.mem_cons] at h5; exact .inl (h5.resolve_left hib)
          · exact .inr h5
      · intro i y hy
        by_cases hib : i = b
        · subst hib; rw [hbb, h2] at hy; cases hy
        · rw [hbo i hib] at hy ⊢; exact young i y hy
      · intro i
        by_cases hib : i = b
        · subst hib; rw [hbb]; exact h3
        · rw [hbo i hib]; exact Int.le_trans (past i) ht
      · intro y hy
        rcases kept y hy with h5 | ⟨i, h5⟩
        · exact .inl (h4 y (.inl h5))
        · by_cases hib : i = b
          · subst hib; exact .inl (h4 y (.inr h5))
          · exact .inr ⟨i, by rw [hbo i hib]; exact h5⟩
    by_cases h0 : (s.bufs b).size = 0
    · -- the buffer of a task is never empty
      exfalso
      exact full b hbq ((size_zero fun x hx => (young b x hx).2).1 h0)
    · have e : ageFlush s t = { s.setBuf b { last := t } with queue := q, file := s.file ++ (s.bufs b).lines } := by
        unfold ageFlush
        rw [hq]
        simp only [h0, if_false]
        rfl
      rw [e]
      refine ⟨key _ _ rfl rfl (Int.le_refl _) ?_, rfl, ?_, rfl⟩
      · intro y hy; exact List.mem_append.2 hy
      · simp [ALog.setBuf, Ne.symm hbc]

/-- What the events that are left do to what is in the current buffer, if nothing more is logged. -/
theorem onlyWorker_ok {evs : List AgeEv} (hw : OnlyWorker evs) :
    ∀ {s : ALog} {now : Int} {log}, AgeOk s now log → Clock now evs →
      (∃ t, AgeOk (ageRun s evs) t log) ∧ (ageRun s evs).bufs (ageRun s evs).curBuf = s.bufs s.curBuf := by
  induction evs with
  | nil => intro s now log h _; exact ⟨⟨now, h⟩, rfl⟩
  | cons e evs ih =>
    intro s now log h hc
    obtain ⟨t, rfl⟩ := hw e (List.mem_cons_self ..)
    obtain ⟨h1, h2, h3, _⟩ := ageFlush_ok (t := t) h hc.1
    obtain ⟨h4, h5⟩ := ih (fun x hx => hw x (List.mem_cons_of_mem _ hx)) h1 hc.2
    exact ⟨h4, by rw [show ageRun s (.flush t :: evs) = ageRun (ageFlush s t) evs from rfl, h5, h2, h3]⟩

theorem ageRun_append (s : ALog) (a b : List AgeEv) : ageRun s (a ++ b) = ageRun (ageRun s a) b := by
  induction a generalizing s with
  | nil => rfl
  | cons e a ih => cases e <;> exact ih _

theorem ageRun_ok {evs : List AgeEv} : ∀ {s : ALog} {now : Int} {log}, AgeOk s now log → Clock now evs →
    (∀ x ∈ loggedAt evs, x.2 ≠ []) → ∀ (rest : List AgeEv) (hr : Clock now (evs ++ rest)),
    ∃ t, AgeOk (ageRun s evs) t (log ++ loggedAt evs) ∧ Clock t rest ∧ (ageRun s evs).interval = s.interval := by
  induction evs with
  | nil => intro s now log h _ _ rest hr; exact ⟨now, by simpa [ageRun, loggedAt] using h, hr, rfl⟩
  | cons e evs ih =>
    intro s now log h hc hl rest hr
    cases e with
    | flush t =>
      obtain ⟨h1, _, _, h4⟩ := ageFlush_ok (t := t) h hc.1
      obtain ⟨t', h5, h6, h7⟩ := ih h1 hc.2 hl rest hr.2
      exact ⟨t', h5, h6, h7.trans h4⟩
    | log t l =>
      obtain ⟨h1, _⟩ := ageLog_ok (t := t) h hc.1 l (hl (t, l) (List.mem_cons_self ..))
      obtain ⟨t', h5, h6, h7⟩ := ih h1 hc.2 (fun x hx => hl x (List.mem_cons_of_mem _ hx)) rest hr.2
      refine ⟨t', ?_, h6, h7.trans (ageLog_interval s t l)⟩
      simpa [ageRun, loggedAt] using h5

theorem clock_prefix {a b : List AgeEv} : ∀ {t : Int}, Clock t (a ++ b) → Clock t a := by
  induction a with
  | nil => intro _ _; trivial
  | cons e a ih => intro t h; exact ⟨h.1, ih h.2⟩

/-- **C190**, what holds: a logging call makes the logger write what is old.  If a line is logged at time `t`, and then the worker gets
round to the tasks it has, all lines are in the file that were logged more than the flush interval before `t`.
 Missing: that they get there without another call, see the refutation. -/
theorem C190_next_call_partial (num size interval start : Int) (before after : List AgeEv) (t : Int) (l : Str)
    (hc : Clock start (before ++ .log t l :: after)) (hl : ∀ x ∈ loggedAt (before ++ [.log t l]), x.2 ≠ []) (hw : OnlyWorker after)
    (s : ALog) (hs : s = ageRun (ageInit num size interval start) (before ++ .log t l :: after)) (hq : s.queue = [])
    (x : Int × Str) (hx : x ∈ loggedAt (before ++ [.log t l])) (hold : x.1 + interval < t) : x ∈ s.file := by
  have hlb : ∀ y ∈ loggedAt before, y.2 ≠ [] := by
    intro y hy
    refine hl y ?_
    clear hl hx hc hs
    induction before with
    | nil => cases hy
    | cons e b ih =>
      cases e with
      | flush _ => exact ih hy
      | log a b' =>
        rcases List.mem_cons.1 hy with rfl | hy
        · exact List.mem_cons_self ..
        · exact List.mem_cons_of_mem _ (ih hy)
  have hla : ∀ b : List AgeEv, loggedAt (b ++ [.log t l]) = loggedAt b ++ [(t, l)] := by
    intro b
    induction b with
    | nil => rfl
    | cons e b ih => cases e <;> simp [loggedAt, ih]
  obtain ⟨t0, h1, h2, h3⟩ := ageRun_ok (ageInit_ok num size interval start) (clock_prefix hc) hlb _ hc
  obtain ⟨h4, h5⟩ := ageLog_ok (t := t) h1 h2.1 l (hl (t, l) (by rw [hla]; simp))
  have hi' : (ageRun (ageInit num size interval start) before).interval = interval := h3
  obtain ⟨⟨t1, h7⟩, h8⟩ := onlyWorker_ok hw h4 h2.2
  have e : s = ageRun (ageLog (ageRun (ageInit num size interval start) before) t l) after := by
    rw [hs, ageRun_append]; rfl
  rw [← e] at h7 h8
  rw [hla] at hx
  rcases h7.kept x (by simpa using hx) with h9 | ⟨b, h9⟩
  · exact h9
  · exfalso
    rcases h7.held b (by intro h0; rw [h0] at h9; cases h9) with h10 | h10
    · rw [hq] at h10; cases h10
    · rw [h10, h8] at h9
      have := h5 x h9
      rw [ageLog_interval, hi'] at this
      omega

/-- **C190**, refuted: a message that does not fill its buffer and comes while the buffer counts as fresh stays in memory for as long as
nothing else is logged, however long ago the flush interval is over, and whatever the worker does. -/
theorem C190_quiet_refuted (num size interval start t : Int) (l : Str) (hl : l.length ≤ intToSize size) (ht : t ≤ start + interval)
    (after : List AgeEv) (hw : OnlyWorker after) :
    (ageRun (ageLog (ageInit num size interval start) t l) after).file = [] := by
  have h0 : (ageLog (ageInit num size interval start) t l).queue = [] ∧ (ageLog (ageInit num size interval start) t l).file = [] := by
    unfold ageLog ageCheck
    have h1 : ¬ start + interval < t := by omega
    have h2 : ¬ intToSize size < l.length := by omega
    simp [ageInit, ALog.setBuf, ALog.curBuf, ABuf.size, h1, h2]
  generalize ageLog (ageInit num size interval start) t l = s at h0
  induction after generalizing s with
  | nil => exact h0.2
  | cons e evs ih =>
    obtain ⟨t', rfl⟩ := hw e (List.mem_cons_self ..)
    refine ih (fun x hx => hw x (List.mem_cons_of_mem _ hx)) (ageFlush s t') ?_
    unfold ageFlush
    rw [h0.1]
    exact h0

/-- **C190**, refuted if the clock of the system is set back (the times here are what `time` says, not true time): as long as it shows no
time later than the flush interval after `Init`, nothing is written before a buffer is full, however many messages are logged and however
long that takes. -/
theorem C190_clock_refuted (num size interval start : Int) (evs : List AgeEv) (ht : ∀ e ∈ evs, e.time ≤ start + interval)
    (hl : ((loggedAt evs).map (·.2.length)).sum ≤ intToSize size) : (ageRun (ageInit num size interval start) evs).file = [] := by
  have key : ∀ (evs : List AgeEv) (s : ALog), s.queue = [] → s.file = [] → s.interval = interval → s.size = size →
      (s.bufs s.curBuf).last = start → (∀ e ∈ evs, e.time ≤ start + interval) →
      (s.bufs s.curBuf).size + ((loggedAt evs).map (·.2.length)).sum ≤ intToSize size → (ageRun s evs).file = [] := by
    intro evs
    induction evs with
    | nil => intro s _ hf _ _ _ _ _; exact hf
    | cons e evs ih =>
      intro s hq hf hi hz hb ht hl
      have ht' : ∀ e ∈ evs, e.time ≤ start + interval := fun x hx => ht x (List.mem_cons_of_mem _ hx)
      cases e with
      | flush t =>
        have e1 : ageFlush s t = s := by unfold ageFlush; rw [hq]
        simp only [ageRun, e1]
        exact ih s hq hf hi hz hb ht' hl
      | log t l =>
        have htt : t ≤ start + interval := ht (.log t l) (List.mem_cons_self ..)
        simp only [loggedAt, List.map_cons, List.sum_cons] at hl
        have e1 : ageLog s t l = s.setBuf s.curBuf { s.bufs s.curBuf with lines := (s.bufs s.curBuf).lines ++ [(t, l)] } := by
          unfold ageLog ageCheck
          have hsz : ((s.bufs s.curBuf).lines.map (·.2.length)).sum + l.length ≤ intToSize size := by
            unfold ABuf.size at hl; omega
          rw [if_neg]
          simp only [ALog.setBuf, ALog.curBuf, ABuf.size, if_true, List.map_append, List.map_cons, List.map_nil, List.sum_append,
            List.sum_cons, List.sum_nil, hz, hi]
          simp only [ALog.curBuf] at hsz hb
          rw [hb]
          omega
        simp only [ageRun, e1]
        refine ih _ hq hf hi hz ?_ ht' ?_
        · simp only [ALog.setBuf, ALog.curBuf, if_true]
          exact hb
        · simp only [ALog.setBuf, ALog.curBuf, ABuf.size, if_true, List.map_append, List.map_cons, List.map_nil, List.sum_append,
            List.sum_cons, List.sum_nil]
          simp only [ALog.curBuf, ABuf.size] at hl
          omega
  exact key evs _ rfl rfl rfl rfl rfl ht (by simpa [ageInit, ABuf.size] using hl)

/-- The clock is set back by an hour after the first message; a minute later (by the sun) two more are logged. -/
example : ((loggedAt [.log 3701 b!"a", .log 161 b!"b", .log 162 b!"c", .flush 163]).map (·.2.length)).sum ≤ intToSize 1024 ∧
    (ageRun (ageInit 4 1024 3 3700) [.log 3701 b!"a", .log 161 b!"b", .log 162 b!"c", .flush 163]).file = [] := by
  decide +kernel

/-- One line, an hour of silence, in which the worker has nothing to do, and another line: only then the first is written. -/
example : (ageRun (ageInit 4 1024 3 100) [.log 101 b!"a", .flush 3000]).file = [] ∧
    (ageRun (ageInit 4 1024 3 100) [.log 101 b!"a", .flush 3000, .log 3701 b!"b", .flush 3702]).queue = [] ∧
    (ageRun (ageInit 4 1024 3 100) [.log 101 b!"a", .flush 3000, .log 3701 b!"b", .flush 3702]).file = [(101, b!"a"), (3701, b!"b")] ∧
    (ageRun (ageInit 1 2 3 100) [.log 101 b!"aaa", .log 101 b!"b", .log 101 b!"cc", .flush 101, .log 105 b!"d", .flush 105, .flush 105]).file =
      [(101, b!"aaa"), (101, b!"b"), (101, b!"cc"), (105, b!"d")] := by
  decide +kernel

end Cppnet
