import Verif.Model.HttpTls
import Verif.Proofs.Socket
import Verif.Proofs.TcpRel

/-!
# Lemmas about TLS sessions
-/

namespace Cppnet
variable {σ : Type}

/-- The session as a plain connection. -/
def Tls.conn (t : Tls) : Conn := ⟨t.stream, t.fin⟩

theorem flatten_dropWhile_isEmpty (l : List Str) : (l.dropWhile (·.isEmpty)).flatten = l.flatten := by
  induction l with
  | nil => rfl
  | cons r rs ih =>
    cases r with
    | nil => simpa using ih
    | cons c cs => simp

theorem dropWhile_head_ne {l : List Str} {r : Str} {rs : List Str} (h : l.dropWhile (·.isEmpty) = r :: rs) : r ≠ [] := by
  induction l with
  | nil => simp at h
  | cons a l ih =>
    cases a with
    | nil => exact ih (by simpa using h)
    | cons c cs => simp at h; rw [← h.1]; simp

theorem fill_stream (t : Tls) : t.fill.stream = t.stream ∧ t.fill.fin = t.fin := by
  unfold Tls.fill
  split
  · rename_i hp
    have := flatten_dropWhile_isEmpty t.records
    split
    · rename_i h
      rw [h] at this
      simp [Tls.stream, hp, ← this]
    · rename_i h
      rw [h] at this
      simp [Tls.stream, hp, ← this]
  · exact ⟨rfl, rfl⟩

theorem fill_pending (t : Tls) : t.fill.pending = [] ↔ t.stream = [] := by
  constructor
  · intro h
    rw [← (fill_stream t).1]
    unfold Tls.fill at h ⊢
    split at h
    · split at h
      · rename_i hp _ hd
        simp [Tls.stream, hp, hd]
      · rename_i hd
        exact absurd h (dropWhile_head_ne hd)
    · rename_i hp
      exact absurd h hp
  · intro h
    rw [← (fill_stream t).1] at h
    exact (List.append_eq_nil_iff.1 h).1

/-- A read that finds something. -/
theorem read_some (t : Tls) {num : Int} (hn : 0 < num) (hs : t.stream ≠ []) :
    ∃ bytes t', t.read num = ((bytes.length : Int), bytes, t') ∧ bytes ≠ [] ∧ (bytes.length : Int) ≤ num ∧
      t.stream = bytes ++ t'.stream ∧ t'.fin = t.fin := by
  have hp : t.fill.pending ≠ [] := fun h => hs ((fill_pending t).1 h)
  have hpos := List.length_pos_iff.2 hp
  refine ⟨t.fill.pending.take num.toNat, { t.fill with pending := t.fill.pending.drop num.toNat }, ?_, ?_, ?_, ?_, (fill_stream t).2⟩
  · unfold Tls.read
    rw [if_neg (by omega), if_neg hp]
    simp [List.length_take]
  · intro h
    have := congrArg List.length h
    simp only [List.length_take, List.length_nil] at this
    omega
  · simp only [List.length_take]; omega
  · rw [← (fill_stream t).1]
    simp [Tls.stream, ← List.append_assoc]

/-- A read at the end of the stream. -/
theorem read_none (t : Tls) {num : Int} (hn : 0 < num) (hs : t.stream = []) :
    ∃ t', t.read num = (t.fin, [], t') ∧ t'.stream = [] ∧ t'.fin = t.fin := by
  refine ⟨t.fill, ?_, by rw [(fill_stream t).1, hs], (fill_stream t).2⟩
  unfold Tls.read
  rw [if_neg (by omega), if_pos ((fill_pending t).2 hs)]

/-- `ReadUntil` over TLS is `ReadUntil` of the stream. -/
theorem tlsUntilLoop_conn (delim : Str) (last : Byte) : ∀ (fuel : Nat) (ch : Byte) (buf : Str) (t : Tls),
    t.stream.length < fuel → t.fin ≤ 0 →
    (tlsUntilLoop delim last fuel ch buf t).map (fun r => (r.1, r.2.1, r.2.2.conn)) =
      readUntilLoop delim last t.fin ch buf t.stream := by
  intro fuel
  induction fuel with
  | zero => intro ch buf t h; omega
  | succ fuel ih =>
    intro ch buf t hf hfin
    have hmore : ∀ c cs, t.stream = c :: cs → ∃ t' : Tls, t.read 1 = (1, [c], t') ∧ t'.stream = cs ∧ t'.fin = t.fin := by
      intro c cs h
      obtain ⟨bytes, t', h1, h2, h3, h4, h5⟩ := read_some t (num := 1) (by omega) (by rw [h]; simp)
      have hlen : bytes.length = 1 := by have := List.length_pos_iff.2 h2; omega
      obtain ⟨b, rfl⟩ := List.length_eq_one_iff.1 hlen
      rw [h] at h4
      simp only [List.cons_append, List.nil_append, List.cons.injEq] at h4
      exact ⟨t', by rw [h1, h4.1]; rfl, h4.2.symm, h5⟩
    unfold tlsUntilLoop
    cases hs : t.stream with
    | nil =>
      obtain ⟨t', h1, h2, h3⟩ := read_none t (num := 1) (by omega) hs
      have e1 : t'.conn = ⟨[], t.fin⟩ := by simp [Tls.conn, h2, h3]
      have e2 : t.conn = ⟨[], t.fin⟩ := by simp [Tls.conn, hs]
      unfold readUntilLoop
      simp only [h1, if_pos hfin]
      split
      · cases substrFrom buf (szSub buf.length delim.length) with
        | error e => rfl
        | ok s =>
          simp only
          split <;> simp [Except.map, e1, e2]
      · simp [Except.map, e1]
    | cons c cs =>
      obtain ⟨t', h1, h2, h3⟩ := hmore c cs hs
      have e2 : t.conn = ⟨c :: cs, t.fin⟩ := by simp [Tls.conn, hs]
      have hi := ih c (buf ++ [c]) t' (by rw [h2]; rw [hs] at hf; simp at hf; omega) (by omega)
      rw [h2, h3] at hi
      unfold readUntilLoop
      simp only [h1, if_neg (show ¬ (1 : Int) ≤ 0 by omega), List.headD_cons]
      split
      · cases substrFrom buf (szSub buf.length delim.length) with
        | error e => rfl
        | ok s =>
          simp only
          split
          · simp [Except.map, e2]
          · exact hi
      · exact hi

theorem tlsReadUntil_conn (t : Tls) (buf delim : Str) (hfin : t.fin ≤ 0) :
    (tlsReadUntil t buf delim).map (fun r => (r.1, r.2.1, r.2.2.conn)) = sockReadUntil t.conn buf delim := by
  unfold tlsReadUntil sockReadUntil
  cases delim.getLast? with
  | none => rfl
  | some last => exact tlsUntilLoop_conn delim last _ 0 buf t (by omega) hfin

/-- A complete read over TLS: all bytes, however the stream is cut into records, or an error. -/
theorem tlsReadAll_spec (len : Nat) (hlen : len < 2 ^ 31) : ∀ (fuel : Nat) (t : Tls) (got : Str), t.fin ≤ 0 →
    got.length ≤ len → len < fuel + got.length →
    (∃ bytes t', t.stream = bytes ++ t'.stream ∧ got.length + bytes.length = len ∧ t'.fin = t.fin ∧
      tlsReadAll len fuel t got = .ok ((len : Int), got ++ bytes, t')) ∨
    (t.stream.length + got.length < len ∧ ∃ bytes t', tlsReadAll len fuel t got = .ok (kSysErr, bytes, t')) := by
  intro fuel
  induction fuel with
  | zero => intro t got _ h1 h2; omega
  | succ fuel ih =>
    intro t got hfin hgot hfuel
    unfold tlsReadAll
    by_cases hg : got.length < len
    · rw [if_pos hg]
      have hnum : toInt32 (len - got.length) = ((len - got.length : Nat) : Int) := toInt32_small (by omega)
      have hpos : (0 : Int) < toInt32 (len - got.length) := by rw [hnum]; omega
      by_cases hs : t.stream = []
      · obtain ⟨t', h1, h2, h3⟩ := read_none t hpos hs
        right
        rw [h1]
        refine ⟨by rw [hs]; simpa using hg, got, t', ?_⟩
        simp only [if_pos hfin]
      · obtain ⟨bytes, t', h1, h2, h3, h4, h5⟩ := read_some t hpos hs
        have hb := List.length_pos_iff.2 h2
        rw [hnum] at h3
        rw [h1]
        simp only [if_neg (show ¬ (bytes.length : Int) ≤ 0 by omega)]
        rcases ih t' (got ++ bytes) (by omega) (by simp; omega) (by simp; omega) with ⟨b2, t2, g1, g2, g3, g4⟩ | ⟨g1, b2, t2, g2⟩
        · left
          refine ⟨bytes ++ b2, t2, by rw [h4, g1]; simp, ?_, by rw [g3, h5], by rw [g4]; simp⟩
          simp only [List.length_append] at g2 ⊢
          omega
        · right
          refine ⟨?_, b2, t2, g2⟩
          rw [h4]
          simp only [List.length_append] at g1 ⊢
          omega
    · rw [if_neg hg]
      left
      refine ⟨[], t, rfl, by simp; omega, rfl, ?_⟩
      have : got.length = len := by omega
      rw [this, toInt32_small hlen]
      simp

/-! ### Where the records are -/

/-- The session is `rem` bytes before the record boundary at which the records `later` begin; no record is empty. -/
def Before (t : Tls) (rem : Str) (later : List Str) : Prop :=
  ∃ pre, t.records = pre ++ later ∧ t.pending ++ pre.flatten = rem ∧ (∀ r ∈ pre ++ later, r ≠ [])

theorem Before.stream {t : Tls} {rem : Str} {later : List Str} (h : Before t rem later) : t.stream = rem ++ later.flatten := by
  obtain ⟨pre, h1, h2, _⟩ := h
  simp [Tls.stream, h1, ← h2]

/-- At the boundary nothing is pending. -/
theorem Before.done {t : Tls} {later : List Str} (h : Before t [] later) : t.pending = [] ∧ t.records = later := by
  obtain ⟨pre, h1, h2, h3⟩ := h
  obtain ⟨h4, h5⟩ := List.append_eq_nil_iff.1 h2
  cases pre with
  | nil => exact ⟨h4, h1⟩
  | cons r rs =>
    simp at h5
    exact absurd h5.1 (h3 r (by simp))

theorem Before.fill {t : Tls} {rem : Str} {later : List Str} (h : Before t rem later) (hr : rem ≠ []) : Before t.fill rem later := by
  obtain ⟨pre, h1, h2, h3⟩ := h
  unfold Tls.fill
  split
  · rename_i hp
    cases pre with
    | nil => exact absurd (by simpa [hp] using h2.symm) hr
    | cons r rs =>
      have hrne : r ≠ [] := h3 r (by simp)
      have : t.records.dropWhile (·.isEmpty) = r :: (rs ++ later) := by
        rw [h1]
        cases r with
        | nil => exact absurd rfl hrne
        | cons c cs => simp
      rw [this]
      refine ⟨rs, rfl, ?_, fun x hx => h3 x (by simp at hx ⊢; exact Or.inr hx)⟩
      rw [hp] at h2
      simpa using h2
  · exact ⟨pre, h1, h2, h3⟩

/-- Reading before the boundary. -/
theorem Before.read {t t' : Tls} {rem : Str} {later : List Str} {num rc : Int} {bytes : Str}
    (h : Before t rem later) (hne : rem ≠ []) (hn : 0 < num) (hr : t.read num = (rc, bytes, t')) :
    Before t' (rem.drop bytes.length) later := by
  have hf := h.fill hne
  have hs : t.stream ≠ [] := by rw [h.stream]; simp [hne]
  have hp : t.fill.pending ≠ [] := fun e => hs ((fill_pending t).1 e)
  unfold Tls.read at hr
  rw [if_neg (by omega), if_neg hp] at hr
  simp only [Prod.mk.injEq] at hr
  obtain ⟨pre, h1, h2, h3⟩ := hf
  obtain ⟨_, rfl, rfl⟩ := hr
  refine ⟨pre, h1, ?_, h3⟩
  rw [← h2]
  simp only [List.length_take]
  rcases Nat.le_total num.toNat t.fill.pending.length with hle | hle
  · rw [Nat.min_eq_left hle, List.drop_append_of_le_length hle]
  · rw [Nat.min_eq_right hle, List.drop_append_of_le_length (Nat.le_refl _), List.drop_eq_nil_of_le hle]
    simp

/-- Skipping bytes before the boundary. -/
theorem Before.skip {later : List Str} : ∀ (n : Nat) (rem : Str) (t : Tls), Before t rem later → n ≤ rem.length →
    Before (t.skip n) (rem.drop n) later := by
  intro n
  induction n with
  | zero => intro rem t h _; exact h
  | succ n ih =>
    intro rem t h hl
    have hne : rem ≠ [] := by intro e; rw [e] at hl; simp at hl
    have hs : t.stream ≠ [] := by rw [h.stream]; simp [hne]
    obtain ⟨bytes, t', h1, h2, h3, _⟩ := read_some t (num := 1) (by omega) hs
    have hb : bytes.length = 1 := by have := List.length_pos_iff.2 h2; omega
    have h4 := h.read hne (by omega) h1
    rw [hb] at h4
    have := ih (rem.drop 1) t' h4 (by simp; omega)
    simp only [Tls.skip, h1]
    simpa [List.drop_drop, Nat.add_comm] using this

/-- `t'` is `t` after some reading; if that did not go past the boundary the boundary is still ahead. -/
def TlsReads (t t' : Tls) : Prop :=
  t'.records <:+ t.records ∧ ∃ used, t.stream = used ++ t'.stream ∧ t'.fin = t.fin ∧
    ∀ rem later, Before t rem later → used.length ≤ rem.length → Before t' (rem.drop used.length) later

theorem TlsReads.refl (t : Tls) : TlsReads t t := ⟨List.suffix_refl _, [], rfl, rfl, fun _ _ h _ => h⟩

theorem TlsReads.trans {t1 t2 t3 : Tls} (h : TlsReads t1 t2) (h' : TlsReads t2 t3) : TlsReads t1 t3 := by
  obtain ⟨a0, u1, a1, a2, a3⟩ := h
  obtain ⟨b0, u2, b1, b2, b3⟩ := h'
  refine ⟨b0.trans a0, u1 ++ u2, by rw [a1, b1]; simp, by rw [b2, a2], fun rem later hb hl => ?_⟩
  simp only [List.length_append] at hl ⊢
  have := b3 _ _ (a3 rem later hb (by omega)) (by simp; omega)
  simpa [List.drop_drop, Nat.add_comm] using this

theorem Before.nil_read {t : Tls} {rem : Str} {later : List Str} {num : Int} (hn : 0 < num) (hs : t.stream = [])
    (h : Before t rem later) : Before (t.read num).2.2 rem later := by
  have e : t.fill.pending = [] := (fill_pending t).2 hs
  have hst := h.stream
  rw [hs] at hst
  have := List.append_eq_nil_iff.1 hst.symm
  obtain ⟨hr, hl⟩ := this
  subst hr
  obtain ⟨d1, d2⟩ := h.done
  obtain ⟨pre, h1, h2, h3⟩ := h
  have hlater : later = [] := by
    cases later with
    | nil => rfl
    | cons r rs =>
      simp at hl
      exact absurd hl.1 (h3 r (by simp))
  subst hlater
  unfold Tls.read
  rw [if_neg (by omega), if_pos e]
  refine ⟨[], ?_, ?_, by simp⟩
  · unfold Tls.fill
    rw [if_pos d1, d2]
    rfl
  · simpa using e

theorem fill_records (t : Tls) : t.fill.records <:+ t.records := by
  unfold Tls.fill
  split
  · have := List.dropWhile_suffix (l := t.records) (·.isEmpty)
    split
    · exact List.nil_suffix
    · rename_i h
      rw [h] at this
      exact (List.suffix_cons _ _).trans this
  · exact List.suffix_refl _

theorem read_records (t : Tls) (num : Int) : (t.read num).2.2.records <:+ t.records := by
  unfold Tls.read
  split
  · exact List.suffix_refl _
  · split
    · exact fill_records t
    · exact fill_records t

theorem read_reads (t : Tls) {num : Int} (hn : 0 < num) : TlsReads t (t.read num).2.2 := by
  by_cases hs : t.stream = []
  · obtain ⟨t', h1, h2, h3⟩ := read_none t hn hs
    refine ⟨read_records t num, [], by rw [h1, hs, h2]; rfl, by rw [h1]; exact h3, fun rem later hb _ => ?_⟩
    exact hb.nil_read hn hs
  · obtain ⟨bytes, t', h1, h2, h3, h4, h5⟩ := read_some t hn hs
    refine ⟨read_records t num, bytes, by rw [h1]; exact h4, by rw [h1]; exact h5, fun rem later hb hl => ?_⟩
    refine hb.read ?_ hn h1 |> fun x => by rw [h1]; exact x
    intro e
    rw [e] at hl
    have := List.length_pos_iff.2 h2
    simp at hl
    exact absurd hl h2

theorem tlsUntilLoop_reads (delim : Str) (last : Byte) : ∀ (fuel : Nat) (ch : Byte) (buf : Str) (t : Tls) (r : Int × Str × Tls),
    tlsUntilLoop delim last fuel ch buf t = .ok r → TlsReads t r.2.2 := by
  intro fuel
  induction fuel with
  | zero => intro ch buf t r h; cases h
  | succ fuel ih =>
    intro ch buf t r h
    have hmore : ∀ {b : Byte → Str}, (match t.read 1 with
      | (rc, bytes, t') =>
        if rc ≤ 0 then (.ok (rc, buf, t') : Out (Int × Str × Tls))
        else tlsUntilLoop delim last fuel (bytes.headD 0) (b (bytes.headD 0)) t') = .ok r → TlsReads t r.2.2 := by
      intro b h
      have hr := read_reads t (num := 1) (by omega)
      cases hx : t.read 1 with
      | mk rc x =>
        obtain ⟨bytes, t'⟩ := x
        rw [hx] at h hr
        simp only at h hr
        split at h
        · cases h; exact hr
        · exact hr.trans (ih _ _ _ _ h)
    unfold tlsUntilLoop at h
    simp only at h
    split at h
    · split at h
      · cases h
      · split at h
        · cases h; exact TlsReads.refl t
        · exact hmore (b := fun c => buf ++ [c]) h
    · exact hmore (b := fun c => buf ++ [c]) h

theorem tlsReadUntil_reads {t : Tls} {buf delim : Str} {r : Int × Str × Tls} (h : tlsReadUntil t buf delim = .ok r) : TlsReads t r.2.2 := by
  unfold tlsReadUntil at h
  split at h
  · cases h; exact TlsReads.refl t
  · exact tlsUntilLoop_reads _ _ _ _ _ _ _ h

theorem tlsReadAll_reads (len : Nat) (hlen : len < 2 ^ 31) : ∀ (fuel : Nat) (t : Tls) (got : Str) (r : Int × Str × Tls),
    tlsReadAll len fuel t got = .ok r → TlsReads t r.2.2 := by
  intro fuel
  induction fuel with
  | zero => intro t got r h; cases h
  | succ fuel ih =>
    intro t got r h
    unfold tlsReadAll at h
    split at h
    · rename_i hg
      have hnum : toInt32 (len - got.length) = ((len - got.length : Nat) : Int) := toInt32_small (by omega)
      have hr := read_reads t (num := toInt32 (len - got.length)) (by rw [hnum]; omega)
      cases hx : t.read (toInt32 (len - got.length)) with
      | mk rc x =>
        obtain ⟨bytes, t'⟩ := x
        rw [hx] at h hr
        simp only at h hr
        split at h
        · cases h; exact hr
        · exact hr.trans (ih _ _ _ h)
    · cases h; exact TlsReads.refl t

theorem skip_reads : ∀ (n : Nat) (t : Tls), TlsReads t (t.skip n) := by
  intro n
  induction n with
  | zero => intro t; exact TlsReads.refl t
  | succ n ih => intro t; exact (read_reads t (by omega)).trans (ih _)

end Cppnet
