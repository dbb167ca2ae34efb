import Verif.Spec.MuxSettings

/-! # C167: settings of a multiplexer; C168: no ready socket starves -/

namespace Cppnet
open Spec

theorem lastMax_snoc (h : List MuxEv) (e : MuxEv) : lastMax (h ++ [e]) = match e with
    | .setMax n => n
    | _ => lastMax h := by
  cases e <;> simp [lastMax]

theorem lastTimeout_snoc (h : List MuxEv) (e : MuxEv) : lastTimeout (h ++ [e]) = match e with
    | .setTimeout t => t
    | _ => lastTimeout h := by
  cases e <;> simp [lastTimeout]

/-- A wait of a multiplexer that is not `select`. -/
theorem wait_asked {m : Mux} (hm : m ≠ .select) {c : MuxCfg} (hpos : 0 < c.maxEvents) (hk : m = .kqueue → c.timeout ≠ 0) :
    m.wait c = .ok ⟨some c.maxEvents.toNat, lasts c.timeout⟩ := by
  have h1 : ¬ c.maxEvents ≤ 0 := by omega
  cases m with
  | epoll => simp only [Mux.wait, epollWait, lasts, if_neg h1]
  | kqueue =>
    have hk := hk rfl
    simp only [Mux.wait, kqWait, kqTimespec, lasts, if_neg h1]
    by_cases ht : c.timeout > 0
    · rw [if_pos ht, if_neg (by omega)]
      rw [Int.tdiv_eq_ediv_of_nonneg (by omega), Int.tmod_eq_emod_of_nonneg (by omega)]
      have : c.timeout / 1000 * 1000000000 + c.timeout % 1000 * 1000000 = c.timeout * 1000000 := by omega
      simp only [this]
      congr 3
      omega
    · rw [if_neg ht, if_pos (by omega)]
  | select => exact absurd rfl hm

theorem muxWaits_asked {m : Mux} (hm : m ≠ .select) : ∀ (evs past : List MuxEv),
    (∀ pre post, evs = pre ++ .wait :: post → 0 < lastMax (past ++ pre)) →
    (m = .kqueue → ∀ pre post, evs = pre ++ .wait :: post → lastTimeout (past ++ pre) ≠ 0) →
    ∃ ws, muxWaits m ⟨lastMax past, lastTimeout past⟩ evs = .ok ws ∧ ws.length = evs.count .wait ∧
      ∀ pre post, evs = pre ++ .wait :: post →
        ws[pre.count .wait]? = some ⟨some (lastMax (past ++ pre)).toNat, lasts (lastTimeout (past ++ pre))⟩ := by
  intro evs
  induction evs with
  | nil =>
    intro past _ _
    exact ⟨[], rfl, rfl, fun pre post h => by simp at h⟩
  | cons e evs ih =>
    intro past hpos hk
    have step := ih (past ++ [e]) (fun pre post h => by
        have := hpos (e :: pre) post (by simp [h])
        simpa using this) (fun hm' pre post h => by
        have := hk hm' (e :: pre) post (by simp [h])
        simpa using this)
    obtain ⟨ws, h1, h2, h3⟩ := step
    rw [lastMax_snoc, lastTimeout_snoc] at h1
    have rest : ∀ pre post, evs = pre ++ .wait :: post →
        ws[pre.count .wait]? = some ⟨some (lastMax (past ++ (e :: pre))).toNat, lasts (lastTimeout (past ++ (e :: pre)))⟩ := by
      intro pre post h
      have := h3 pre post h
      simpa using this
    cases e with
    | setMax n =>
      refine ⟨ws, h1, by rw [h2]; simp, fun pre post h => ?_⟩
      cases pre with
      | nil => simp at h
      | cons p pre =>
        simp only [List.cons_append, List.cons.injEq] at h
        obtain ⟨rfl, h⟩ := h
        rw [List.count_cons_of_ne (by simp)]
        exact rest pre post h
    | setTimeout n =>
      refine ⟨ws, h1, by rw [h2]; simp, fun pre post h => ?_⟩
      cases pre with
      | nil => simp at h
      | cons p pre =>
        simp only [List.cons_append, List.cons.injEq] at h
        obtain ⟨rfl, h⟩ := h
        rw [List.count_cons_of_ne (by simp)]
        exact rest pre post h
    | wait =>
      have hp : 0 < lastMax past := by simpa using hpos [] evs rfl
      have ht : m = .kqueue → lastTimeout past ≠ 0 := fun h => by simpa using hk h [] evs rfl
      refine ⟨⟨some (lastMax past).toNat, lasts (lastTimeout past)⟩ :: ws, ?_, by simp [h2], fun pre post h => ?_⟩
      · simp only [muxWaits]
        rw [wait_asked hm hp ht]
        simp only at h1
        rw [h1]
        rfl
      · cases pre with
        | nil => simp
        | cons p pre =>
          simp only [List.cons_append, List.cons.injEq] at h
          obtain ⟨rfl, h⟩ := h
          rw [List.count_cons_self, List.getElem?_cons_succ]
          exact rest pre post h

/-- C167, what holds on Linux and macOS: each wait of the event loop asks for as many events as were set last, and lasts as many milliseconds as
were set last (for ever if that is negative).  On macOS the timeout must not be 0.
Missing: a timeout of 0 on macOS, both settings on Windows, and a number of events that is not positive: see the refutations. -/
theorem C167_settings_partial {m : Mux} (hm : m ≠ .select) (evs : List MuxEv)
    (hpos : ∀ pre post, evs = pre ++ .wait :: post → 0 < lastMax pre)
    (hk : m = .kqueue → ∀ pre post, evs = pre ++ .wait :: post → lastTimeout pre ≠ 0) :
    ∃ ws, muxWaits m {} evs = .ok ws ∧ ws.length = evs.count .wait ∧
      ∀ pre post, evs = pre ++ .wait :: post →
        ws[pre.count .wait]? = some { max := some (lastMax pre).toNat, time := lasts (lastTimeout pre) } := by
  have := muxWaits_asked hm evs [] (by simpa using hpos) (by simpa using hk)
  simp only [List.nil_append] at this
  exact this

/-- C167 fails: with a timeout of 0 the loop on macOS waits for ever, where the one on Linux does not wait. -/
theorem C167_zero_refuted (n : Int) (hn : 0 < n) :
    muxWaits (createDefault .linux) {} [.setMax n, .setTimeout 0, .wait] = .ok [⟨some n.toNat, .ns 0⟩] ∧
    muxWaits (createDefault .apple) {} [.setMax n, .setTimeout 0, .wait] = .ok [⟨some n.toNat, .ever⟩] := by
  have h1 : ¬ n ≤ 0 := by omega
  constructor <;>
    simp [muxWaits, createDefault, Mux.wait, epollWait, kqWait, kqTimespec, MuxCfg.setMax, MuxCfg.setTimeout, h1, bind, Except.bind]

/-- C167 fails: on Windows no wait is bounded, whatever was set. -/
theorem C167_windows_refuted (evs : List MuxEv) (c : MuxCfg) :
    muxWaits (createDefault .windows) c evs = .ok (List.replicate (evs.count .wait) ⟨none, .ever⟩) := by
  induction evs generalizing c with
  | nil => rfl
  | cons e evs ih =>
    cases e with
    | setMax n => rw [List.count_cons_of_ne (by simp)]; exact ih _
    | setTimeout n => rw [List.count_cons_of_ne (by simp)]; exact ih _
    | wait =>
      rw [List.count_cons_self, List.replicate_succ]
      simp only [muxWaits]
      rw [ih c]
      rfl

/-- C167 fails: a number of events that is not positive is accepted, and the next wait is undefined (Linux and macOS). -/
theorem C167_not_positive_refuted {m : Mux} (hm : m ≠ .select) (n : Int) (hn : n ≤ 0) (evs : List MuxEv) :
    muxWaits m {} (.setMax n :: .wait :: evs) = .error .ub := by
  cases m with
  | select => exact absurd rfl hm
  | _ => simp [muxWaits, Mux.wait, epollWait, kqWait, MuxCfg.setMax, hn, bind, Except.bind]

theorem muxWaitsOn_room {m : Mux} {stack : Nat} : ∀ (evs past : List MuxEv),
    (∀ pre post, evs = pre ++ .wait :: post → m.place * lastMax (past ++ pre) ≤ stack) →
    muxWaitsOn stack m ⟨lastMax past, lastTimeout past⟩ evs = muxWaits m ⟨lastMax past, lastTimeout past⟩ evs := by
  intro evs
  induction evs with
  | nil => intro past _; rfl
  | cons e evs ih =>
    intro past h
    have step := ih (past ++ [e]) (fun pre post hp => by
      have := h (e :: pre) post (by simp [hp])
      simpa using this)
    rw [lastMax_snoc, lastTimeout_snoc] at step
    cases e with
    | setMax n => exact step
    | setTimeout n => exact step
    | wait =>
      have hroom : ¬ ((stack : Int) < m.place * lastMax past) := by
        have := h [] evs rfl
        simp only [List.append_nil] at this
        omega
      simp only at step
      simp only [muxWaitsOn, muxWaits, Mux.waitOn, if_neg hroom, step]

/-- C167, what holds on Linux and macOS if the events of each wait (12 bytes each on Linux, 32 on macOS) fit on the stack: the same as in
`C167_settings_partial`.  Missing: settings that do not fit, see `C167_stack_refuted`. -/
theorem C167_stack_partial {m : Mux} (hm : m ≠ .select) (stack : Nat) (evs : List MuxEv)
    (hpos : ∀ pre post, evs = pre ++ .wait :: post → 0 < lastMax pre)
    (hroom : ∀ pre post, evs = pre ++ .wait :: post → (if m = .epoll then 12 else 32) * lastMax pre ≤ stack)
    (hk : m = .kqueue → ∀ pre post, evs = pre ++ .wait :: post → lastTimeout pre ≠ 0) :
    ∃ ws, muxWaitsOn stack m {} evs = .ok ws ∧ ws.length = evs.count .wait ∧
      ∀ pre post, evs = pre ++ .wait :: post →
        ws[pre.count .wait]? = some { max := some (lastMax pre).toNat, time := lasts (lastTimeout pre) } := by
  have : muxWaitsOn stack m {} evs = muxWaits m {} evs := by
    refine muxWaitsOn_room evs [] fun pre post h => ?_
    have := hroom pre post h
    cases m with
    | epoll => simpa [Mux.place] using this
    | kqueue => simpa [Mux.place] using this
    | select => exact absurd rfl hm
  rw [this]
  exact C167_settings_partial hm evs hpos hk

/-- C167 fails: a number of events that does not fit on the stack is accepted, and the next wait is undefined; there is such a number for
every stack of up to 24 gigabytes. -/
theorem C167_stack_refuted {m : Mux} (hm : m ≠ .select) (stack : Nat) (hs : stack ≤ 24000000000) :
    ∃ n : Int, 0 < n ∧ n ≤ 2147483647 ∧ (∀ k, n ≤ k → k ≤ 2147483647 → ∀ evs, muxWaitsOn stack m {} (.setMax k :: .wait :: evs) = .error .ub) ∧
      ∃ ws, muxWaits m {} [.setMax n, .wait] = .ok ws := by
  have hp : 12 ≤ m.place := by cases m <;> simp [Mux.place] at hm ⊢
  refine ⟨stack / 12 + 1, by omega, by omega, fun k hk _ evs => ?_, ?_⟩
  · have hlt : (stack : Int) < m.place * k := by
      have h1 : (12 : Int) * k ≤ m.place * k := Int.mul_le_mul_of_nonneg_right (by omega) (by omega)
      omega
    have e : Mux.waitOn stack m (MuxCfg.setMax {} k) = .error .ub := if_pos hlt
    simp only [muxWaitsOn, e]
    rfl
  · have e := wait_asked hm (c := MuxCfg.setMax {} ((stack : Int) / 12 + 1)) (by simp only [MuxCfg.setMax]; omega) (fun _ => by simp [MuxCfg.setMax])
    exact ⟨[_], by simp only [muxWaits, e]; rfl⟩

/-- The defaults fit on a stack of 8 megabytes, a bound of a million events does not. -/
example : muxWaitsOn 8388608 .epoll {} [.wait, .setTimeout 50, .wait] = .ok [⟨some 1024, .ever⟩, ⟨some 1024, .ns 50000000⟩] ∧
    muxWaitsOn 8388608 .epoll {} [.setMax 1000000, .wait] = .error .ub ∧
    muxWaitsOn 8388608 .kqueue {} [.setMax 300000, .wait] = .error .ub := by
  decide +kernel

/-- Settings that are changed between two waits. -/
example : muxWaits .epoll {} [.wait, .setTimeout 50, .wait, .setMax 1, .setTimeout (-7), .wait] =
      .ok [⟨some 1024, .ever⟩, ⟨some 1024, .ns 50000000⟩, ⟨some 1, .ever⟩] ∧
    muxWaits .kqueue {} [.wait, .setTimeout 2050, .wait] = .ok [⟨some 1024, .ever⟩, ⟨some 1024, .ns 2050000000⟩] ∧
    lastMax [.wait, .setTimeout 50, .wait, .setMax 1, .setTimeout (-7)] = 1 ∧
    lastTimeout [.wait, .setTimeout 50, .wait, .setMax 1] = 50 := by
  decide +kernel

/-! ### C168 -/

/-- C168: a socket that is ready, with `i` others before it, is reported by one of the next `i / n + 1` waits, if each wait may report `n` events
or more and nobody overtakes it in the kernel's list: however often the sockets before it are ready again. -/
theorem C168_no_starvation (fd : Int) (n : Nat) (hn : 0 < n) (rounds : List (Nat × (List Int → List Int)))
    (hmax : ∀ r ∈ rounds, n ≤ r.1) (hlater : ∀ r ∈ rounds, NotOvertaken fd r.2) (before after : List Int)
    (hlen : before.length / n < rounds.length) :
    ∃ k out, k ≤ before.length / n ∧ (epollReports (before ++ fd :: after) rounds)[k]? = some out ∧ fd ∈ out := by
  induction rounds generalizing before after with
  | nil => simp at hlen
  | cons r rounds ih =>
    obtain ⟨max, later⟩ := r
    have hm : n ≤ max := hmax (max, later) (by simp)
    by_cases hb : before.length < max
    · refine ⟨0, (before ++ fd :: after).take max, Nat.zero_le _, rfl, ?_⟩
      rw [List.take_append, List.mem_append]
      right
      obtain ⟨j, hj⟩ : ∃ j, max - before.length = j + 1 := ⟨max - before.length - 1, by omega⟩
      rw [hj, List.take_succ_cons]
      simp
    · have e : (before ++ fd :: after).drop max = before.drop max ++ fd :: after := by
        rw [List.drop_append_of_le_length (by omega)]
      obtain ⟨a', b', h1, h2⟩ := hlater (max, later) (by simp) (before.drop max) after
      simp only at h1
      rw [List.length_drop] at h2
      have hge : n ≤ before.length := by omega
      have hdiv : before.length / n = (before.length - n) / n + 1 := by
        rw [← Nat.div_eq_sub_div hn hge]
      have hle : a'.length / n ≤ (before.length - n) / n := Nat.div_le_div_right (by omega)
      obtain ⟨k, out, k1, k2, k3⟩ := ih (fun r hr => hmax r (by simp [hr])) (fun r hr => hlater r (by simp [hr])) a' b'
        (by simp only [List.length_cons] at hlen; omega)
      refine ⟨k + 1, out, by omega, ?_, k3⟩
      simp only [epollReports, epollReport, List.getElem?_cons_succ]
      rw [e, h1]
      exact k2

/-- C168, the bound is sharp: with `n` events per wait the waits before number `i / n` do not report it, if all the sockets before it stay
ready. -/
theorem C168_sharp (fd : Int) (n : Nat) (before after : List Int) (hb : fd ∉ before) (later : List Int → List Int)
    (hid : ∀ l, later l = l) (k : Nat) (hk : (k + 1) * n ≤ before.length) (m : Nat) :
    ∀ out, (epollReports (before ++ fd :: after) (List.replicate m (n, later)))[k]? = some out → fd ∉ out := by
  induction k generalizing before m with
  | zero =>
    intro out h hm
    cases m with
    | zero => simp [epollReports] at h
    | succ m =>
      simp only [List.replicate_succ, epollReports, epollReport, List.getElem?_cons_zero, Option.some.injEq] at h
      subst h
      rw [List.take_append_of_le_length (by omega)] at hm
      exact hb (List.mem_of_mem_take hm)
  | succ k ih =>
    intro out h
    cases m with
    | zero => simp [epollReports] at h
    | succ m =>
      have hn : n ≤ before.length := by
        have : 1 * n ≤ (k + 1 + 1) * n := Nat.mul_le_mul_right n (by omega)
        omega
      simp only [List.replicate_succ, epollReports, epollReport, List.getElem?_cons_succ, hid] at h
      rw [List.drop_append_of_le_length hn] at h
      refine ih (before.drop n) (fun hm => hb (List.mem_of_mem_drop hm)) ?_ m out h
      rw [List.length_drop]
      rw [Nat.add_mul] at hk ⊢
      rw [Nat.add_mul] at hk
      omega

/-- Seven ready sockets, three events per wait; those that were reported are ready again and queue up behind the others. -/
example : epollReports [1, 2, 3, 4, 5, 6, 7] [(3, (· ++ [1, 2, 3])), (3, (· ++ [4, 5, 6])), (3, id)] =
    [[1, 2, 3], [4, 5, 6], [7, 1, 2]] := by decide

example : NotOvertaken 7 (· ++ [1, 2, 3]) := fun a b => ⟨a, b ++ [1, 2, 3], by simp, Nat.le_refl _⟩

end Cppnet
