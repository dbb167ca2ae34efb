import Verif.Spec.SockCopies

/-!
# C170: sockets and their copies
-/

namespace Cppnet
open Spec

@[simp] theorem upd_same {α β : Type} [DecidableEq α] (f : α → β) (a : α) (b : β) : upd f a b a = b := by simp [upd]

theorem upd_at {α β : Type} [DecidableEq α] (f : α → β) (a x : α) (b : β) : upd f a b x = if x = a then b else f x := rfl

/-- What holds after every history. -/
structure VarsInv (w : SockVars) (log : List Reach) : Prop where
  num : ∀ fd n, w.table fd = some n → n < w.next ∧ 0 ≤ fd
  inj : ∀ fd fd' n, w.table fd = some n → w.table fd' = some n → fd = fd'
  own : ∀ v n, w.held v = some n → n < w.next ∧ ∀ fd, w.table fd = some n → fd = (w.var v).fd
  none : ∀ v, w.held v = none → (w.var v).fd < 0
  gone : ∀ n, n < w.next → (StillOpen w n ↔ ¬ ClosedIn log n)
  past : ∀ n, ClosedIn log n → n < w.next
  once : ∀ n, (log.filter fun r => r.close && decide (r.hit = some n)).length ≤ 1

theorem table_neg {w : SockVars} {log : List Reach} (h : VarsInv w log) {fd : Int} (hf : fd < 0) : w.table fd = none := by
  cases e : w.table fd with
  | none => rfl
  | some n => have := (h.num fd n e).2; omega

theorem closedIn_append {log l : List Reach} {n : Nat} : ClosedIn (log ++ l) n ↔ ClosedIn log n ∨ ClosedIn l n := by
  unfold ClosedIn
  constructor
  · rintro ⟨r, h, h2⟩
    rcases List.mem_append.1 h with h | h
    · exact Or.inl ⟨r, h, h2⟩
    · exact Or.inr ⟨r, h, h2⟩
  · rintro (⟨r, h, h2⟩ | ⟨r, h, h2⟩)
    · exact ⟨r, List.mem_append_left _ h, h2⟩
    · exact ⟨r, List.mem_append_right _ h, h2⟩

/-- Reaches of which none is a `close` do not matter. -/
theorem varsInv_quiet {w : SockVars} {log l : List Reach} (h : VarsInv w log) (hl : ∀ r ∈ l, r.close = false) : VarsInv w (log ++ l) := by
  have hn : ∀ n, ¬ ClosedIn l n := by
    rintro n ⟨r, hr, hc, _⟩
    rw [hl r hr] at hc; cases hc
  have e : ∀ n, ClosedIn (log ++ l) n ↔ ClosedIn log n := fun n => by
    rw [closedIn_append]; exact ⟨fun h => h.resolve_right (hn n), Or.inl⟩
  refine ⟨h.num, h.inj, h.own, h.none, fun n hn => by rw [e]; exact h.gone n hn, fun n hn => h.past n ((e n).1 hn), fun n => ?_⟩
  rw [List.filter_append]
  have : l.filter (fun r => r.close && decide (r.hit = some n)) = [] := by
    rw [List.filter_eq_nil_iff]
    intro r hr
    simp [hl r hr]
  rw [this, List.append_nil]
  exact h.once n

/-- A variable changes, but not its descriptor. -/
theorem varsInv_var {w : SockVars} {log : List Reach} (h : VarsInv w log) (v : Nat) (s : Sock) (hs : s.fd = (w.var v).fd) :
    VarsInv { w with var := upd w.var v s } log := by
  have e : ∀ u, (upd w.var v s u).fd = (w.var u).fd := by
    intro u
    rw [upd_at]
    split
    · rename_i hu; rw [hu, hs]
    · rfl
  refine ⟨h.num, h.inj, fun u n hu => ?_, fun u hu => ?_, h.gone, h.past, h.once⟩
  · simp only [e]; exact h.own u n hu
  · simp only [e]; exact h.none u hu

/-- A new descriptor. -/
theorem varsInv_opens {w : SockVars} {log : List Reach} (h : VarsInv w log) {fd : Int} (h0 : 0 ≤ fd) (hf : w.table fd = none) :
    VarsInv (w.opens fd) log := by
  have keep : ∀ x n, (w.opens fd).table x = some n → (x = fd ∧ n = w.next) ∨ (x ≠ fd ∧ w.table x = some n) := by
    intro x n hx
    simp only [SockVars.opens, upd_at] at hx
    split at hx
    · rename_i e; exact Or.inl ⟨e, by simpa using hx.symm⟩
    · rename_i e; exact Or.inr ⟨e, hx⟩
  refine ⟨fun x n hx => ?_, fun x y n hx hy => ?_, fun v n hv => ?_, h.none, fun n hn => ?_, fun n hn => ?_, h.once⟩
  · show n < w.next + 1 ∧ 0 ≤ x
    rcases keep x n hx with ⟨e1, e2⟩ | ⟨_, e⟩
    · exact ⟨by omega, by omega⟩
    · have := h.num x n e; exact ⟨by omega, this.2⟩
  · rcases keep x n hx with ⟨e1, e2⟩ | ⟨_, e⟩ <;> rcases keep y n hy with ⟨e3, e4⟩ | ⟨_, e'⟩
    · omega
    · have := (h.num y n e').1; omega
    · have := (h.num x n e).1; omega
    · exact h.inj x y n e e'
  · obtain ⟨h1, h2⟩ := h.own v n hv
    refine ⟨Nat.lt_succ_of_lt h1, fun x hx => ?_⟩
    rcases keep x n hx with ⟨_, e⟩ | ⟨_, e⟩
    · omega
    · exact h2 x e
  · have hn : n < w.next + 1 := hn
    by_cases e : n = w.next
    · subst e
      refine ⟨fun _ hc => ?_, fun _ => ⟨fd, by simp [SockVars.opens]⟩⟩
      have := h.past _ hc; omega
    · rw [← h.gone n (by omega)]
      constructor
      · rintro ⟨x, hx⟩
        rcases keep x n hx with ⟨_, e'⟩ | ⟨_, e'⟩
        · exact absurd e' e
        · exact ⟨x, e'⟩
      · rintro ⟨x, hx⟩
        refine ⟨x, ?_⟩
        have hne : x ≠ fd := fun e' => by rw [e', hf] at hx; cases hx
        simp [SockVars.opens, upd_at, hne, hx]
  · exact Nat.lt_succ_of_lt (h.past n hn)

/-- A variable is given the newest opening. -/
theorem varsInv_given {w : SockVars} {log : List Reach} (h : VarsInv w log) (v : Nat) (s : Sock) (n : Nat) (hn : n < w.next)
    (hs : w.table s.fd = some n) : VarsInv { w with var := upd w.var v s, held := upd w.held v (some n) } log := by
  refine ⟨h.num, h.inj, fun u m hu => ?_, fun u hu => ?_, h.gone, h.past, h.once⟩
  · simp only [upd_at] at hu ⊢
    split at hu
    · rename_i e
      rw [if_pos e]
      simp only [Option.some.injEq] at hu
      subst hu
      exact ⟨hn, fun fd hfd => h.inj _ _ _ hfd hs⟩
    · rename_i e
      rw [if_neg e]
      exact h.own u m hu
  · simp only [upd_at] at hu ⊢
    split at hu
    · cases hu
    · rename_i e
      rw [if_neg e]; exact h.none u hu

/-- A variable is given no descriptor. -/
theorem varsInv_empty {w : SockVars} {log : List Reach} (h : VarsInv w log) (v : Nat) (s : Sock) (hs : s.fd < 0) :
    VarsInv { w with var := upd w.var v s, held := upd w.held v none } log := by
  refine ⟨h.num, h.inj, fun u m hu => ?_, fun u hu => ?_, h.gone, h.past, h.once⟩
  · simp only [upd_at] at hu ⊢
    split at hu
    · cases hu
    · rename_i e
      rw [if_neg e]; exact h.own u m hu
  · simp only [upd_at] at hu ⊢
    split at hu
    · rename_i e; rw [if_pos e]; exact hs
    · rename_i e
      rw [if_neg e]; exact h.none u hu

/-- A descriptor is closed. -/
theorem varsInv_closes {w : SockVars} {log : List Reach} (h : VarsInv w log) (fd : Int) (r : Reach) (hc : r.close = true)
    (hr : r.hit = w.table fd) : VarsInv { w with table := upd w.table fd none } (log ++ [r]) := by
  have keep : ∀ x n, upd w.table fd none x = some n ↔ (x ≠ fd ∧ w.table x = some n) := by
    intro x n
    rw [upd_at]
    split
    · rename_i e; simp [e]
    · rename_i e; simp [e]
  have hcl : ∀ n, ClosedIn [r] n ↔ w.table fd = some n := by
    intro n
    unfold ClosedIn
    simp [hc, hr]
  refine ⟨fun x n hx => h.num x n ((keep x n).1 hx).2, fun x y n hx hy => h.inj x y n ((keep x n).1 hx).2 ((keep y n).1 hy).2,
    fun v n hv => ⟨(h.own v n hv).1, fun x hx => (h.own v n hv).2 x ((keep x n).1 hx).2⟩, h.none, fun n hn => ?_,
    fun n hn => ?_, fun n => ?_⟩
  · have := h.gone n hn
    rw [closedIn_append, hcl]
    constructor
    · rintro ⟨x, hx⟩ hor
      have ⟨h1, h2⟩ := (keep x n).1 hx
      rcases hor with hor | hor
      · exact this.1 ⟨x, h2⟩ hor
      · exact h1 (h.inj _ _ _ h2 hor)
    · intro hor
      obtain ⟨x, hx⟩ := this.2 (fun hc => hor (Or.inl hc))
      exact ⟨x, (keep x n).2 ⟨fun e => hor (Or.inr (e ▸ hx)), hx⟩⟩
  · rcases closedIn_append.1 hn with hn | hn
    · exact h.past n hn
    · exact (h.num fd n ((hcl n).1 hn)).1
  · rw [List.filter_append, List.length_append]
    by_cases e : w.table fd = some n
    · have h0 : log.filter (fun r => r.close && decide (r.hit = some n)) = [] := by
        rw [List.filter_eq_nil_iff]
        intro x hx hp
        simp only [Bool.and_eq_true, decide_eq_true_eq] at hp
        exact (h.gone n (h.num _ _ e).1).1 ⟨fd, e⟩ ⟨x, hx, hp⟩
      rw [h0]
      simp only [List.length_nil, Nat.zero_add]
      exact List.length_filter_le _ _
    · have h0 : [r].filter (fun r => r.close && decide (r.hit = some n)) = [] := by simp [hr, e]
      rw [h0]
      simpa using h.once n

/-- The calls other than the ones that open or close: the descriptor stays, and each system call is applied to it. -/
def Ordinary : SockOp → Prop
  | .init _ | .initUdp _ | .accept _ | .close _ => False
  | _ => True

theorem apply_ordinary (s : Sock) (op : SockOp) (h : Ordinary op) :
    (s.apply op).1 = s ∧ ∀ c ∈ (s.apply op).2.2, c.fd? = some s.fd ∧ ∀ fd, c ≠ .close fd := by
  cases op <;> simp only [Ordinary] at h <;> simp only [Sock.apply, Sock.guarded] <;> (try split) <;>
    simp [Syscall.fd?] <;> (try (intros; simp_all [Syscall.fd?]))

theorem step_ordinary (w : SockVars) (v : Nat) (op : SockOp) (h : Ordinary op) :
    w.step (.call v op) = ({ w with var := upd w.var v (w.var v) }, w.reaches v ((w.var v).apply op).2.2) := by
  obtain ⟨h1, h2⟩ := apply_ordinary (w.var v) op h
  have hc : w.closes ((w.var v).apply op).2.2 = w := by
    unfold SockVars.closes
    split
    · rename_i fd cs e
      exact absurd rfl ((h2 (.close fd) (by rw [e]; simp)).2 fd)
    · rfl
  cases op <;> simp only [Ordinary] at h <;> simp only [SockVars.step, h1, hc]

theorem reaches_quiet (w : SockVars) (v : Nat) (calls : List Syscall) (h : ∀ c ∈ calls, ∀ fd, c ≠ .close fd) :
    ∀ r ∈ w.reaches v calls, r.close = false := by
  intro r hr
  simp only [SockVars.reaches, List.mem_filterMap, Option.map_eq_some_iff] at hr
  obtain ⟨c, hc, fd, _, e⟩ := hr
  subst e
  cases c <;> first | rfl | exact absurd rfl (h _ hc _)

theorem varsInv_step {w : SockVars} {log : List Reach} (h : VarsInv w log) (op : VarOp) (ha : w.Answers op) :
    VarsInv (w.step op).1 (log ++ (w.step op).2) := by
  have create : ∀ v res, (0 ≤ res → w.table res = none) → VarsInv
      (if res < 0 then { w with var := upd w.var v ((w.var v).create res).1, held := upd w.held v none }
        else { w.opens res with var := upd w.var v ((w.var v).create res).1, held := upd w.held v (some w.next) }) log := by
    intro v res hres
    by_cases hn : res < 0
    · rw [if_pos hn]
      exact varsInv_empty h v _ (by simp [Sock.create, hn])
    · rw [if_neg hn]
      have h1 := varsInv_opens h (fd := res) (by omega) (hres (by omega))
      exact varsInv_given h1 v _ w.next (Nat.lt_succ_self _) (by simp [Sock.create, hn, SockVars.opens])
  cases op with
  | copy src dst =>
    show VarsInv { w with var := upd w.var dst (w.var src), held := upd w.held dst (w.held src) } (log ++ [])
    rw [List.append_nil]
    refine ⟨h.num, h.inj, fun u m hu => ?_, fun u hu => ?_, h.gone, h.past, h.once⟩
    · simp only [upd_at] at hu ⊢
      split at hu
      · rename_i e; rw [if_pos e]; exact h.own src m hu
      · rename_i e; rw [if_neg e]; exact h.own u m hu
    · simp only [upd_at] at hu ⊢
      split at hu
      · rename_i e; rw [if_pos e]; exact h.none src hu
      · rename_i e; rw [if_neg e]; exact h.none u hu
  | elsewhere fd =>
    show VarsInv (w.opens fd) (log ++ [])
    rw [List.append_nil]
    exact varsInv_opens h ha.1 ha.2
  | accept v into res =>
    have hself : ∀ x : SockVars, VarsInv x log → VarsInv { x with var := upd x.var v (x.var v) } log :=
      fun x hx => varsInv_var hx v _ rfl
    by_cases hst : (w.var v).status ≠ .init
    · have e : (w.var v).apply (.accept res) = (w.var v, -1, []) := by simp [Sock.apply, Sock.guarded, hst]
      simp only [SockVars.step, e, true_or, if_true, SockVars.reaches, List.filterMap_nil, List.append_nil]
      exact varsInv_empty (hself w h) into (Sock.ofFd (-1)) (by simp [Sock.ofFd])
    · have e : (w.var v).apply (.accept res) = (w.var v, res, [.accept (w.var v).fd]) := by
        simp only [Sock.apply, Sock.guarded, if_neg hst]
      simp only [SockVars.step, e, List.cons_ne_nil, false_or]
      have hq : ∀ x, VarsInv x log → VarsInv x (log ++ w.reaches v [.accept (w.var v).fd]) := fun x hx =>
        varsInv_quiet hx (reaches_quiet w v _ (by simp))
      refine hq _ ?_
      by_cases hn : res < 0
      · rw [if_pos hn]
        exact varsInv_empty (hself w h) into (Sock.ofFd res) (by simp [Sock.ofFd, hn])
      · rw [if_neg hn]
        have h1 := varsInv_opens h (fd := res) (by omega) (ha (by omega))
        exact varsInv_given (hself _ h1) into (Sock.ofFd res) w.next (Nat.lt_succ_self _) (by simp [Sock.ofFd, hn, SockVars.opens])
  | call v op =>
    by_cases ho : Ordinary op
    · rw [step_ordinary w v op ho]
      exact varsInv_quiet (varsInv_var h v _ rfl) (reaches_quiet w v _ fun c hc => ((apply_ordinary _ op ho).2 c hc).2)
    · cases op with
      | init res =>
        have := create v res ha
        have e : w.step (.call v (.init res)) =
            (if res < 0 then { w with var := upd w.var v ((w.var v).create res).1, held := upd w.held v none }
              else { w.opens res with var := upd w.var v ((w.var v).create res).1, held := upd w.held v (some w.next) }, []) := by
          simp only [SockVars.step, Sock.apply, Sock.create]
          split <;> simp [SockVars.closes, SockVars.reaches, Syscall.fd?, SockVars.opens]
        rw [e]
        simpa using this
      | initUdp res =>
        have := create v res ha
        have e : w.step (.call v (.initUdp res)) =
            (if res < 0 then { w with var := upd w.var v ((w.var v).create res).1, held := upd w.held v none }
              else { w.opens res with var := upd w.var v ((w.var v).create res).1, held := upd w.held v (some w.next) }, []) := by
          simp only [SockVars.step, Sock.apply, Sock.create]
          split <;> simp [SockVars.closes, SockVars.reaches, Syscall.fd?, SockVars.opens]
        rw [e]
        simpa using this
      | accept res =>
        by_cases hst : (w.var v).status ≠ .init
        · have e : (w.var v).apply (.accept res) = (w.var v, -1, []) := by simp [Sock.apply, Sock.guarded, hst]
          simp only [SockVars.step, e, true_or, if_true, SockVars.reaches, List.filterMap_nil, List.append_nil, SockVars.closes]
          exact varsInv_var h v _ rfl
        · have e : (w.var v).apply (.accept res) = (w.var v, res, [.accept (w.var v).fd]) := by
            simp only [Sock.apply, Sock.guarded, if_neg hst]
          simp only [SockVars.step, e, List.cons_ne_nil, false_or, SockVars.closes]
          refine varsInv_quiet ?_ (reaches_quiet w v _ (by simp))
          by_cases hn : res < 0
          · rw [if_pos hn]; exact varsInv_var h v _ rfl
          · rw [if_neg hn]
            exact varsInv_opens (varsInv_var h v _ rfl) (by omega) (ha (by omega))
      | close res =>
        simp only [SockVars.step, Sock.apply]
        by_cases hst : (w.var v).status ≠ .init
        · rw [if_pos hst]
          simp only [SockVars.reaches, List.filterMap_nil, List.append_nil, SockVars.closes]
          exact varsInv_var h v _ rfl
        · rw [if_neg hst]
          have e : w.reaches v [.close (w.var v).fd] = [⟨v, true, w.held v, w.table (w.var v).fd⟩] := by
            simp [SockVars.reaches, Syscall.fd?]
          simp only [e, SockVars.closes]
          have := varsInv_closes h (w.var v).fd ⟨v, true, w.held v, w.table (w.var v).fd⟩ rfl rfl
          exact varsInv_var this v { w.var v with status := .closed } rfl
      | _ => exact absurd trivial ho

theorem varsInv_run {w : SockVars} {log : List Reach} (h : SockRun w log) : VarsInv w log := by
  induction h with
  | start =>
    refine ⟨fun _ _ h => (by cases h), fun _ _ _ h => (by cases h), fun _ _ h => (by cases h), fun _ _ => (by show (-1 : Int) < 0; decide),
      fun n hn => ?_, fun n hn => ?_, fun n => by simp⟩
    · exact absurd hn (Nat.not_lt_zero n)
    · obtain ⟨r, hr, _⟩ := hn; cases hr
  | step _ ha ih => exact varsInv_step ih _ ha

/-- Every system call is applied to the descriptor of the variable. -/
theorem reach_mem {w : SockVars} {op : VarOp} {r : Reach} (h : r ∈ (w.step op).2) :
    r.own = w.held r.v ∧ r.hit = w.table (w.var r.v).fd := by
  have key : ∀ v calls, (∀ c ∈ calls, ∀ fd, Syscall.fd? c = some fd → fd = (w.var v).fd) → r ∈ w.reaches v calls →
      r.own = w.held r.v ∧ r.hit = w.table (w.var r.v).fd := by
    intro v calls hc hr
    simp only [SockVars.reaches, List.mem_filterMap, Option.map_eq_some_iff] at hr
    obtain ⟨c, hm, fd, hf, e⟩ := hr
    rw [← e, hc c hm fd hf]
    exact ⟨rfl, rfl⟩
  cases op with
  | copy => cases h
  | elsewhere => cases h
  | accept v into res =>
    simp only [SockVars.step, Sock.apply, Sock.guarded] at h
    by_cases hst : (w.var v).status ≠ .init
    · rw [if_pos hst] at h; exact key v _ (by simp) h
    · rw [if_neg hst] at h
      exact key v _ (by intro c hc fd hf; simp at hc; subst hc; simpa [Syscall.fd?] using hf.symm) h
  | call v op =>
    by_cases ho : Ordinary op
    · rw [step_ordinary w v op ho] at h
      refine key v _ (fun c hc fd hf => ?_) h
      have := ((apply_ordinary (w.var v) op ho).2 c hc).1
      rw [this] at hf
      simpa using hf.symm
    · cases op with
      | init res =>
        simp only [SockVars.step, Sock.apply, Sock.create] at h
        refine key v [.socket] (by simp [Syscall.fd?]) ?_
        split at h <;> exact h
      | initUdp res =>
        simp only [SockVars.step, Sock.apply, Sock.create] at h
        refine key v [.socket] (by simp [Syscall.fd?]) ?_
        split at h <;> exact h
      | accept res =>
        simp only [SockVars.step, Sock.apply, Sock.guarded] at h
        by_cases hst : (w.var v).status ≠ .init
        · rw [if_pos hst] at h; exact key v _ (by simp) h
        · rw [if_neg hst] at h
          exact key v _ (by intro c hc fd hf; simp at hc; subst hc; simpa [Syscall.fd?] using hf.symm) h
      | close res =>
        simp only [SockVars.step, Sock.apply] at h
        by_cases hst : (w.var v).status ≠ .init
        · rw [if_pos hst] at h; exact key v _ (by simp) h
        · rw [if_neg hst] at h
          exact key v _ (by intro c hc fd hf; simp at hc; subst hc; simpa [Syscall.fd?] using hf.symm) h
      | _ => exact absurd trivial ho

/-- C170, exactly: after whatever calls, assignments and copies, a system call made through a socket reaches the connection the
socket was made for if and only if no `Close` (through whichever copy) has reached that connection yet; a socket that was
given none reaches none. -/
theorem C170_reaches_partial (w : SockVars) (log : List Reach) (h : SockRun w log) (op : VarOp) (r : Reach)
    (hr : r ∈ (w.step op).2) :
    (r.own = none → r.hit = none) ∧ ∀ n, r.own = some n → (r.hit = some n ↔ ¬ ClosedIn log n) := by
  have hi := varsInv_run h
  obtain ⟨h1, h2⟩ := reach_mem hr
  refine ⟨fun e => ?_, fun n e => ?_⟩
  · rw [h2]
    exact table_neg hi (hi.none r.v (by rw [← h1, e]))
  · obtain ⟨h3, h4⟩ := hi.own r.v n (by rw [← h1, e])
    rw [← hi.gone n h3, h2]
    constructor
    · intro e'; exact ⟨_, e'⟩
    · rintro ⟨fd, hfd⟩
      rw [← h4 fd hfd]; exact hfd

/-- C170: each connection is closed at most once, and is open as long as it was not closed; nothing but `Close` closes it, not
the end of a variable or an assignment to it either. -/
theorem C170_closed_partial (w : SockVars) (log : List Reach) (h : SockRun w log) (n : Nat) :
    (log.filter fun r => r.close && decide (r.hit = some n)).length ≤ 1 ∧
    (n < w.next → (StillOpen w n ↔ ¬ ClosedIn log n)) :=
  ⟨(varsInv_run h).once n, (varsInv_run h).gone n⟩

/-- C170 is false: a socket is copied (as for a callback), the copy is closed, the number goes to the next connection; then
`Close` on the first socket succeeds and closes that connection, and a write through its own socket reaches nothing. -/
theorem C170_copies_refuted : ∃ w log, SockRun w log ∧
    ⟨0, true, some 0, some 1⟩ ∈ log ∧ (w.step (.call 2 (.write 5))).2 = [⟨2, false, some 1, none⟩] ∧
    (w.var 2).status = .init := by
  refine ⟨_, _, .step (op := .call 0 (.close 0)) (.step (op := .call 2 (.init 3)) (.step (op := .call 1 (.close 0))
    (.step (op := .copy 0 1) (.step (op := .call 0 (.init 3)) .start ?_) ?_) ?_) ?_) ?_, ?_, ?_, ?_⟩
  · exact fun _ => rfl
  · trivial
  · trivial
  · exact fun _ => rfl
  · trivial
  · decide
  · decide
  · decide

/-- C170 is false: `Init` on a socket that is open loses the first descriptor: it is open, and no variable knows it. -/
theorem C170_init_again_refuted : ∃ w log, SockRun w log ∧ StillOpen w 0 ∧ ∀ v, w.held v ≠ some 0 := by
  refine ⟨(({} : SockVars).play [.call 0 (.init 3), .call 0 (.init 4)]).1, _, .step (op := .call 0 (.init 4)) (.step (op := .call 0 (.init 3)) .start ?_) ?_, ⟨3, ?_⟩, ?_⟩
  · exact fun _ => rfl
  · exact fun _ => by decide
  · decide
  · intro v
    show upd (upd (fun _ => none) 0 (some 0)) 0 (some 1) v ≠ some 0
    simp only [upd_at]
    split <;> simp

/-- Two sockets, one of them copied; the copy is closed, the other socket is not touched. -/
example : (({} : SockVars).play [.call 0 (.init 3), .call 1 (.init 4), .copy 0 2, .call 2 (.write 1), .call 2 (.close 0),
    .call 1 (.write 1)]).2 = [⟨2, false, some 0, some 0⟩, ⟨2, true, some 0, some 0⟩, ⟨1, false, some 1, some 1⟩] := by decide

end Cppnet
