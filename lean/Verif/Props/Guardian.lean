import Verif.Model.ProcessCtrl
import Mathlib.Data.List.Induction

/-!
# C146 and C147: the guardian of the demo programs
-/

namespace Cppnet

namespace Spec

/-- The children that were started, in order. -/
def children (done : List GuardEvent) : List Nat :=
  done.filterMap fun e => match e with
    | .forked pid _ => some pid
    | _ => none

/-- What the exit code handler was told, in order. -/
def told (done : List GuardEvent) : List (Int × Bool) :=
  done.filterMap fun e => match e with
    | .asked code normal => some (code, normal)
    | _ => none

/-- What the handler should be told about the end of a child: the low byte of its exit code, and whether it ended by
itself. -/
def report : ChildEnd → Int × Bool
  | .exited code => ((code % 256 : Nat), true)
  | .signaled _ _ => (0, false)

/-- A round in which the child could be started and ended; signals have the numbers 1 to 127. -/
def ChildEnded (r : GuardRound) (pid : Nat) (e : ChildEnd) : Prop :=
  r.fork = some pid ∧ r.wait = some e ∧ ∀ s c, e = .signaled s c → 0 < s ∧ s < 128

/-- The handler wants the child of this round to be followed by another. -/
def GoesOn (r : GuardRound) (e : ChildEnd) : Prop := r.verdict (report e).1 (report e).2 = true

/-- The processes `kill(pid, …)` reaches: all of them for -1. -/
def KillReaches (pid : Int) (p : Nat) : Prop := pid = -1 ∨ pid = p

end Spec

open Spec

theorem status_report (e : ChildEnd) (h : ∀ s c, e = .signaled s c → 0 < s ∧ s < 128) :
    wexitstatus e.status = (report e).1 ∧ wifexited e.status = (report e).2 := by
  cases e with
  | exited code =>
    refine ⟨?_, ?_⟩
    · simp only [wexitstatus, ChildEnd.status, report]
      congr 1
      omega
    · simp only [wifexited, ChildEnd.status, report, beq_iff_eq]
      omega
  | signaled s c =>
    obtain ⟨h1, h2⟩ := h s c rfl
    cases c
    · refine ⟨?_, ?_⟩
      · simp only [wexitstatus, ChildEnd.status, report]
        have : (s % 128 + if false = true then 128 else 0) / 256 % 256 = 0 := by simp; omega
        rw [this]; rfl
      · simp only [wifexited, ChildEnd.status, report, beq_eq_false_iff_ne]
        simp; omega
    · refine ⟨?_, ?_⟩
      · simp only [wexitstatus, ChildEnd.status, report]
        have : (s % 128 + 128) / 256 % 256 = 0 := by omega
        rw [if_pos trivial, this]; rfl
      · simp only [wifexited, ChildEnd.status, report, beq_eq_false_iff_ne]
        simp; omega

theorem children_append (a b : List GuardEvent) : children (a ++ b) = children a ++ children b :=
  List.filterMap_append ..

theorem told_append (a b : List GuardEvent) : told (a ++ b) = told a ++ told b :=
  List.filterMap_append ..

/-- One orderly round. -/
theorem guardRound_orderly (n : Nat) (g : Guardian) (r : GuardRound) (pid : Nat) (e : ChildEnd) (h : ChildEnded r pid e) :
    guardRound true n g r =
      { childPid := pid
        done := g.done ++ [.forked pid g.childPid, .asked (report e).1 (report e).2] ++
          if r.verdict (report e).1 (report e).2 then [.slept n] else []
        returned := !r.verdict (report e).1 (report e).2 } := by
  obtain ⟨h1, h2, h3⟩ := h
  obtain ⟨h4, h5⟩ := status_report e h3
  unfold guardRound
  simp only [h1, h2, h4, h5, if_true]
  cases r.verdict (report e).1 (report e).2 <;> simp

/-- The shape of any round. -/
theorem guardRound_shape (handler : Bool) (n : Nat) (g : Guardian) (r : GuardRound) :
    ∃ tail, children tail = [] ∧ (guardRound handler n g r).done = g.done ++ (match r.fork with
      | some pid => [.forked pid g.childPid]
      | none => []) ++ tail ∧ (guardRound handler n g r).childPid = match r.fork with
      | some pid => (pid : Int)
      | none => -1 := by
  unfold guardRound
  cases handler with
  | false => exact ⟨_, rfl, rfl, rfl⟩
  | true =>
    cases hw : r.wait with
    | none =>
      cases hv : r.verdict (wexitstatus 0) (wifexited 0) <;> simp only [hv, if_true, Bool.false_eq_true, if_false] <;>
        exact ⟨_, rfl, rfl, rfl⟩
    | some e =>
      cases hv : r.verdict (wexitstatus e.status) (wifexited e.status) <;>
        simp only [hv, if_true, Bool.false_eq_true, if_false] <;> exact ⟨_, rfl, rfl, rfl⟩

/-- C146: as long as the handler wants to go on, the guardian starts a child in each round, one after the other, tells
the handler how it ended, and does not return; the round in which the handler does not want to go on is the last one. -/
theorem C146_restarts (n : Nat) (pre post : List (GuardRound × Nat × ChildEnd)) (r : GuardRound) (pid : Nat) (e : ChildEnd)
    (ho : ∀ x ∈ pre, ChildEnded x.1 x.2.1 x.2.2) (hg : ∀ x ∈ pre, GoesOn x.1 x.2.2) (hr : ChildEnded r pid e) :
    let waiting := guardLoop true n {} (pre.map (·.1))
    children waiting.done = pre.map (·.2.1) ∧ told waiting.done = pre.map (fun x => report x.2.2) ∧
    waiting.returned = false ∧
    (¬ GoesOn r e →
      let ended := guardLoop true n {} (pre.map (·.1) ++ r :: post.map (·.1))
      children ended.done = pre.map (·.2.1) ++ [pid] ∧ told ended.done = pre.map (fun x => report x.2.2) ++ [report e] ∧
      ended.returned = true) := by
  have key : ∀ (g : Guardian), g.returned = false → ∀ rest : List GuardRound,
      ∃ g', guardLoop true n g (pre.map (·.1) ++ rest) = guardLoop true n g' rest ∧ g'.returned = false ∧
        children g'.done = children g.done ++ pre.map (·.2.1) ∧
        told g'.done = told g.done ++ pre.map (fun x => report x.2.2) := by
    induction pre with
    | nil => intro g hg' rest; exact ⟨g, rfl, hg', by simp, by simp⟩
    | cons x pre ih =>
      intro g hg' rest
      have ho1 := ho x (by simp)
      have hg1 : x.1.verdict (report x.2.2).1 (report x.2.2).2 = true := hg x (by simp)
      have hround := guardRound_orderly n g x.1 x.2.1 x.2.2 ho1
      rw [hg1] at hround
      obtain ⟨g', h1, h2, h3, h4⟩ := ih (fun y hy => ho y (by simp [hy])) (fun y hy => hg y (by simp [hy]))
        (guardRound true n g x.1) (by rw [hround]; rfl) rest
      refine ⟨g', ?_, h2, ?_, ?_⟩
      · rw [List.map_cons, List.cons_append, guardLoop, hround]
        simp only [Bool.not_true, Bool.false_eq_true, if_false]
        rw [← h1, hround]
        simp
      · rw [h3, hround]
        simp [children]
      · rw [h4, hround]
        simp [told]
  obtain ⟨g1, h1, h2, h3, h4⟩ := key {} rfl []
  rw [List.append_nil] at h1
  have h1' : guardLoop true n {} (pre.map (·.1)) = g1 := h1
  refine ⟨?_, ?_, ?_, fun hn => ?_⟩
  · rw [h1', h3]; rfl
  · rw [h1', h4]; rfl
  · rw [h1', h2]
  · obtain ⟨g2, k1, k2, k3, k4⟩ := key {} rfl (r :: post.map (·.1))
    have hv : r.verdict (report e).1 (report e).2 = false := Bool.eq_false_iff.2 hn
    have hround := guardRound_orderly n g2 r pid e hr
    rw [hv] at hround
    have hend : guardLoop true n g2 (r :: post.map (·.1)) = guardRound true n g2 r := by
      rw [guardLoop]
      simp only [hround]
      rfl
    simp only [k1, hend, hround]
    refine ⟨?_, ?_, rfl⟩
    · simp only [children_append, k3]
      simp [children]
    · simp only [told_append, k4]
      simp [told]

/-- C146: without a handler the guardian never returns and starts a child in every round in which the system lets it. -/
theorem C146_no_handler (n : Nat) (rs : List GuardRound) :
    (guardLoop false n {} rs).returned = false ∧ children (guardLoop false n {} rs).done = rs.filterMap (·.fork) := by
  have key : ∀ (g : Guardian), g.returned = false → (guardLoop false n g rs).returned = false ∧
      children (guardLoop false n g rs).done = children g.done ++ rs.filterMap (·.fork) := by
    induction rs with
    | nil => intro g h; exact ⟨h, by simp [guardLoop]⟩
    | cons r rs ih =>
      intro g h
      have hr : (guardRound false n g r).returned = false := rfl
      rw [guardLoop]
      simp only [hr, Bool.false_eq_true, if_false]
      obtain ⟨h1, h2⟩ := ih _ hr
      refine ⟨h1, ?_⟩
      rw [h2]
      cases hf : r.fork <;> simp [guardRound, hf, children]
  obtain ⟨h1, h2⟩ := key {} rfl
  exact ⟨h1, by rw [h2]; rfl⟩

/-- Two crashes, a normal end. -/
def guardedRounds : List (GuardRound × Nat × ChildEnd) :=
  [(⟨some 501, some (.signaled 11 true), webVerdict⟩, 501, .signaled 11 true),
   (⟨some 502, some (.signaled 9 false), webVerdict⟩, 502, .signaled 9 false)]

example : (∀ x ∈ guardedRounds, ChildEnded x.1 x.2.1 x.2.2 ∧ GoesOn x.1 x.2.2) ∧
    ¬ GoesOn ⟨some 503, some (.exited 3), webVerdict⟩ (.exited 3) := by
  simp [guardedRounds, ChildEnded, GoesOn, webVerdict, report]
example : let g := guardLoop true 5 {} (guardedRounds.map (·.1) ++ [⟨some 503, some (.exited 259), webVerdict⟩])
    g.returned = true ∧ children g.done = [501, 502, 503] ∧ told g.done = [(0, false), (0, false), (3, true)] := by
  decide

/-- C146 is false: when the child of the web server has ended normally, the guardian itself leaves `Guard`, that is, it
starts the server once more in its own process. -/
theorem C146_guardian_serves_refuted (n pid code : Nat) :
    (guardLoop true n {} [⟨some pid, some (.exited code), webVerdict⟩]).returned = true := by
  have h : ChildEnded ⟨some pid, some (.exited code), webVerdict⟩ pid (.exited code) := ⟨rfl, rfl, by simp⟩
  rw [guardLoop]
  simp only [guardRound_orderly n {} _ pid _ h]
  rfl

/-- C146 is false: when no child can be started, the handler is told that it ended normally, and the guardian leaves
`Guard`. -/
theorem C146_fork_refuted (n : Nat) :
    let g := guardLoop true n {} [⟨none, none, webVerdict⟩]
    children g.done = [] ∧ told g.done = [(0, true)] ∧ g.returned = true := by
  refine ⟨rfl, rfl, rfl⟩

/-! ### C147 -/

/-- C147, what holds: a guardian that could start each of its children and is told to end sends SIGINT to the child it
started last, and to nobody else; before the first child it sends nothing.  Missing: rounds in which `fork` fails
(`C147_fork_refuted`); the children themselves (`C147_child_refuted`). -/
theorem C147_last_child_partial (handler : Bool) (n : Nat) (rs : List GuardRound)
    (hf : ∀ r ∈ rs, ∃ pid, r.fork = some pid ∧ pid ≠ 0) :
    endGuard (guardLoop handler n {} rs).childPid =
      match (children (guardLoop handler n {} rs).done).getLast? with
      | none => []
      | some pid => [((pid : Int), 2)] := by
  have key : ∀ g : Guardian, (endGuard g.childPid = match (children g.done).getLast? with
      | none => []
      | some pid => [((pid : Int), 2)]) → endGuard (guardLoop handler n g rs).childPid =
      match (children (guardLoop handler n g rs).done).getLast? with
      | none => []
      | some pid => [((pid : Int), 2)] := by
    induction rs with
    | nil => intro g h; exact h
    | cons r rs ih =>
      intro g _
      obtain ⟨pid, h1, h2⟩ := hf r (by simp)
      have hr : endGuard (guardRound handler n g r).childPid =
          match (children (guardRound handler n g r).done).getLast? with
          | none => []
          | some pid => [((pid : Int), 2)] := by
        obtain ⟨tail, t1, t2, t3⟩ := guardRound_shape handler n g r
        simp only [h1] at t2 t3
        have hc : (guardRound handler n g r).childPid = pid := t3
        have hd : (children (guardRound handler n g r).done).getLast? = some pid := by
          rw [t2, children_append, children_append, t1]
          simp [children]
        rw [hc, hd]
        simp [endGuard, h2]
      rw [guardLoop]
      split
      · exact hr
      · exact ih (fun r h => hf r (by simp [h])) _ hr
  exact key {} rfl

/-- C147: each child inherits the `child_pid_` of its elder: told to end, the first one sends no signal. -/
theorem C147_first_child_partial (handler : Bool) (n : Nat) (r : GuardRound) (pid : Nat) (h : r.fork = some pid) :
    ∃ rest, (guardRound handler n {} r).done = .forked pid 0 :: rest ∧ endGuard 0 = [] := by
  obtain ⟨tail, _, t2, _⟩ := guardRound_shape handler n {} r
  simp only [h] at t2
  exact ⟨tail, t2, rfl⟩

/-- C147 is false: after a failed `fork` a guardian that is told to end sends SIGINT to every process of the system. -/
theorem C147_fork_refuted (handler : Bool) (n : Nat) (r : GuardRound) (h : r.fork = none) :
    ∃ pid, endGuard (guardLoop handler n {} [r]).childPid = [(pid, 2)] ∧ ∀ p, KillReaches pid p := by
  refine ⟨-1, ?_, fun p => .inl rfl⟩
  obtain ⟨tail, _, _, t3⟩ := guardRound_shape handler n {} r
  simp only [h] at t3
  have : (guardLoop handler n {} [r]).childPid = (guardRound handler n {} r).childPid := by
    rw [guardLoop]
    split <;> rfl
  rw [this, t3]
  rfl

/-- C147 is false: a child that was started after a crash and is told to end sends SIGINT to the number of its crashed
elder, whoever has that number now.  (`kill(502, SIGINT)` by the guardian makes child 502 do that.) -/
theorem C147_child_refuted (n : Nat) : let g := guardLoop true n {} (guardedRounds.map (·.1))
    ∃ before after, g.done = before ++ .forked 502 501 :: after ∧ endGuard 501 = [(501, 2)] ∧
      GuardEvent.asked 0 false ∈ before := by
  refine ⟨[.forked 501 0, .asked 0 false, .slept n], [.asked 0 false, .slept n], rfl, by decide, by simp⟩

/-- C147 is false: while the guardian waits to start the next child, it signals a child that was collected already. -/
theorem C147_reaped_refuted (n : Nat) : let g := guardLoop true n {} ((guardedRounds.take 1).map (·.1))
    g.done = [.forked 501 0, .asked 0 false, .slept n] ∧ endGuard g.childPid = [(501, 2)] := by
  exact ⟨rfl, rfl⟩

example : (∀ r ∈ guardedRounds.map (·.1), ∃ pid, r.fork = some pid ∧ pid ≠ 0) ∧
    endGuard (guardLoop true 5 {} (guardedRounds.map (·.1))).childPid = [(502, 2)] := by
  refine ⟨?_, by decide⟩
  simp [guardedRounds]

end Cppnet
