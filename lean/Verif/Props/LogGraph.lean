import Verif.Spec.LogGraph
import Verif.Props.Logger

/-!
# C195: loggers that several `MultiLogger`s share
-/

namespace Cppnet
open Spec

theorem callEach_ways {f : Nat → Out (List LogOut)} {g : Nat → List (List Nat × Nat)} {out : Nat → List LogOut} :
    ∀ (ls : List (Option Nat)) (k : Nat), none ∉ ls → (∀ b, some b ∈ ls → f b = .ok ((g b).flatMap fun w => out w.2)) →
    (∀ b, some b ∈ ls → ((g b).map Prod.fst).Pairwise (· < ·)) →
    ∃ ways : List (List Nat × Nat), callEach f ls = .ok (ways.flatMap fun w => out w.2) ∧ (ways.map Prod.fst).Pairwise (· < ·) ∧
      ∀ p c, (p, c) ∈ ways ↔ ∃ i b q, ls[i]? = some (some b) ∧ (q, c) ∈ g b ∧ p = (k + i) :: q := by
  intro ls
  induction ls with
  | nil => intro k _ _ _; exact ⟨[], rfl, by simp, fun p c => by simp⟩
  | cons o ls ih =>
    intro k hn hf hp
    cases o with
    | none => simp at hn
    | some b =>
      obtain ⟨ways, h1, h2, h3⟩ := ih (k + 1) (fun h => hn (by simp [h])) (fun b hb => hf b (by simp [hb])) (fun b hb => hp b (by simp [hb]))
      refine ⟨(g b).map (fun w => (k :: w.1, w.2)) ++ ways, ?_, ?_, fun p c => ?_⟩
      · simp only [callEach, hf b (by simp), h1]
        simp [bind, Except.bind, List.flatMap_append, List.flatMap_map]
      · rw [List.map_append, List.pairwise_append]
        refine ⟨?_, h2, ?_⟩
        · rw [List.map_map, List.pairwise_map]
          have := hp b (by simp)
          rw [List.pairwise_map] at this
          exact this.imp fun h => by simp only [Function.comp]; exact List.Lex.cons h
        · intro x hx y hy
          simp only [List.mem_map, Prod.exists] at hx hy
          obtain ⟨_, _, ⟨q, c, _, he⟩, rfl⟩ := hx
          cases he
          obtain ⟨p', c', hm, rfl⟩ := hy
          obtain ⟨i, b', q', _, _, rfl⟩ := (h3 _ _).1 hm
          exact List.Lex.rel (by omega)
      · rw [List.mem_append, h3]
        constructor
        · rintro (hm | ⟨i, b', q, e1, e2, rfl⟩)
          · simp only [List.mem_map, Prod.exists, Prod.mk.injEq] at hm
            obtain ⟨q, c', hm, rfl, rfl⟩ := hm
            exact ⟨0, b, q, rfl, hm, by simp⟩
          · exact ⟨i + 1, b', q, by simpa using e1, e2, by simp; omega⟩
        · rintro ⟨i, b', q, e1, e2, rfl⟩
          cases i with
          | zero =>
            simp at e1
            subst e1
            exact .inl (by simp; exact e2)
          | succ i => exact .inr ⟨i, b', q, by simpa using e1, e2, by simp; omega⟩

/-- All ways, in the order of the places. -/
theorem ways_exist {h : LogHeap} (lvl : Level) (msg : Str) (rank : Nat → Nat) (hr : ∀ a b, HoldsLogger h a b → rank b < rank a) (hn : NoNull h) :
    ∀ (depth a : Nat), rank a < depth → ∃ ways : List (List Nat × Nat), (ways.map Prod.fst).Pairwise (· < ·) ∧
      (∀ p c, (p, c) ∈ ways ↔ Way h a p c) ∧ callLog h lvl msg depth a = .ok (ways.flatMap fun w => objOut lvl msg (h w.2)) := by
  intro depth
  induction depth with
  | zero => intro a h; omega
  | succ depth ih =>
    intro a ha
    have one : (∀ ls, h a ≠ .multi ls) → callLog h lvl msg (depth + 1) a = .ok (objOut lvl msg (h a)) →
        ∃ ways : List (List Nat × Nat), (ways.map Prod.fst).Pairwise (· < ·) ∧
      (∀ p c, (p, c) ∈ ways ↔ Way h a p c) ∧ callLog h lvl msg (depth + 1) a = .ok (ways.flatMap fun w => objOut lvl msg (h w.2)) := by
      intro h1 h2
      refine ⟨[([], a)], by simp, fun p c => ⟨fun hm => ?_, fun hw => ?_⟩, by rw [h2]; simp⟩
      · simp at hm
        obtain ⟨rfl, rfl⟩ := hm
        exact .here h1
      · cases hw with
        | here => simp
        | down ha => exact absurd ha (h1 _)
    cases ho : h a with
    | base level => exact one (by simp [ho]) (by simp [callLog, ho, objOut])
    | sink n => exact one (by simp [ho]) (by simp [callLog, ho, objOut])
    | std level =>
      refine one (by simp [ho]) ?_
      have := C58_std level lvl msg
      simp only [Logger.log] at this
      simp only [callLog, ho, objOut]
      exact this
    | multi ls =>
      have sub : ∀ b, some b ∈ ls → ∃ ways : List (List Nat × Nat), (ways.map Prod.fst).Pairwise (· < ·) ∧
          (∀ p c, (p, c) ∈ ways ↔ Way h b p c) ∧ callLog h lvl msg depth b = .ok (ways.flatMap fun w => objOut lvl msg (h w.2)) := by
        intro b hb
        have := hr a b ⟨ls, ho, hb⟩
        exact ih b (by omega)
      let g : Nat → List (List Nat × Nat) := fun b => if hb : some b ∈ ls then Classical.choose (sub b hb) else []
      have hg : ∀ b, some b ∈ ls → ((g b).map Prod.fst).Pairwise (· < ·) ∧
          (∀ p c, (p, c) ∈ g b ↔ Way h b p c) ∧ callLog h lvl msg depth b = .ok ((g b).flatMap fun w => objOut lvl msg (h w.2)) := by
        intro b hb
        simp only [g, dif_pos hb]
        exact Classical.choose_spec (sub b hb)
      obtain ⟨ways, h1, h2, h3⟩ := callEach_ways (f := callLog h lvl msg depth) (g := g) (out := fun c => objOut lvl msg (h c)) ls 0
        (hn a ls ho) (fun b hb => (hg b hb).2.2) (fun b hb => (hg b hb).1)
      refine ⟨ways, h2, fun p c => ?_, by simp only [callLog, ho]; exact h1⟩
      rw [h3]
      constructor
      · rintro ⟨i, b, q, e1, e2, rfl⟩
        rw [Nat.zero_add]
        exact .down ho e1 (((hg b (List.mem_of_getElem? e1)).2.1 q c).1 e2)
      · intro hw
        cases hw with
        | here h' => exact absurd ho (h' ls)
        | down ha hi hw =>
          rw [ho] at ha
          cases ha
          exact ⟨_, _, _, hi, ((hg _ (List.mem_of_getElem? hi)).2.1 _ _).2 hw, by simp⟩

/-- **C195**, what holds if no `MultiLogger` contains itself, directly or through others (`rank`), and there are no null pointers: a message reaches
a logger once for each way that leads to it, in the order of the lists, and each logger applies its own level; the calls need no more
stack than the deepest nesting.  Missing: `MultiLogger`s that contain themselves, see `C195_cycle_refuted`; that it is once, see `C195_shared_refuted`. -/
theorem C195_ways_partial (h : LogHeap) (lvl : Level) (msg : Str) (rank : Nat → Nat) (hr : ∀ a b, HoldsLogger h a b → rank b < rank a)
    (hn : NoNull h) (depth a : Nat) (hd : rank a < depth) :
    ∃ ways : List (List Nat × Nat), (ways.map Prod.fst).Pairwise (· < ·) ∧ (∀ p c, (p, c) ∈ ways ↔ Way h a p c) ∧
      callLog h lvl msg depth a = .ok (ways.flatMap fun w => objOut lvl msg (h w.2)) :=
  ways_exist lvl msg rank hr hn depth a hd

/-! ### Loggers that are given once -/

/-- Places that lead from `a` to any object. -/
inductive Down (h : LogHeap) (a : Nat) : List Nat → Nat → Prop where
  | nil : Down h a [] a
  | snoc {p b ls i c} (hp : Down h a p b) (hb : h b = .multi ls) (hi : ls[i]? = some (some c)) : Down h a (p ++ [i]) c

theorem Down.cons {h : LogHeap} {a b : Nat} {ls : List (Option Nat)} {i : Nat} (ha : h a = .multi ls) (hi : ls[i]? = some (some b)) :
    ∀ {p c}, Down h b p c → Down h a (i :: p) c := by
  intro p c hd
  induction hd with
  | nil => exact .snoc (p := []) .nil ha hi
  | snoc _ hb hi' ih => exact .snoc ih hb hi'

theorem way_down {h : LogHeap} {a : Nat} {p : List Nat} {c : Nat} (hw : Way h a p c) : Down h a p c := by
  induction hw with
  | here _ => exact .nil
  | down ha hi _ ih => exact .cons ha hi ih

theorem Down.rank {h : LogHeap} {rank : Nat → Nat} (hr : ∀ a b, HoldsLogger h a b → rank b < rank a) {a : Nat} {p : List Nat} {c : Nat}
    (hd : Down h a p c) : rank c + p.length ≤ rank a := by
  induction hd with
  | nil => simp
  | snoc _ hb hi ih =>
    have := hr _ _ ⟨_, hb, List.mem_of_getElem? hi⟩
    simp
    omega

theorem Down.unique {h : LogHeap} {rank : Nat → Nat} (hr : ∀ a b, HoldsLogger h a b → rank b < rank a) (hu : Unshared h) {a : Nat} {p : List Nat}
    {c : Nat} (hd : Down h a p c) : ∀ {q}, Down h a q c → p = q := by
  induction hd with
  | nil =>
    intro q hq
    have := hq.rank hr
    exact (List.length_eq_zero_iff.1 (by omega)).symm
  | snoc hp hb hi ih =>
    intro q hq
    have h1 := (Down.snoc hp hb hi).rank hr
    cases hq with
    | nil => simp at h1; omega
    | snoc hq hb' hi' =>
      obtain ⟨rfl, rfl⟩ := hu _ _ _ _ _ _ _ hb hb' hi hi'
      rw [ih hq]

/-- **C195**, when it is once: if moreover no logger is given to two `MultiLogger`s, or twice to one, a message reaches each logger at most once.
Missing: loggers that are shared, see `C195_shared_refuted`. -/
theorem C195_once_partial (h : LogHeap) (lvl : Level) (msg : Str) (rank : Nat → Nat) (hr : ∀ a b, HoldsLogger h a b → rank b < rank a)
    (hn : NoNull h) (hu : Unshared h) (depth a : Nat) (hd : rank a < depth) :
    ∃ reached : List Nat, reached.Nodup ∧ (∀ c, c ∈ reached ↔ ∃ p, Way h a p c) ∧
      callLog h lvl msg depth a = .ok (reached.flatMap fun c => objOut lvl msg (h c)) := by
  obtain ⟨ways, h1, h2, h3⟩ := ways_exist lvl msg rank hr hn depth a hd
  refine ⟨ways.map Prod.snd, ?_, fun c => ?_, by rw [h3, List.flatMap_map]⟩
  · rw [List.pairwise_map] at h1
    rw [List.Nodup, List.pairwise_map]
    refine (List.Pairwise.and_mem.1 h1).imp ?_
    rintro ⟨p, c⟩ ⟨q, c'⟩ ⟨hm, hm', hlt⟩ e
    simp only at e hlt
    subst e
    have := (way_down ((h2 p c).1 hm)).unique hr hu (way_down ((h2 q c).1 hm'))
    subst this
    exact List.lt_irrefl _ hlt
  · simp only [List.mem_map, Prod.exists, exists_eq_right]
    exact exists_congr fun p => h2 p c

/-- A logger of the user's own, and above it `MultiLogger`s that were each given the one below twice. -/
def doubled : LogHeap
  | 0 => .sink 0
  | n + 1 => .multi [some n, some n]

/-- **C195** is false of loggers that are shared: with `n` `MultiLogger`s above each other, each given the one below twice, a logger gets
each message 2 ^ n times. -/
theorem C195_shared_refuted (lvl : Level) (msg : Str) (n : Nat) :
    callLog doubled lvl msg (n + 1) n = .ok (List.replicate (2 ^ n) (.sink 0 lvl msg)) := by
  induction n with
  | zero => rfl
  | succ n ih =>
    rw [callLog]
    simp only [doubled, callEach, ih, bind, Except.bind, List.append_nil]
    rw [List.replicate_append_replicate, Nat.pow_succ, Nat.mul_two]

/-! ### `MultiLogger`s that contain themselves -/

theorem callEach_fault {f : Nat → Out (List LogOut)} (hf : ∀ b e, f b = .error e → e = .ub) :
    ∀ (ls : List (Option Nat)), (∀ e, callEach f ls = .error e → e = .ub) ∧
      ∀ b, some b ∈ ls → f b = .error .ub → callEach f ls = .error .ub := by
  intro ls
  induction ls with
  | nil => exact ⟨fun e h => (nomatch h), fun b h => by simp at h⟩
  | cons o ls ih =>
    cases o with
    | none => exact ⟨fun e h => (by cases h; rfl), fun _ _ _ => rfl⟩
    | some l =>
      simp only [callEach]
      cases hl : f l with
      | error e =>
        obtain rfl := hf l e hl
        exact ⟨fun e h => (by cases h; rfl), fun _ _ _ => rfl⟩
      | ok x =>
        cases hr : callEach f ls with
        | error e =>
          obtain rfl := ih.1 e hr
          exact ⟨fun e h => (by cases h; rfl), fun _ _ _ => rfl⟩
        | ok y =>
          refine ⟨fun e h => (nomatch h), fun b hb he => ?_⟩
          rcases List.mem_cons.1 hb with hb | hb
          · cases hb; rw [hl] at he; cases he
          · have := ih.2 b hb he
            rw [hr] at this; cases this

theorem callLog_fault (h : LogHeap) (lvl : Level) (msg : Str) : ∀ (depth a : Nat) (e : Fault), callLog h lvl msg depth a = .error e → e = .ub := by
  intro depth
  induction depth with
  | zero => intro a e h; cases h; rfl
  | succ depth ih =>
    intro a e he
    rw [callLog] at he
    split at he
    · cases he
    · cases he
    · cases he
    · exact (callEach_fault ih _).1 e he

theorem within_self {h : LogHeap} {a c : Nat} (hw : Within h a c) (hc : Within h c c) : ∃ b, HoldsLogger h a b ∧ ∃ c, (b = c ∨ Within h b c) ∧ Within h c c := by
  cases hw with
  | held hh => exact ⟨c, hh, c, .inl rfl, hc⟩
  | deeper hh hw => exact ⟨_, hh, c, .inr hw, hc⟩

/-- **C195** is false of a `MultiLogger` that contains itself, directly or through others, or that contains such a one: every message
overflows the stack, however large it is. -/
theorem C195_cycle_refuted (h : LogHeap) (lvl : Level) (msg : Str) (a c : Nat) (ha : a = c ∨ Within h a c) (hc : Within h c c) (depth : Nat) :
    callLog h lvl msg depth a = .error .ub := by
  induction depth generalizing a c with
  | zero => rfl
  | succ depth ih =>
    obtain ⟨b, ⟨ls, e1, e2⟩, c', hb, hc'⟩ : ∃ b, HoldsLogger h a b ∧ ∃ c, (b = c ∨ Within h b c) ∧ Within h c c := by
      rcases ha with rfl | ha
      · exact within_self hc hc
      · exact within_self ha hc
    rw [callLog, e1]
    exact (callEach_fault (callLog_fault h lvl msg depth) ls).2 b e2 (ih b c' hb hc')

/-! ### `Init` -/

theorem callEach_congr {f g : Nat → Out (List LogOut)} : ∀ (ls : List (Option Nat)), (∀ b, some b ∈ ls → f b = g b) → callEach f ls = callEach g ls := by
  intro ls
  induction ls with
  | nil => intro _; rfl
  | cons o ls ih =>
    intro h
    cases o with
    | none => rfl
    | some l => simp only [callEach, h l (by simp), ih fun b hb => h b (by simp [hb])]

theorem callEach_append {f : Nat → Out (List LogOut)} : ∀ (ls ls' : List (Option Nat)),
    callEach f (ls ++ ls') = (do let a ← callEach f ls; let b ← callEach f ls'; .ok (a ++ b)) := by
  intro ls ls'
  induction ls with
  | nil =>
    simp only [List.nil_append, callEach, bind, Except.bind]
    cases callEach f ls' <;> rfl
  | cons o ls ih =>
    cases o with
    | none => rfl
    | some l =>
      simp only [List.cons_append, callEach, ih, bind, Except.bind]
      cases f l with
      | error e => rfl
      | ok x =>
        simp only
        cases callEach f ls with
        | error e => rfl
        | ok y =>
          simp only
          cases callEach f ls' with
          | error e => rfl
          | ok z => simp

theorem callLog_elsewhere (h : LogHeap) (lvl : Level) (msg : Str) (p : Nat) (more : List (Option Nat)) :
    ∀ (depth b : Nat), b ≠ p → ¬ Within h b p → callLog (heapInit h p more) lvl msg depth b = callLog h lvl msg depth b := by
  intro depth
  induction depth with
  | zero => intro _ _ _; rfl
  | succ depth ih =>
    intro b hb hw
    have e : heapInit h p more b = h b := if_neg hb
    rw [callLog, callLog, e]
    cases ho : h b with
    | multi ls =>
      refine callEach_congr ls fun c hc => ih c ?_ ?_
      · rintro rfl
        exact hw (.held ⟨ls, ho, hc⟩)
      · intro h'
        exact hw (.deeper ⟨ls, ho, hc⟩ h')
    | _ => rfl

/-- **C195**, `Init` on a `MultiLogger` that has loggers already, none of which, old or new, contains it: from then on a message goes to the
old ones as before, and then to the new ones; and all other loggers that do not contain it do what they did. -/
theorem C195_init_partial (h : LogHeap) (lvl : Level) (msg : Str) (p : Nat) (ls more : List (Option Nat)) (hp : h p = .multi ls)
    (hb : ∀ b, some b ∈ ls ++ more → b ≠ p ∧ ¬ Within h b p) (depth : Nat) :
    callLog (heapInit h p more) lvl msg (depth + 1) p = (do
      let old ← callLog h lvl msg (depth + 1) p
      let new ← callEach (callLog h lvl msg depth) more
      .ok (old ++ new)) ∧
    ∀ b, b ≠ p → ¬ Within h b p → ∀ d, callLog (heapInit h p more) lvl msg d b = callLog h lvl msg d b := by
  refine ⟨?_, fun b h1 h2 d => callLog_elsewhere h lvl msg p more d b h1 h2⟩
  have e : heapInit h p more p = .multi (ls ++ more) := by simp [heapInit, hp]
  rw [callLog, e, callLog, hp]
  simp only
  rw [callEach_congr (ls ++ more) fun b hm => callLog_elsewhere h lvl msg p more depth b (hb b hm).1 (hb b hm).2, callEach_append]

/-! ### The hypotheses are met -/

/-- Two `MultiLogger`s; 0 contains 1, a console and a user's logger, 1 contains another user's logger. -/
def nested : LogHeap
  | 0 => .multi [some 1, some 2, some 3]
  | 1 => .multi [some 4]
  | 2 => .std .warn
  | 3 => .sink 3
  | 4 => .sink 4
  | _ => .base .debug

theorem nested_multi {a : Nat} {ls : List (Option Nat)} (e : nested a = .multi ls) : a = 0 ∧ ls = [some 1, some 2, some 3] ∨ a = 1 ∧ ls = [some 4] := by
  unfold nested at e
  split at e <;> cases e <;> simp

example : (∃ rank : Nat → Nat, (∀ a b, HoldsLogger nested a b → rank b < rank a) ∧ rank 0 < 3) ∧ NoNull nested ∧ Unshared nested := by
  refine ⟨⟨fun a => if a = 0 then 2 else if a = 1 then 1 else 0, ?_, by decide⟩, ?_, ?_⟩
  · rintro a b ⟨ls, e, hm⟩
    rcases nested_multi e with ⟨rfl, rfl⟩ | ⟨rfl, rfl⟩ <;> simp at hm
    · rcases hm with rfl | rfl | rfl <;> decide
    · subst hm; decide
  · intro a ls e
    rcases nested_multi e with ⟨rfl, rfl⟩ | ⟨rfl, rfl⟩ <;> simp
  · intro a a' ls ls' i i' b e e' hi hi'
    rcases nested_multi e with ⟨rfl, rfl⟩ | ⟨rfl, rfl⟩ <;> rcases nested_multi e' with ⟨rfl, rfl⟩ | ⟨rfl, rfl⟩ <;>
      clear e e' <;> rcases i with _ | _ | _ | i <;> rcases i' with _ | _ | _ | i' <;> simp at hi hi' ⊢ <;> omega

example : callLog nested .info b!"hi" 3 0 = .ok [.sink 4 .info b!"hi", .sink 3 .info b!"hi"] := by decide +kernel

/-- `Init` of the inner `MultiLogger` of `nested` with the console: none of the loggers contains it. -/
example : (∀ b, some b ∈ [some 4] ++ [some 2] → b ≠ 1 ∧ ¬ Within nested b 1) ∧
    callLog (heapInit nested 1 [some 2]) .warn b!"hi" 3 0 =
      .ok [.sink 4 .warn b!"hi", .cout b!"[WARN]:hi\n", .cout b!"[WARN]:hi\n", .sink 3 .warn b!"hi"] := by
  refine ⟨fun b hb => ?_, by decide +kernel⟩
  simp at hb
  have : ∀ ls, nested b ≠ .multi ls := by rcases hb with rfl | rfl <;> simp [nested]
  refine ⟨by omega, fun hw => ?_⟩
  cases hw with
  | held hh => exact this _ hh.choose_spec.1
  | deeper hh _ => exact this _ hh.choose_spec.1

/-- `m->Init({m})`: the `MultiLogger` contains itself. -/
example : Within (heapInit (fun _ => .multi []) 7 [some 7]) 7 7 := .held ⟨[some 7], by simp [heapInit], by simp⟩

end Cppnet
