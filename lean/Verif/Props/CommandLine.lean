import Verif.Spec.CommandLine
import Verif.Spec.Strings
import Verif.Proofs.Map
import Verif.Proofs.Header
import Verif.Proofs.Socket
import Verif.Proofs.Route

/-!
# C144 and C145: the command line of the demo programs
-/

namespace Cppnet
open Spec
variable {φ : Type}

/-- Name and value of an argument. -/
def argPair (arg : Str) : Str × Str :=
  let now := (cString arg).dropWhile (· == 45)
  (before 61 now, after 61 now)

theorem umapInsert_get (m : UMap) (k v k' : Str) :
    (umapInsert m k v).get k' = (m.get k').or (if k' = k then some v else none) := by
  unfold umapInsert
  cases h : m.get k with
  | none =>
    simp only [UMap.get_set]
    by_cases hk : k' = k
    · subst hk; simp [h]
    · simp [hk]
  | some w =>
    by_cases hk : k' = k
    · subst hk; simp [h]
    · simp [hk]

theorem takeWhile_holds {α : Type} (p : α → Bool) (l : List α) : ∀ c ∈ l.takeWhile p, p c = true := by
  induction l with
  | nil => simp
  | cons a l ih =>
    intro c hc
    by_cases h : p a = true
    · rw [List.takeWhile_cons_of_pos h] at hc
      rcases List.mem_cons.1 hc with rfl | hc
      · exact h
      · exact ih c hc
    · rw [List.takeWhile_cons_of_neg h] at hc
      simp at hc

theorem argStep_pair (m : UMap) (arg : Str) : argStep m arg = .ok (umapInsert m (argPair arg).1 (argPair arg).2) := by
  unfold argStep argPair
  simp only
  generalize (cString arg).dropWhile (· == 45) = now
  rw [find_zero]
  cases h : findAux b!"=" now with
  | none =>
    have hn : (61 : Byte) ∉ now := findAux_byte_none.1 h
    simp only [before_none hn, after_none hn]
  | some pos =>
    obtain ⟨v, h1, h2, h3, h4⟩ := findAux_byte_some h
    have hb : before 61 now = now.take pos := by rw [h1]; exact (before_append h2).trans (by rw [← h1])
    have ha : after 61 now = v := by rw [h1]; exact after_append h2
    simp only [substr_ok (Nat.zero_le _), substrFrom_ok (show pos + 1 ≤ now.length by omega), hb, ha, h4, bind,
      Except.bind, List.drop_zero]

theorem argPair_means {arg : Str} (h0 : 0 ∉ arg) (n v : Str) : ArgMeans arg n v ↔ argPair arg = (n, v) := by
  have hc : cString arg = arg := cString_eq_self.2 h0
  constructor
  · rintro ⟨d, r, rfl, hd, hr, hn, hv⟩
    have hrest : (d ++ r).dropWhile (· == 45) = r := by
      rw [List.dropWhile_append_of_pos (by simpa using hd)]
      cases r with
      | nil => rfl
      | cons c r =>
        rw [List.dropWhile_cons_of_neg]
        simpa using hr
    simp only [argPair, hc, hrest]
    rcases hv with rfl | ⟨rfl, rfl⟩
    · rw [before_append hn, after_append hn]
    · rw [before_none hn, after_none hn]
  · intro h
    simp only [argPair, hc, Prod.mk.injEq] at h
    obtain ⟨rfl, rfl⟩ := h
    refine ⟨arg.takeWhile (· == 45), arg.dropWhile (· == 45), (List.takeWhile_append_dropWhile).symm, ?_, ?_, ?_, ?_⟩
    · intro c hc
      simpa using takeWhile_holds _ _ c hc
    · intro he
      have := List.head?_dropWhile_not (· == (45 : Byte)) arg
      rw [he] at this
      simp at this
    · unfold before
      intro hm
      simpa using takeWhile_holds _ _ _ hm
    · generalize arg.dropWhile (· == 45) = now
      by_cases hm : (61 : Byte) ∈ now
      · left
        exact cut_eq hm
      · right
        exact ⟨(before_none hm).symm, after_none hm⟩

theorem argFold_get (args : List Str) (m : UMap) :
    ∃ m', args.foldlM argStep m = .ok m' ∧ ∀ k, m'.get k = (m.get k).or ((args.map argPair).lookup k) := by
  induction args generalizing m with
  | nil => exact ⟨m, rfl, fun k => by simp⟩
  | cons a args ih =>
    obtain ⟨m', h1, h2⟩ := ih (umapInsert m (argPair a).1 (argPair a).2)
    refine ⟨m', ?_, fun k => ?_⟩
    · rw [List.foldlM_cons, argStep_pair]
      exact h1
    · rw [h2, umapInsert_get, List.map_cons]
      generalize argPair a = p
      obtain ⟨n, v⟩ := p
      rw [List.lookup_cons]
      by_cases hk : k = n
      · subst hk; cases m.get k <;> simp
      · have hb : (k == n) = false := by simpa using hk
        cases m.get k <;> simp [hk, hb]

/-- The value a name has on the command line. -/
theorem lookup_given {args : List Str} (h0 : ∀ a ∈ args, 0 ∉ a) (k : Str) :
    (((args.map argPair).lookup k).isSome = true ↔ Given args k) ∧
    ∀ pre a post v, args = pre ++ a :: post → ArgMeans a k v → ¬ Given pre k →
      (args.map argPair).lookup k = some v := by
  constructor
  · induction args with
    | nil => simp [Given]
    | cons a args ih =>
      have ih := ih fun b hb => h0 b (by simp [hb])
      rw [List.map_cons]
      cases hp : argPair a with
      | mk n w =>
        rw [List.lookup_cons]
        by_cases hk : k = n
        · subst hk
          simp only [BEq.rfl, Option.isSome_some, true_iff]
          exact ⟨a, by simp, w, (argPair_means (h0 a (by simp)) _ _).2 hp⟩
        · have hb : (k == n) = false := by simpa using hk
          simp only [hb]
          rw [ih]
          constructor
          · rintro ⟨b, hb, v, hv⟩
            exact ⟨b, by simp [hb], v, hv⟩
          · rintro ⟨b, hb, v, hv⟩
            rcases List.mem_cons.1 hb with rfl | hb
            · rw [argPair_means (h0 b (by simp)), hp] at hv
              simp only [Prod.mk.injEq] at hv
              exact absurd hv.1.symm hk
            · exact ⟨b, hb, v, hv⟩
  · rintro pre a post v rfl ha hn
    have hpre : ∀ b ∈ pre, k ≠ (argPair b).1 := by
      rintro b hb rfl
      exact hn ⟨b, hb, (argPair b).2, (argPair_means (h0 b (by simp [hb])) _ _).2 rfl⟩
    rw [argPair_means (h0 a (by simp))] at ha
    induction pre with
    | nil =>
      simp [ha]
    | cons b pre ih =>
      rw [List.cons_append, List.map_cons]
      have hb := hpre b (by simp)
      cases hp : argPair b with
      | mk n w =>
        rw [hp] at hb
        have hb : (k == n) = false := by simpa using hb
        rw [List.lookup_cons]
        simp only [hb]
        refine ih (fun c hc => h0 c (List.mem_cons_of_mem _ hc)) (fun hg => hn ?_) (fun c hc => hpre c (by simp [hc]))
        obtain ⟨c, hc, u, hu⟩ := hg
        exact ⟨c, by simp [hc], u, hu⟩

/-- C144: for every command line (C strings hold no NUL), `GetOption` is true exactly for the names that are given,
and `GetVar` gives the value of the first argument with the name, and nothing if there is none. -/
theorem C144_command_line (argv : List Str) (h0 : ∀ a ∈ argv, 0 ∉ a) :
    ∃ d : ArgcDeal φ, argcDeal argv = .ok d ∧ ∀ k,
      (argcGetOption d k = true ↔ Given (argv.drop 1) k) ∧
      (∀ pre a post v, argv.drop 1 = pre ++ a :: post → ArgMeans a k v → ¬ Given pre k → argcGetVar d k = v) ∧
      (¬ Given (argv.drop 1) k → argcGetVar d k = []) := by
  obtain ⟨m, h1, h2⟩ := argFold_get (argv.drop 1) UMap.empty
  have h0' : ∀ a ∈ argv.drop 1, 0 ∉ a := fun a ha => h0 a (List.mem_of_mem_drop ha)
  refine ⟨{ argAll := m }, ?_, fun k => ?_⟩
  · unfold argcDeal
    rw [h1]
    rfl
  · obtain ⟨h3, h4⟩ := lookup_given h0' k
    have h2 : m.get k = ((argv.drop 1).map argPair).lookup k := by simp [h2]
    refine ⟨?_, ?_, ?_⟩
    · unfold argcGetOption
      rw [h2, h3]
    · intro pre a post v ha hm hn
      unfold argcGetVar
      rw [h2, h4 pre a post v ha hm hn]
    · intro hn
      unfold argcGetVar
      rw [← h3] at hn
      rw [h2]
      cases hl : ((argv.drop 1).map argPair).lookup k with
      | none => rfl
      | some v => rw [hl] at hn; exact absurd rfl hn

/-- C144: every argument has exactly one meaning. -/
theorem C144_one_meaning (arg : Str) (h0 : 0 ∉ arg) : ∃ n v, ∀ n' v', ArgMeans arg n' v' ↔ n' = n ∧ v' = v := by
  refine ⟨(argPair arg).1, (argPair arg).2, fun n' v' => ?_⟩
  rw [argPair_means h0]
  cases argPair arg
  simp only [Prod.mk.injEq]
  exact and_congr eq_comm eq_comm

/-- The shipped program called with `--config=a=b.json -stop --config=c`. -/
def demoArgv : List Str := [b!"./web", b!"--config=a=b.json", b!"-stop", b!"--config=c"]

example : (argcDeal (φ := Nat) demoArgv).map (fun d =>
      (argcGetVar d b!"config", argcGetOption d b!"stop", argcGetVar d b!"stop", argcGetOption d b!"web")) =
    .ok (b!"a=b.json", true, [], false) ∧ (demoArgv.all fun a => !a.contains 0) = true := by decide +kernel
example : ArgMeans b!"--config=a=b.json" b!"config" b!"a=b.json" :=
  ⟨b!"--", b!"config=a=b.json", by decide, by simp, by decide, by simp, .inl rfl⟩

/-! ### C145 -/

theorem argcCall_args (d : ArgcDeal φ) (c : ArgcCall φ) : (argcCall d c).argAll = d.argAll := by
  cases c <;> simp only [argcCall, argcSetOption, argcSetVar] <;> split <;> rfl

theorem argcCalls_args (cs : List (ArgcCall φ)) (d : ArgcDeal φ) : (argcCalls d cs).argAll = d.argAll := by
  induction cs generalizing d with
  | nil => rfl
  | cons c cs ih => exact (ih _).trans (argcCall_args d c)

theorem argcCall_pfunc (d : ArgcDeal φ) (c : ArgcCall φ) : (argcCall d c).pfunc =
    (assigned c).or (match required c with
      | some n => if (d.argAll.get n).isSome = true then d.pfunc else none
      | none => d.pfunc) := by
  cases c with
  | setOption n u m =>
    cases m <;> simp only [argcCall, argcSetOption, required, assigned, Option.none_or]
    · rfl
    · cases h : d.argAll.get n <;> simp
  | setVar n u m =>
    cases m <;> simp only [argcCall, argcSetVar, required, assigned, Option.none_or]
    · rfl
    · cases h : d.argAll.get n <;> simp
  | _ => rfl

/-- The options on the command line, as `Run` sees them. -/
theorem argAll_given (argv : List Str) (h0 : ∀ a ∈ argv, 0 ∉ a) :
    ∃ d : ArgcDeal φ, argcDeal argv = .ok d ∧ d.pfunc = none ∧ d.message = UMap.empty ∧
      ∀ k, (d.argAll.get k).isSome = true ↔ Given (argv.drop 1) k := by
  obtain ⟨m, h1, h2⟩ := argFold_get (argv.drop 1) UMap.empty
  refine ⟨{ argAll := m }, by unfold argcDeal; rw [h1]; rfl, rfl, rfl, fun k => ?_⟩
  rw [← (lookup_given (fun a ha => h0 a (List.mem_of_mem_drop ha)) k).1]
  simp [h2]

theorem argcCalls_append (d : ArgcDeal φ) (a b : List (ArgcCall φ)) :
    argcCalls d (a ++ b) = argcCalls (argcCalls d a) b := by
  simp [argcCalls]

/-- Declarations after the program was assigned. -/
theorem pfunc_kept {args : List Str} (post : List (ArgcCall φ)) (hp : ∀ c ∈ post, assigned c = none)
    (d : ArgcDeal φ) (hg : ∀ k, (d.argAll.get k).isSome = true ↔ Given args k) (f : φ) :
    (argcCalls d post).pfunc = some f ↔ d.pfunc = some f ∧ AllGiven args post := by
  induction post generalizing d with
  | nil => simp [argcCalls, AllGiven]
  | cons c cs ih =>
    have hc := hp c (by simp)
    have := ih (fun c h => hp c (by simp [h])) (argcCall d c) (by rw [argcCall_args]; exact hg)
    rw [show argcCalls d (c :: cs) = argcCalls (argcCall d c) cs from rfl, this, argcCall_pfunc]
    have hall : AllGiven args (c :: cs) ↔ (∀ n, required c = some n → Given args n) ∧ AllGiven args cs := by
      simp [AllGiven]
    rw [hall]
    have key : (match required c with
        | some n => if (d.argAll.get n).isSome = true then d.pfunc else none
        | none => d.pfunc) = some f ↔ d.pfunc = some f ∧ ∀ n, required c = some n → Given args n := by
      cases hr : required c with
      | none => simp
      | some n =>
        simp only [Option.some.injEq, forall_eq']
        by_cases hn : Given args n
        · simp [if_pos ((hg n).2 hn), hn]
        · simp only [if_neg (fun h => hn ((hg n).1 h)), hn, and_false, reduceCtorEq]
    rw [hc, Option.none_or]
    rw [key, and_assoc]

/-- When the program is left after a history. -/
theorem pfunc_after {args : List Str} (cs : List (ArgcCall φ)) (d : ArgcDeal φ) (hd : d.pfunc = none)
    (hg : ∀ k, (d.argAll.get k).isSome = true ↔ Given args k) (f : φ) :
    (argcCalls d cs).pfunc = some f ↔
      ∃ pre post, cs = pre ++ .setProgram f :: post ∧ (∀ c ∈ post, assigned c = none) ∧ AllGiven args post := by
  by_cases hs : ∃ c ∈ cs, assigned c ≠ none
  · -- the last assignment
    have : ∃ pre g post, cs = pre ++ .setProgram g :: post ∧ ∀ c ∈ post, assigned c = none := by
      clear hd hg
      induction cs with
      | nil => obtain ⟨c, hc, _⟩ := hs; simp at hc
      | cons c cs ih =>
        by_cases ht : ∃ c ∈ cs, assigned c ≠ none
        · obtain ⟨pre, g, post, rfl, h⟩ := ih ht
          exact ⟨c :: pre, g, post, rfl, h⟩
        · obtain ⟨c', hc', ha⟩ := hs
          rcases List.mem_cons.1 hc' with rfl | hc'
          · cases c' with
            | setProgram g =>
              exact ⟨[], g, cs, rfl, fun x hx => Classical.byContradiction fun e => ht ⟨x, hx, e⟩⟩
            | _ => simp [assigned] at ha
          · exact absurd ⟨c', hc', ha⟩ ht
    obtain ⟨pre, g, post, rfl, hpost⟩ := this
    rw [argcCalls_append]
    have hk := pfunc_kept post hpost (argcCall (argcCalls d pre) (.setProgram g))
      (by rw [argcCall_args, argcCalls_args]; exact hg) f
    rw [show argcCalls (argcCalls d pre) (.setProgram g :: post) =
      argcCalls (argcCall (argcCalls d pre) (.setProgram g)) post from rfl, hk]
    simp only [argcCall, Option.some.injEq]
    constructor
    · rintro ⟨rfl, h⟩
      exact ⟨pre, post, rfl, hpost, h⟩
    · rintro ⟨pre', post', he, hp', ha'⟩
      -- the last assignment is unique
      have huniq : ∀ (p q p' q' : List (ArgcCall φ)) (g g' : φ), p ++ .setProgram g :: q = p' ++ .setProgram g' :: q' →
          (∀ c ∈ q, assigned c = none) → (∀ c ∈ q', assigned c = none) → g = g' ∧ q = q' := by
        intro p q p' q' g g' he hq hq'
        rw [List.append_eq_append_iff] at he
        rcases he with ⟨a, h1, h2⟩ | ⟨a, h1, h2⟩
        · cases a with
          | nil => simp at h2; exact ⟨h2.1, h2.2⟩
          | cons x a =>
            simp only [List.cons_append, List.cons.injEq] at h2
            have := hq (.setProgram g') (by rw [h2.2]; simp)
            simp [assigned] at this
        · cases a with
          | nil => simp at h2; exact ⟨h2.1.symm, h2.2.symm⟩
          | cons x a =>
            simp only [List.cons_append, List.cons.injEq] at h2
            have := hq' (.setProgram g) (by rw [h2.2]; simp)
            simp [assigned] at this
      obtain ⟨rfl, rfl⟩ := huniq _ _ _ _ _ _ he hpost hp'
      exact ⟨rfl, ha'⟩
  · have hn : ∀ c ∈ cs, assigned c = none := fun c hc => Classical.byContradiction fun e => hs ⟨c, hc, e⟩
    rw [pfunc_kept cs hn d hg f, hd]
    constructor
    · rintro ⟨h, _⟩; cases h
    · rintro ⟨pre, post, rfl, _, _⟩
      have := hn (.setProgram f) (by simp)
      simp [assigned] at this

theorem argcRun_program (o : HashOrder) (d : ArgcDeal φ) {args : List Str}
    (hg : ∀ k, (d.argAll.get k).isSome = true ↔ Given args k) (f : φ) :
    argcRun o d = .program f ↔ d.pfunc = some f ∧ AsksNothing args := by
  unfold argcRun AsksNothing
  simp only [← hg]
  cases d.pfunc with
  | none => simp
  | some g =>
    simp only
    split
    · rename_i h
      simp only [Bool.or_eq_true] at h
      simp only [reduceCtorEq, false_iff, not_and]
      intro _ h1 h2
      exact absurd h (by simp [h1, h2])
    · rename_i h
      simp only [Bool.or_eq_true, not_or] at h
      split
      · rename_i h'
        simp only [Bool.or_eq_true] at h'
        simp only [reduceCtorEq, false_iff, not_and]
        intro _ _ _ h3 h4
        rcases h' with h' | h' <;> contradiction
      · rename_i h'
        simp only [Bool.or_eq_true, not_or] at h'
        simp [h.1, h.2, h'.1, h'.2]

/-- C145, exactly: for every command line and every order of the calls before it, `Run` calls the program `f` exactly
if `f` was assigned last, everything required *since then* is given, and neither help nor the version is asked for. -/
theorem C145_exact_partial (o : HashOrder) (argv : List Str) (h0 : ∀ a ∈ argv, 0 ∉ a) (cs : List (ArgcCall φ)) (f : φ) :
    ∃ d : ArgcDeal φ, argcDeal argv = .ok d ∧ (argcRun o (argcCalls d cs) = .program f ↔
      (∃ pre post, cs = pre ++ .setProgram f :: post ∧ (∀ c ∈ post, assigned c = none) ∧
        AllGiven (argv.drop 1) post) ∧ AsksNothing (argv.drop 1)) := by
  obtain ⟨d, h1, h2, _, h3⟩ := argAll_given (φ := φ) argv h0
  refine ⟨d, h1, ?_⟩
  rw [argcRun_program o _ (args := argv.drop 1) (by rw [argcCalls_args]; exact h3), pfunc_after cs d h2 h3]

/-- C145, what holds: if the required options are declared after the program was assigned, `Run` calls the program
exactly if nothing required is missing and neither help nor the version is asked for.  Missing: options that are
declared before, which are not required (`C145_order_refuted`). -/
theorem C145_required_partial (o : HashOrder) (argv : List Str) (h0 : ∀ a ∈ argv, 0 ∉ a) (cs : List (ArgcCall φ)) (f : φ)
    (hp : programOf cs = some f) (hf : ProgramFirst cs) :
    ∃ d : ArgcDeal φ, argcDeal argv = .ok d ∧ (argcRun o (argcCalls d cs) = .program f ↔
      AllGiven (argv.drop 1) cs ∧ AsksNothing (argv.drop 1)) := by
  obtain ⟨d, h1, h2⟩ := C145_exact_partial o argv h0 cs f
  refine ⟨d, h1, h2.trans (and_congr_left fun _ => ?_)⟩
  obtain ⟨pre, post, rfl, hpre, hpost⟩ := hf
  have hnone : post.filterMap assigned = [] := List.filterMap_eq_nil_iff.2 hpost
  constructor
  · rintro ⟨p, q, he, hq, ha⟩ c hc n hn
    rcases List.mem_append.1 hc with hc | hc
    · rw [hpre c hc] at hn; cases hn
    · rw [List.append_eq_append_iff] at he
      rcases he with ⟨a, h3, h4⟩ | ⟨a, h3, h4⟩
      · have : assigned (.setProgram f : ArgcCall φ) = none := hpost _ (by rw [h4]; simp)
        simp [assigned] at this
      · have : c ∈ q := by
          cases a with
          | nil =>
            simp only [List.nil_append] at h4
            rw [← h4] at hc
            rcases List.mem_cons.1 hc with rfl | hc
            · simp [required] at hn
            · exact hc
          | cons x a =>
            simp only [List.cons_append, List.cons.injEq] at h4
            rw [h4.2]
            simp [hc]
        exact ha c this n hn
  · intro ha
    unfold programOf at hp
    rw [List.filterMap_append, hnone, List.append_nil] at hp
    -- the last assignment in `pre`
    have : ∀ l : List (ArgcCall φ), (l.filterMap assigned).getLast? = some f →
        ∃ p q, l = p ++ .setProgram f :: q ∧ ∀ c ∈ q, assigned c = none := by
      intro l
      induction l with
      | nil => intro h; simp at h
      | cons c l ih =>
        intro h
        by_cases hl : l.filterMap assigned = []
        · have hq := List.filterMap_eq_nil_iff.1 hl
          cases c with
          | setProgram g =>
            simp only [List.filterMap_cons, assigned, hl, List.getLast?_singleton, Option.some.injEq] at h
            subst h
            exact ⟨[], l, rfl, hq⟩
          | _ => simp [List.filterMap_cons, assigned, hl] at h
        · have h' : (l.filterMap assigned).getLast? = some f := by
            cases c with
            | setProgram g =>
              simp only [List.filterMap_cons, assigned] at h
              rwa [List.getLast?_cons_of_ne_nil hl] at h
            | _ => simpa only [List.filterMap_cons, assigned] using h
          obtain ⟨p, q, rfl, hq⟩ := ih h'
          exact ⟨c :: p, q, rfl, hq⟩
    obtain ⟨p, q, rfl, hq⟩ := this pre hp
    refine ⟨p, q ++ post, by simp, ?_, ?_⟩
    · intro c hc
      rcases List.mem_append.1 hc with hc | hc
      · exact hq c hc
      · exact hpost c hc
    · intro c hc n hn
      refine ha c ?_ n hn
      simp only [List.mem_append, List.mem_cons] at hc ⊢
      rcases hc with hc | hc
      · exact .inl (.inr (.inr hc))
      · exact .inr hc

/-- C145 is false: an option that is declared as required before the program is assigned is not required. -/
theorem C145_order_refuted (o : HashOrder) (f : φ) : ∃ d : ArgcDeal φ, argcDeal [b!"./app"] = .ok d ∧
    argcRun o (argcCalls d [.setOption b!"key" b!"the key" true, .setProgram f]) = .program f ∧
    ¬ Given ([b!"./app"].drop 1) b!"key" ∧
    ∃ text, argcRun o (argcCalls d [.setProgram f, .setOption b!"key" b!"the key" true]) = .printed text := by
  refine ⟨{}, rfl, rfl, ?_, _, rfl⟩
  rintro ⟨a, h, _⟩
  simp at h

/-- The shipped program: its options are declared after the program is assigned. -/
def demoDecls : List (ArgcCall Nat) :=
  [.setName b!"chenxuanweb server", .setProgram 7, .setUsage [b!"thank using chenxuanweb"], .setVersion b!"1.0.0  2024",
   .setOption b!"reload" b!"restart the server" false, .setOption b!"stop" b!"stop the server" false,
   .setVar b!"config" b!"choose config file" true]

example : programOf demoDecls = some 7 ∧ ProgramFirst demoDecls ∧
    ((argcDeal [b!"web", b!"-stop", b!"--config=x"]).map fun d => argcRun .insertion (argcCalls d demoDecls)) =
      .ok (.program 7) ∧
    ((argcDeal [b!"web", b!"-config=x", b!"-v"]).map fun d => argcRun .insertion (argcCalls d demoDecls)) =
      .ok (.printed b!"app version:\t1.0.0  2024\n") := by
  refine ⟨rfl, ⟨demoDecls.take 2, demoDecls.drop 2, rfl, ?_, ?_⟩, by decide +kernel, by decide +kernel⟩ <;>
    simp [demoDecls, required, assigned]

/-! ### The texts -/

/-- What was declared first under each name. -/
theorem message_get (cs : List (ArgcCall φ)) (d : ArgcDeal φ) (k : Str) :
    (argcCalls d cs).message.get k = (d.message.get k).or ((cs.filterMap declared).lookup k) := by
  induction cs generalizing d with
  | nil => simp [argcCalls]
  | cons c cs ih =>
    rw [show argcCalls d (c :: cs) = argcCalls (argcCall d c) cs from rfl, ih]
    have hm : (argcCall d c).message = match declared c with
        | some p => umapInsert d.message p.1 p.2
        | none => d.message := by
      cases c with
      | setOption n u m =>
        simp only [argcCall, argcSetOption, declared]
        split <;> rfl
      | setVar n u m =>
        simp only [argcCall, argcSetVar, declared]
        split <;> rfl
      | _ => rfl
    rw [hm, List.filterMap_cons]
    cases declared c with
    | none => rfl
    | some p =>
      obtain ⟨n, t⟩ := p
      simp only [umapInsert_get, List.lookup_cons]
      by_cases hk : k = n
      · subst hk; cases d.message.get k <;> simp
      · have hb : (k == n) = false := by simpa using hk
        cases d.message.get k <;> simp [hk, hb]

theorem getLast_or {α : Type} (l : List α) (a b : α) : ((a :: l).getLast?).getD b = (l.getLast?).getD a := by
  rw [List.getLast?_cons]; rfl

/-- The members of `app` hold what was assigned to them last. -/
theorem argcCalls_app (cs : List (ArgcCall φ)) (d : ArgcDeal φ) :
    (argcCalls d cs).name = ((cs.filterMap fun | .setName n => some n | _ => none).getLast?).getD d.name ∧
    (argcCalls d cs).version = ((cs.filterMap fun | .setVersion v => some v | _ => none).getLast?).getD d.version ∧
    (argcCalls d cs).usage = ((cs.filterMap fun | .setUsage u => some u | _ => none).getLast?).getD d.usage := by
  induction cs generalizing d with
  | nil => exact ⟨rfl, rfl, rfl⟩
  | cons c cs ih =>
    rw [show argcCalls d (c :: cs) = argcCalls (argcCall d c) cs from rfl]
    obtain ⟨h1, h2, h3⟩ := ih (argcCall d c)
    have hs : ∀ (b : ArgcDeal φ) (n u : Str) (m : Bool),
        ((argcSetOption b n u m).name = b.name ∧ (argcSetOption b n u m).version = b.version ∧
          (argcSetOption b n u m).usage = b.usage) ∧
        (argcSetVar b n u m).name = b.name ∧ (argcSetVar b n u m).version = b.version ∧
          (argcSetVar b n u m).usage = b.usage := by
      intro b n u m
      refine ⟨?_, ?_⟩
      · simp only [argcSetOption]; split <;> exact ⟨rfl, rfl, rfl⟩
      · simp only [argcSetVar]; split <;> exact ⟨rfl, rfl, rfl⟩
    rw [h1, h2, h3]
    cases c with
    | setOption n u m => simp only [argcCall, List.filterMap_cons, (hs d n u m).1]; simp
    | setVar n u m => simp only [argcCall, List.filterMap_cons, (hs d n u m).2]; simp
    | setName n => exact ⟨by simp only [argcCall, List.filterMap_cons, getLast_or], rfl, rfl⟩
    | setVersion n => exact ⟨rfl, by simp only [argcCall, List.filterMap_cons, getLast_or], rfl⟩
    | setUsage n => exact ⟨rfl, rfl, by simp only [argcCall, List.filterMap_cons, getLast_or]⟩
    | setProgram f => exact ⟨rfl, rfl, rfl⟩

theorem optionLine_usage (p : Str × Str) (h1 : 0 ∉ p.1) (h2 : 0 ∉ p.2) : optionLine p.1 p.2 = usageLine p := by
  unfold optionLine usageLine padRight filled
  rw [cString_eq_self.2 h1, cString_eq_self.2 h2]

theorem argcDeal_app (argv : List Str) (d : ArgcDeal φ) (h : argcDeal argv = .ok d) :
    d.name = [] ∧ d.version = [] ∧ d.usage = [] := by
  unfold argcDeal at h
  cases hm : (argv.drop 1).foldlM argStep UMap.empty with
  | error e => rw [hm] at h; cases h
  | ok m =>
  rw [hm] at h
  cases h
  exact ⟨rfl, rfl, rfl⟩

/-- C145: when help is asked for, or something required (after the program was assigned) is missing, or there is no
program, a text is printed that tells the name and the version that were set last and the usage lines, has a line for each declared option and variable
(the first declaration counts, if a name is declared twice), whatever the order of the hash map, and ends with the lines for
help and version. -/
theorem C145_usage (o : HashOrder) (argv : List Str) (h0 : ∀ a ∈ argv, 0 ∉ a) (cs : List (ArgcCall φ))
    (hc : Given (argv.drop 1) b!"h" ∨ Given (argv.drop 1) b!"help" ∨
      ¬ ∃ f pre post, cs = pre ++ .setProgram f :: post ∧ (∀ c ∈ post, assigned c = none) ∧
        AllGiven (argv.drop 1) post)
    (h2 : ∀ c ∈ cs, ∀ p, declared c = some p → 0 ∉ p.1 ∧ 0 ∉ p.2)
    (hn : 0 ∉ nameOf cs ∧ 0 ∉ versionOf cs ∧ ∀ u ∈ usageOf cs, 0 ∉ u) :
    ∃ (d : ArgcDeal φ) (text : Str), argcDeal argv = .ok d ∧ argcRun o (argcCalls d cs) = .printed text ∧
      (b!"app name:\n\t" ++ nameOf cs ++ b!"  " ++ versionOf cs ++ b!"\nusage:\n" ++
        ((usageOf cs).map fun u => b!"\t" ++ u ++ b!"\n").flatten ++ b!"options:\n") <+: text ∧
      (usageLine (b!"help,-h", b!"get help of app,no must") ++
        usageLine (b!"version,-v", b!"get version of app,no must")) <:+ text ∧
      ∀ pre c post p, cs = pre ++ c :: post → declared c = some p →
        (∀ b ∈ pre, ∀ q, declared b = some q → q.1 ≠ p.1) → Occurs (usageLine p) text := by
  obtain ⟨d, h1, h3, h4, h5⟩ := argAll_given (φ := φ) argv h0
  have happ : (argcCalls d cs).name = nameOf cs ∧ (argcCalls d cs).version = versionOf cs ∧
      (argcCalls d cs).usage = usageOf cs := by
    have h := argcCalls_app cs d
    obtain ⟨e1, e2, e3⟩ := argcDeal_app argv d h1
    rw [e1, e2, e3] at h
    exact h
  refine ⟨d, argcMsg o (argcCalls d cs), h1, ?_, ?_, ?_, ?_⟩
  · unfold argcRun
    cases hp : (argcCalls d cs).pfunc with
    | none => rfl
    | some f =>
      have hf := (pfunc_after cs d h3 h5 f).1 hp
      have hh : (((argcCalls d cs).argAll.get b!"h").isSome || ((argcCalls d cs).argAll.get b!"help").isSome) = true := by
        rw [argcCalls_args, Bool.or_eq_true, h5, h5]
        rcases hc with hc | hc | hc
        · exact .inl hc
        · exact .inr hc
        · exact absurd ⟨f, hf⟩ hc
      simp only [hh, if_true]
  · unfold argcMsg
    rw [happ.1, happ.2.1, happ.2.2, cString_eq_self.2 hn.1, cString_eq_self.2 hn.2.1]
    have hu : ((usageOf cs).map fun u => b!"\t" ++ cString u ++ b!"\n") =
        (usageOf cs).map fun u => b!"\t" ++ u ++ b!"\n" :=
      List.map_congr_left fun u hu => by rw [cString_eq_self.2 (hn.2.2 u hu)]
    rw [hu]
    exact ⟨_, by simp only [List.append_assoc]; rfl⟩
  · unfold argcMsg
    rw [← optionLine_usage _ (by decide) (by decide), ← optionLine_usage _ (by decide) (by decide), List.append_assoc _ (optionLine _ _)]
    exact List.suffix_append _ _
  · intro pre c post p he hd hfirst
    have hg : (argcCalls d cs).message.get p.1 = some p.2 := by
      rw [message_get, h4, UMap.get_empty, Option.none_or, he, List.filterMap_append, List.filterMap_cons, hd]
      have : ∀ l : List (Str × Str), (∀ q ∈ l, q.1 ≠ p.1) → ∀ r, (l ++ r).lookup p.1 = r.lookup p.1 := by
        intro l
        induction l with
        | nil => intro _ r; rfl
        | cons q l ih =>
          intro h r
          have hb : (p.1 == q.1) = false := by simpa using fun e => h q (by simp) e.symm
          obtain ⟨qa, qb⟩ := q
          rw [List.cons_append, List.lookup_cons, hb]
          exact ih (fun x hx => h x (by simp [hx])) r
      rw [this]
      · obtain ⟨pa, pb⟩ := p
        simp
      · intro q hq
        obtain ⟨b, hb, hbq⟩ := List.mem_filterMap.1 hq
        exact hfirst b hb q hbq
    have hm : p ∈ o.order (argcCalls d cs).message := (UMap.mem_order o _ p).2 hg
    obtain ⟨ha, hb⟩ := h2 c (by rw [he]; simp) p hd
    obtain ⟨u, v, huv⟩ := List.append_of_mem hm
    unfold argcMsg
    rw [huv, List.map_append, List.map_cons, optionLine_usage p ha hb]
    simp only [List.flatten_append, List.flatten_cons]
    unfold Occurs
    simp only [List.append_assoc]
    exact ⟨b!"app name:\n" ++ b!"\t" ++ cString (argcCalls d cs).name ++ b!"  " ++ cString (argcCalls d cs).version ++
      b!"\n" ++ b!"usage:\n" ++ ((argcCalls d cs).usage.map fun u => b!"\t" ++ cString u ++ b!"\n").flatten ++
      b!"options:\n" ++ (u.map fun p => optionLine p.1 p.2).flatten, _, by simp only [List.append_assoc]; rfl⟩

/-- C145: when the version is asked for, but no help, and nothing required (after the program was assigned) is missing,
the version that was set last is printed. -/
theorem C145_version (o : HashOrder) (argv : List Str) (h0 : ∀ a ∈ argv, 0 ∉ a) (pre post : List (ArgcCall φ)) (f : φ)
    (hp : ∀ c ∈ post, assigned c = none) (ha : AllGiven (argv.drop 1) post)
    (hh : ¬ Given (argv.drop 1) b!"h" ∧ ¬ Given (argv.drop 1) b!"help")
    (hv : Given (argv.drop 1) b!"v" ∨ Given (argv.drop 1) b!"version") (hn : 0 ∉ versionOf (pre ++ .setProgram f :: post)) :
    ∃ d : ArgcDeal φ, argcDeal argv = .ok d ∧ argcRun o (argcCalls d (pre ++ .setProgram f :: post)) =
      .printed (b!"app version:\t" ++ versionOf (pre ++ .setProgram f :: post) ++ b!"\n") := by
  obtain ⟨d, h1, h3, _, h5⟩ := argAll_given (φ := φ) argv h0
  have hver : (argcCalls d (pre ++ .setProgram f :: post)).version = versionOf (pre ++ .setProgram f :: post) := by
    have h := (argcCalls_app (pre ++ .setProgram f :: post) d).2.1
    rw [(argcDeal_app argv d h1).2.1] at h
    exact h
  refine ⟨d, h1, ?_⟩
  have hf := (pfunc_after (pre ++ .setProgram f :: post) d h3 h5 f).2 ⟨pre, post, rfl, hp, ha⟩
  unfold argcRun
  rw [hf, argcCalls_args]
  have e1 : ((d.argAll.get b!"h").isSome || (d.argAll.get b!"help").isSome) = false := by
    rw [Bool.or_eq_false_iff, Bool.eq_false_iff, Bool.eq_false_iff]
    exact ⟨fun h => hh.1 ((h5 _).1 h), fun h => hh.2 ((h5 _).1 h)⟩
  have e2 : ((d.argAll.get b!"v").isSome || (d.argAll.get b!"version").isSome) = true := by
    rw [Bool.or_eq_true, h5, h5]
    exact hv
  simp only [e1, e2, if_true, Bool.false_eq_true, if_false, hver, cString_eq_self.2 hn]

example : ((argcDeal [b!"web", b!"-stop"]).map fun d => argcRun .insertion (argcCalls d demoDecls)).map
      (fun r => match r with
        | .printed t => (t.take 28, (find t (usageLine (b!"config=(variable)", b!"choose config file,must"))).isSome)
        | .program _ => ([], false)) = .ok (b!"app name:\n\tchenxuanweb serve", true) := by decide +kernel

end Cppnet
