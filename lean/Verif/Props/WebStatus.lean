import Verif.Spec.WebStatus
import Verif.Props.WebServer

/-!
# C192: the exit status of the web server
-/

namespace Cppnet
open Spec
variable {φ σ : Type}

/-- **C192**, what holds: if the web server did what it was asked to do, its exit status is 0.  Missing: that it is another one if it did
not, see the refutations. -/
theorem C192_done_partial (o : HashOrder) (res : Str → FsKey) (fs : FsTree) (a : MainAns) (wa : WebAns) (self : Int) (d : ArgcDeal φ)
    (h : WebDone (argcGetOption d b!"stop") (webProgram (σ := σ) o res fs a wa self d)) :
    (webProgram (σ := σ) o res fs a wa self d).status = some 0 := by
  unfold webProgram at h ⊢
  generalize argcRun o d = r at h ⊢
  cases r with
  | printed _ => rfl
  | program _ =>
    simp only at h ⊢
    by_cases hs : argcGetOption d b!"stop" = true
    · -- with -stop
      unfold webMain at h ⊢
      rw [hs, Bool.or_true, if_pos rfl] at h ⊢
      unfold mainConfig at h ⊢
      generalize fileGet res fs b!"./server.pid" [] a.pidRead = g at h ⊢
      cases g with
      | error e => simp [WebDone] at h
      | ok g =>
        obtain ⟨rc, text⟩ := g
        simp only at h ⊢
        by_cases hrc : rc ≠ 0
        · simp only [if_pos hrc] at h ⊢
          generalize (if argcGetOption d b!"config" then argcGetVar d b!"config" else b!"./config.json") = file at h ⊢
          generalize fileGet res fs file [] a.configRead = g at h ⊢
          cases g with
          | error e => simp [WebDone] at h
          | ok g =>
            obtain ⟨rc, text⟩ := g
            simp only at h ⊢
            by_cases h2 : rc ≠ 0
            · simp [if_pos h2]
            · simp only [if_neg h2] at h ⊢
              by_cases h3 : (a.parse text).1 ≠ 0
              · simp [if_pos h3, WebDone] at h
              · simp [if_neg h3]
        · simp only [if_neg hrc] at h ⊢
          cases stoi text with
          | error e => rfl
          | ok pid =>
            simp only
            by_cases hp : pid ≤ 66 <;> simp [hp]
    · have hs' : argcGetOption d b!"stop" = false := by simpa using hs
      rw [hs'] at h
      generalize webMain res fs a d = m at h ⊢
      obtain ⟨kills, stop⟩ := m
      cases stop with
      | exit c => simp [WebDone] at h
      | threw => simp [WebDone] at h
      | run c => rfl

/-- **C192**, what holds of failures: the status is not 0 exactly if the configuration was read and the parser refuses it, and the program is
aborted exactly if reading the pid file or the configuration throws. -/
theorem C192_status_partial (o : HashOrder) (res : Str → FsKey) (fs : FsTree) (a : MainAns) (wa : WebAns) (self : Int) (d : ArgcDeal φ) :
    (webProgram (σ := σ) o res fs a wa self d).status = some 0 ∨
    ((webProgram (σ := σ) o res fs a wa self d).served = none ∧
      (((webProgram (σ := σ) o res fs a wa self d).status = some 255 ∧ ∃ name text, fileGet res fs name [] a.configRead = .ok (0, text) ∧ (a.parse text).1 ≠ 0) ∨
       ((webProgram (σ := σ) o res fs a wa self d).status = none ∧ ∃ name r e, fileGet res fs name [] r = .error e))) := by
  have hcfg : (∃ c, mainConfig res fs a d = .run c) ∨ mainConfig res fs a d = .exit 0 ∨
      (mainConfig res fs a d = .exit (-1) ∧ ∃ name text, fileGet res fs name [] a.configRead = .ok (0, text) ∧ (a.parse text).1 ≠ 0) ∨
      (mainConfig res fs a d = .threw ∧ ∃ name r e, fileGet res fs name [] r = .error e) := by
    unfold mainConfig
    generalize (if argcGetOption d b!"config" then argcGetVar d b!"config" else b!"./config.json") = file
    cases hg : fileGet res fs file [] a.configRead with
    | error e => simp only [hg]; exact .inr (.inr (.inr ⟨by trivial, file, _, e, hg⟩))
    | ok g =>
      obtain ⟨rc, text⟩ := g
      simp only [hg]
      by_cases h2 : rc ≠ 0
      · rw [if_pos h2]; exact .inr (.inl rfl)
      · rw [if_neg h2]
        by_cases h3 : (a.parse text).1 ≠ 0
        · rw [if_pos h3]
          refine .inr (.inr (.inl ⟨rfl, file, text, ?_, h3⟩))
          rw [hg, Decidable.of_not_not h2]
        · rw [if_neg h3]; exact .inl ⟨_, rfl⟩
  have hany : ∀ kills, webMain res fs a d = { kills, stop := mainConfig res fs a d } →
      (webProgram (σ := σ) o res fs a wa self d).status = some 0 ∨
      ((webProgram (σ := σ) o res fs a wa self d).served = none ∧
      (((webProgram (σ := σ) o res fs a wa self d).status = some 255 ∧ ∃ name text, fileGet res fs name [] a.configRead = .ok (0, text) ∧ (a.parse text).1 ≠ 0) ∨
       ((webProgram (σ := σ) o res fs a wa self d).status = none ∧ ∃ name r e, fileGet res fs name [] r = .error e))) := by
    intro kills hm
    unfold webProgram
    cases argcRun o d with
    | printed _ => exact .inl rfl
    | program _ =>
      simp only [hm]
      rcases hcfg with ⟨c, h⟩ | h | ⟨h, hx⟩ | ⟨h, hx⟩
      · rw [h]; exact .inl rfl
      · rw [h]; exact .inl rfl
      · rw [h]; exact .inr ⟨rfl, .inl ⟨rfl, hx⟩⟩
      · rw [h]; exact .inr ⟨rfl, .inr ⟨rfl, hx⟩⟩
  by_cases hs : (argcGetOption d b!"reload" || argcGetOption d b!"stop") = true
  · cases hg : fileGet res fs b!"./server.pid" [] a.pidRead with
    | error e =>
      have hm : webMain res fs a d = { stop := .threw } := by unfold webMain; rw [if_pos hs, hg]
      unfold webProgram
      cases argcRun o d with
      | printed _ => exact .inl rfl
      | program _ => simp only [hm]; exact .inr ⟨by trivial, .inr ⟨by trivial, _, _, e, hg⟩⟩
    | ok g =>
      obtain ⟨rc, text⟩ := g
      by_cases hrc : rc ≠ 0
      · exact hany [] (by unfold webMain; rw [if_pos hs, hg]; simp only [if_pos hrc])
      · have h0 : ∀ kills, webMain res fs a d = { kills, stop := .exit 0 } → (webProgram (σ := σ) o res fs a wa self d).status = some 0 := by
          intro kills hm
          unfold webProgram
          cases argcRun o d with
          | printed _ => rfl
          | program _ => simp only [hm]; rfl
        cases hp : stoi text with
        | error e => exact .inl (h0 [] (by unfold webMain; rw [if_pos hs, hg]; simp only [if_neg hrc, hp]))
        | ok pid =>
          by_cases h66 : pid ≤ 66
          · exact .inl (h0 [] (by unfold webMain; rw [if_pos hs, hg]; simp only [if_neg hrc, hp, if_pos h66]))
          · by_cases hst : argcGetOption d b!"stop" = true
            · exact .inl (h0 [(pid, 2)] (by unfold webMain; rw [if_pos hs, hg]; simp only [if_neg hrc, hp, if_neg h66, if_pos hst]))
            · exact hany [(pid, 2)] (by unfold webMain; rw [if_pos hs, hg]; simp only [if_neg hrc, hp, if_neg h66, if_neg hst])
  · exact hany [] (by unfold webMain; rw [if_neg hs])

/-- **C192** holds for a configuration that can be read and that the parser refuses: the status is 255 and no server runs. -/
theorem C192_refused_partial (o : HashOrder) (res : Str → FsKey) (fs : FsTree) (a : MainAns) (wa : WebAns) (self : Int) (d : ArgcDeal φ)
    (f : φ) (hr : argcRun o d = .program f) (hs : argcGetOption d b!"stop" = false) (hre : argcGetOption d b!"reload" = false)
    (name text : Str) (hn : name = if argcGetOption d b!"config" then argcGetVar d b!"config" else b!"./config.json")
    (hg : fileGet res fs name [] a.configRead = .ok (0, text)) (hp : (a.parse text).1 ≠ 0) :
    webProgram (σ := σ) o res fs a wa self d = { status := some 255 } := by
  have hm : webMain res fs a d = { stop := mainConfig res fs a d } := by
    unfold webMain; rw [hs, hre]; rfl
  have : mainConfig res fs a d = .exit (-1) := by
    unfold mainConfig
    simp only [← hn, hg, ne_eq, not_true_eq_false, if_false]
    rw [if_pos hp]
  unfold webProgram
  rw [hr]
  simp only [hm, this]
  rfl

/-- **C192**, refuted: a configuration file that is not there, a certificate that cannot be used, an address that is taken and a static file
that is missing all give the status 0, although no server runs. -/
theorem C192_failed_refuted (o : HashOrder) (res : Str → FsKey) (fs : FsTree) (a : MainAns) (wa : WebAns) (self : Int) (d : ArgcDeal φ)
    (f : φ) (hr : argcRun o d = .program f) (hs : argcGetOption d b!"stop" = false) (hre : argcGetOption d b!"reload" = false)
    (hc : argcGetOption d b!"config" = true)
    (hw : fs (res (cString (argcGetVar d b!"config"))) = none ∨
      ∃ c text, fileGet res fs (argcGetVar d b!"config") [] a.configRead = .ok (0, text) ∧ a.parse text = (0, c) ∧
        (wa.initRc ≠ 0 ∨ (c.ssl.certPath ≠ [] ∧ wa.ctxRc ≠ 0) ∨ webCalls (σ := σ) res fs c = none)) :
    (webProgram (σ := σ) o res fs a wa self d).status = some 0 ∧
    ¬ WebDone (argcGetOption d b!"stop") (webProgram (σ := σ) o res fs a wa self d) := by
  have hm : webMain res fs a d = { stop := mainConfig res fs a d } := by
    unfold webMain; rw [hs, hre]; rfl
  unfold webProgram
  rw [hr]
  simp only [hm, hs]
  rcases hw with hw | ⟨c, text, hg, hp, hw⟩
  · have : mainConfig res fs a d = .exit 0 := by
      unfold mainConfig fileGet
      simp [hc, hw, kLogicErr]
    rw [this]
    refine ⟨rfl, ?_⟩
    simp [WebDone]
  · have : mainConfig res fs a d = .run c := by
      unfold mainConfig
      simp [hc, hg, hp]
    rw [this]
    refine ⟨rfl, ?_⟩
    simp only [WebDone, Bool.false_eq_true, false_and, false_or, true_and, Option.some.injEq, not_exists]
    intro tls addr calls
    unfold runWithConfig webServe
    rcases hw with hw | ⟨h1, h2⟩ | hw
    · by_cases h1 : c.ssl.certPath ≠ []
      · by_cases h2 : wa.ctxRc ≠ 0 <;> simp [h1, h2, hw]
      · simp [h1, hw]
    · simp [h1, h2]
    · simp only [hw]
      by_cases h1 : c.ssl.certPath ≠ []
      · by_cases h2 : wa.ctxRc ≠ 0
        · simp [h1, h2]
        · by_cases h3 : wa.initRc ≠ 0 <;> simp [h1, h2, h3]
      · by_cases h3 : wa.initRc ≠ 0 <;> simp [h1, h3]

/-- **C192**, refuted for `-stop`: if the pid file holds no number above 66 nobody is signalled, and the status is 0. -/
theorem C192_stop_refuted (o : HashOrder) (res : Str → FsKey) (fs : FsTree) (a : MainAns) (wa : WebAns) (self : Int) (d : ArgcDeal φ)
    (f : φ) (hr : argcRun o d = .program f) (hs : argcGetOption d b!"stop" = true) (text : Str)
    (hg : fileGet res fs b!"./server.pid" [] a.pidRead = .ok (0, text)) (hn : ∀ pid, stoi text = .ok pid → pid ≤ 66) :
    webProgram (σ := σ) o res fs a wa self d = { status := some 0 } ∧
    ¬ WebDone (argcGetOption d b!"stop") (webProgram (σ := σ) o res fs a wa self d) := by
  have hm : webMain res fs a d = { stop := .exit 0 } := by
    unfold webMain
    rw [hs, Bool.or_true, if_pos rfl, hg]
    simp only [ne_eq, not_true_eq_false, if_false]
    cases hp : stoi text with
    | error e => rfl
    | ok pid => simp only [if_pos (hn pid hp)]
  have e : webProgram (σ := σ) o res fs a wa self d = { status := some 0 } := by
    unfold webProgram
    rw [hr]
    simp only [hm]
    rfl
  rw [e, hs]
  refine ⟨rfl, ?_⟩
  simp [WebDone]

/-- The program with a command line and what the pid file holds; `ok`: the parser takes the configuration. -/
def demoWebStatus (args : List Str) (pid : Option Str) (ok : Bool) : Option (Option Int × List (Int × Int) × Bool) :=
  match argcDeal (φ := Nat) (b!"web" :: args) with
  | .ok d =>
    let p : WebProc Unit := webProgram .insertion flatRes (match pid with
      | some text => demoTree.put [b!"./server.pid"] (some (.file text true))
      | none => demoTree) { parse := fun _ => (if ok then 0 else -1, shippedConfig) } {} 1234 { d with pfunc := some 0 }
    some (p.status, p.kills, match p.served with
      | some (.runs ..) => true
      | _ => false)
  | .error _ => none

example : demoWebStatus [] none true = some (some 0, [], true) := by decide +kernel
example : demoWebStatus [b!"-config=other.json"] none true = some (some 0, [], false) := by decide +kernel
example : demoWebStatus [] none false = some (some 255, [], false) := by decide +kernel
example : demoWebStatus [b!"-stop"] (some b!"1234") true = some (some 0, [(1234, 2)], false) := by decide +kernel
example : demoWebStatus [b!"-stop"] (some b!"0") true = some (some 0, [], false) := by decide +kernel
example : demoWebStatus [b!"-config=../asset/blog-home"] none true = some (none, [], false) := by decide +kernel

end Cppnet
