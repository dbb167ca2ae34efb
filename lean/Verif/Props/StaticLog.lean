import Verif.Spec.StaticLog
import Verif.Spec.Hangup
import Verif.Props.Static

/-!
# C181: a static handler logs what it did, once
-/

namespace Cppnet
open Spec
variable {σ : Type}

/-- **C181**: logging changes nothing: the handlers with their messages do what the handlers of the other theorems do. -/
theorem C181_same (g : Nat) (mount dir file : Str) (ctx : Ctx σ) :
    (staticDirLog g mount dir ctx).2 = staticDirHandler g mount dir ctx ∧
    (staticFileLog g file ctx).2 = staticFileHandler g file ctx := by
  constructor
  · unfold staticDirLog staticDirHandler
    by_cases hl : (!ctx.live g) = true
    · rw [if_pos hl, if_pos hl]
    rw [if_neg hl, if_neg hl]
    cases h0 : find ctx.req.route.path mount with
    | none => rfl
    | some pos =>
    cases h1 : substrFrom ctx.req.route.path (pos + mount.length) with
    | error e => simp only [h1, bind, Except.bind]
    | ok aim =>
    simp only [h1, bind, Except.bind]
    by_cases hd : (find aim b!"..").isSome = true
    · rw [if_pos hd, if_pos hd]
    rw [if_neg hd, if_neg hd]
    cases h2 : fileExist ctx.fs (dir ++ b!"/" ++ aim) with
    | error e => rfl
    | ok b =>
    cases b with
    | false => rfl
    | true =>
    simp only [Bool.not_true, Bool.false_eq_true, if_false]
    cases h3 : fileRead ctx.fs (dir ++ b!"/" ++ aim) ctx.resp.body with
    | error e => rfl
    | ok r =>
    obtain ⟨rc, body⟩ := r
    by_cases hr : rc ≠ kSuccess
    · simp only [if_pos hr]
    simp only [if_neg hr]
    cases h4 : Suffix (dir ++ b!"/" ++ aim) with
    | error e => rfl
    | ok s => rfl
  · unfold staticFileLog staticFileHandler
    by_cases hl : (!ctx.live g) = true
    · rw [if_pos hl, if_pos hl]
    rw [if_neg hl, if_neg hl]
    simp only [bind, Except.bind]
    cases h2 : fileExist ctx.fs file with
    | error e => rfl
    | ok b =>
    cases b with
    | false => rfl
    | true =>
    simp only [Bool.not_true, Bool.false_eq_true, if_false]
    cases h3 : fileRead ctx.fs file ctx.resp.body with
    | error e => rfl
    | ok r =>
    obtain ⟨rc, body⟩ := r
    by_cases hr : rc ≠ kSuccess
    · simp only [if_pos hr]
    simp only [if_neg hr]
    cases h4 : Suffix file with
    | error e => rfl
    | ok s => rfl

/-- **C181** for `StaticFile`: one message for each call that returns, and none for a call that throws.  It is an Info message exactly
when the response is the file (200 and its content), a warning exactly when there is no file (404), an error exactly when the file
cannot be opened (404); it names the file. -/
theorem C181_file (g : Nat) (file : Str) (ctx : Ctx σ) (hl : ctx.live g = true) :
    match found ctx.fs file with
    | .content c => ∃ ctx', staticFileLog g file ctx = ([(.info, b!"static_file: return static file success " ++ file)], .ok ctx') ∧
        ctx'.resp.status = .OK ∧ ctx'.resp.body = c
    | .locked => ∃ ctx', staticFileLog g file ctx = ([(.error, b!"[logicerr]:" ++ file ++ b!" read error")], .ok ctx') ∧
        ctx'.resp.status = .NOT_FOUND
    | .nothing => ∃ ctx', staticFileLog g file ctx = ([(.warn, b!"[logicerr]:static file not exist " ++ file)], .ok ctx') ∧
        ctx'.resp.status = .NOT_FOUND
    | .failure => staticFileLog g file ctx = ([], .error .fsError) := by
  obtain ⟨base, ext, hsuf, _⟩ := C07_suffix file
  unfold found staticFileLog fileExist fileRead
  rw [hl]
  simp only [Bool.not_true, Bool.false_eq_true, if_false]
  cases hfs : ctx.fs (cString file) with
  | missing => exact ⟨_, rfl, rfl⟩
  | other => exact ⟨_, rfl, rfl⟩
  | broken => rfl
  | failed => rfl
  | file c =>
    cases c with
    | none => exact ⟨_, rfl, rfl⟩
    | some c =>
      simp only [hsuf, ne_eq, not_true_eq_false, if_false]
      exact ⟨_, rfl, rfl, rfl⟩

/-- **C181** for `StaticDir`, when the rest of the path after the first occurrence of the mount point has no "..": one message for each
call that returns, none for a call that throws; Info exactly when the response is the file, a warning when there is no file (the
response is then left to the handlers that follow), an error when the file cannot be opened (404).  It names the file. -/
theorem C181_dir (g : Nat) (mount dir pre rest : Str) (ctx : Ctx σ) (hl : ctx.live g = true)
    (hp : ctx.req.route.path = pre ++ mount ++ rest) (hfirst : find (pre ++ mount ++ rest) mount = some pre.length)
    (hdots : ¬ Occurs b!".." rest) :
    match found ctx.fs (dir ++ b!"/" ++ rest) with
    | .content c => ∃ ctx', staticDirLog g mount dir ctx =
          ([(.info, b!"static_dir: return static dir success " ++ (dir ++ b!"/" ++ rest))], .ok ctx') ∧
        ctx'.resp.status = .OK ∧ ctx'.resp.body = c
    | .locked => ∃ ctx', staticDirLog g mount dir ctx = ([(.error, dir ++ b!"/" ++ rest ++ b!" read error")], .ok ctx') ∧
        ctx'.resp.status = .NOT_FOUND
    | .nothing => staticDirLog g mount dir ctx =
          ([(.warn, b!"[logicerr]:static dir not exist " ++ (dir ++ b!"/" ++ rest))], .ok ctx.next)
    | .failure => staticDirLog g mount dir ctx = ([], .error .fsError) := by
  obtain ⟨base, ext, hsuf, _⟩ := C07_suffix (dir ++ b!"/" ++ rest)
  have haim : substrFrom (pre ++ mount ++ rest) (pre.length + mount.length) = .ok rest := by
    unfold substrFrom
    rw [← List.length_append]
    simp
  have hd : (find rest b!"..").isSome = false := by
    rw [Bool.eq_false_iff]
    exact fun h => hdots (find_dots.1 h)
  unfold found staticDirLog fileExist fileRead
  rw [hl, hp, hfirst]
  simp only [Bool.not_true, Bool.false_eq_true, if_false, haim, hd]
  cases hfs : ctx.fs (cString (dir ++ b!"/" ++ rest)) with
  | missing => rfl
  | other => rfl
  | broken => rfl
  | failed => rfl
  | file c =>
    cases c with
    | none => exact ⟨_, rfl, rfl⟩
    | some c =>
      simp only [hsuf, ne_eq, not_true_eq_false, if_false]
      exact ⟨_, rfl, rfl, rfl⟩

/-- **C181** for `StaticDir`, when the path does not lead into the directory: one warning and 404; the file system is not asked. -/
theorem C181_refused (g : Nat) (mount dir : Str) (ctx : Ctx σ) (hl : ctx.live g = true) :
    (¬ Occurs mount ctx.req.route.path → ∃ ctx', staticDirLog g mount dir ctx =
        ([(.warn, b!"[logicerr]:static dir path error " ++ ctx.req.route.path ++ b!" " ++ mount)], .ok ctx') ∧
      ctx'.resp.status = .NOT_FOUND) ∧
    ∀ pre rest, ctx.req.route.path = pre ++ mount ++ rest → find (pre ++ mount ++ rest) mount = some pre.length →
      Occurs b!".." rest → ∃ ctx', staticDirLog g mount dir ctx =
          ([(.warn, b!"[logicerr]:static dir path error " ++ rest)], .ok ctx') ∧ ctx'.resp.status = .NOT_FOUND := by
  constructor
  · intro h
    have hf : find ctx.req.route.path mount = none := by
      rw [find_zero]
      exact findAux_none.2 (fun hi => h (occurs_iff_infix.2 hi))
    unfold staticDirLog
    rw [hl, hf]
    exact ⟨_, rfl, rfl⟩
  · intro pre rest hp hfirst hdots
    have haim : substrFrom (pre ++ mount ++ rest) (pre.length + mount.length) = .ok rest := by
      unfold substrFrom
      rw [← List.length_append]
      simp
    unfold staticDirLog
    rw [hl, hp, hfirst]
    simp only [Bool.not_true, Bool.false_eq_true, if_false, haim, find_dots.2 hdots, if_true]
    exact ⟨_, rfl, rfl⟩

/-- A request context for the examples: a directory "d" with a file "a.txt", a file "x" that is locked, and nothing else. -/
def staticLogCtx (path : Str) : Ctx Unit :=
  { req := { route := { path } }, conn := ⟨[], 0⟩, user := (),
    fs := fun p => if p = b!"d/a.txt" then .file (some b!"hello") else if p = b!"d/x" then .file none else .missing }

/-- The hypotheses can be met: all four kinds of messages. -/
example : (staticDirLog 0 b!"/s/" b!"d" (staticLogCtx b!"/s/a.txt")).1 = [(.info, b!"static_dir: return static dir success d/a.txt")] ∧
    (staticDirLog 0 b!"/s/" b!"d" (staticLogCtx b!"/s/x")).1 = [(.error, b!"d/x read error")] ∧
    (staticDirLog 0 b!"/s/" b!"d" (staticLogCtx b!"/s/y")).1 = [(.warn, b!"[logicerr]:static dir not exist d/y")] ∧
    (staticDirLog 0 b!"/s/" b!"d" (staticLogCtx b!"/s/../x")).1 = [(.warn, b!"[logicerr]:static dir path error ../x")] ∧
    (staticDirLog 0 b!"/s/" b!"d" (staticLogCtx b!"/t")).1 = [(.warn, b!"[logicerr]:static dir path error /t /s/")] ∧
    (staticFileLog 0 b!"d/a.txt" (staticLogCtx b!"/f")).1 = [(.info, b!"static_file: return static file success d/a.txt")] := by
  decide +kernel

/-- **C123**, refuted as stated, for the messages of the static handlers: a path with a line break makes `StaticDir` write a line that
the client has made up. -/
theorem C123_static_forged_refuted (dir aim : Str) (g : Nat) (ctx : Ctx σ) (hl : ctx.live g = true)
    (hp : ctx.req.route.path = b!"/s/" ++ aim ++ b!"\n[ERROR]:disk-full") (hd : ¬ Occurs b!".." (aim ++ b!"\n[ERROR]:disk-full"))
    (hfs : ctx.fs (cString (dir ++ b!"/" ++ (aim ++ b!"\n[ERROR]:disk-full"))) = .missing) :
    (console (staticDirLog g b!"/s/" dir ctx).1).flatten =
      (console [(.warn, b!"[logicerr]:static dir not exist " ++ (dir ++ b!"/" ++ aim)), (.error, b!"disk-full")]).flatten := by
  have hf : find (([] : Str) ++ b!"/s/" ++ (aim ++ b!"\n[ERROR]:disk-full")) b!"/s/" = some ([] : Str).length := by
    rw [find_zero]; simp [findAux]
  have h := C181_dir g b!"/s/" dir [] (aim ++ b!"\n[ERROR]:disk-full") ctx hl (by rw [hp]; simp) hf hd
  have hn : found ctx.fs (dir ++ b!"/" ++ (aim ++ b!"\n[ERROR]:disk-full")) = .nothing := by unfold found; rw [hfs]
  rw [hn] at h
  simp only at h
  rw [h]
  simp [console, stdLog, Level.val]

/-- The hypotheses can be met. -/
example : (console (staticDirLog 0 b!"/s/" b!"d" (staticLogCtx b!"/s/y\n[ERROR]:disk-full")).1).flatten =
    b!"[WARN]:[logicerr]:static dir not exist d/y\n[ERROR]:disk-full\n" := by decide +kernel

end Cppnet
