import Verif.Spec.WebServer
import Verif.Props.Static
import Verif.Props.File
import Verif.Proofs.Num

/-!
# C148 and C149: the web server that is shipped with the library
-/

namespace Cppnet
open Spec
variable {σ φ : Type}

/-! ### C148 -/

/-- C148: whatever the pid file holds, `_main` signals at most one process, with SIGINT, never one with a number up to 66
(and so never a whole group of processes), and only when `stop` or `reload` is asked for. -/
theorem C148_signals (res : Str → FsKey) (fs : FsTree) (a : MainAns) (d : ArgcDeal φ) :
    (webMain res fs a d).kills = [] ∨ ∃ pid, 66 < pid ∧ (webMain res fs a d).kills = [(pid, 2)] ∧
      (argcGetOption d b!"reload" = true ∨ argcGetOption d b!"stop" = true) := by
  unfold webMain
  split
  · rename_i h
    rw [Bool.or_eq_true] at h
    split
    · exact .inl rfl
    · split
      · exact .inl rfl
      · split
        · exact .inl rfl
        · rename_i pid _
          split
          · exact .inl rfl
          · rename_i hp
            refine .inr ⟨pid, by omega, ?_, h⟩
            split <;> rfl
  · exact .inl rfl

/-- The pid file after a server was started. -/
theorem runWithConfig_pid (res : Str → FsKey) (fs fs' : FsTree) (a : WebAns) (self : Int) (c : WebConfig) (tls : Bool)
    (addr : Str × Nat) (calls : List (ApiCall σ)) (h : runWithConfig res fs a self c = (fs', .runs tls addr calls))
    (ho : canOpenOut fs (res b!"./server.pid") a.write = true) (ht : a.write.taken = none)
    (hk : fs (res b!"./server.pid") ≠ some .other) :
    ∃ w, fs' (res b!"./server.pid") = some (.file (intToStr (if c.isBackground then self else 0)) w) := by
  have hserve : ∀ tls', webServe res fs a tls' c (if c.isBackground then self else 0) = (fs', .runs tls addr calls) →
      ∃ w, fs' (res b!"./server.pid") = some (.file (intToStr (if c.isBackground then self else 0)) w) := by
    intro tls' h
    unfold webServe at h
    split at h
    · simp at h
    · simp only [Prod.mk.injEq] at h
      rw [← h.1]
      generalize (if c.isBackground then self else 0) = pid
      have hp : cString b!"./server.pid" = b!"./server.pid" := by decide
      have hcut : a.write.cut (intToStr pid) = intToStr pid := by unfold FsAns.cut; rw [ht]
      unfold fileWrite
      simp only [hp, ho, Bool.not_true, Bool.false_eq_true, if_false, hcut]
      cases hn : fs (res b!"./server.pid") with
      | none => exact ⟨true, by simp [FsTree.put]⟩
      | some node =>
        cases node with
        | file old w => exact ⟨w, by simp [FsTree.put]⟩
        | dir => simp [canOpenOut, hn] at ho
        | other => exact absurd hn hk
  unfold runWithConfig at h
  simp only at h
  split at h
  · split at h
    · simp at h
    · split at h
      · simp at h
      · exact hserve _ h
  · split at h
    · simp at h
    · exact hserve _ h

/-- C148, what holds: a server that was started in the background under a pid above 66 and could write its pid file is
signalled by `-stop` and by `-reload`, as long as nothing else writes the file and it can be read: exactly it, with
SIGINT; `-stop` starts nothing, `-reload` goes on with the configuration.  Missing: servers in the foreground
(`C148_foreground_refuted`), a missing pid file (`C148_no_file_refuted`). -/
theorem C148_stop_partial (res : Str → FsKey) (fs fs' later : FsTree) (w : WebAns) (self : Int) (c : WebConfig)
    (tls : Bool) (addr : Str × Nat) (calls : List (ApiCall σ))
    (h : runWithConfig res fs w self c = (fs', .runs tls addr calls)) (hb : c.isBackground = true)
    (h1 : 66 < self) (h2 : self ≤ intMax)
    (ho : canOpenOut fs (res b!"./server.pid") w.write = true) (ht : w.write.taken = none)
    (hk : fs (res b!"./server.pid") ≠ some .other) (hl : later (res b!"./server.pid") = fs' (res b!"./server.pid"))
    (a : MainAns) (hr : a.pidRead.grant = true ∧ a.pidRead.taken = none ∧ a.pidRead.readFails = false) (d : ArgcDeal φ) :
    (argcGetOption d b!"stop" = true → webMain res later a d = { kills := [(self, 2)], stop := .exit 0 }) ∧
    (argcGetOption d b!"stop" = false → argcGetOption d b!"reload" = true →
      webMain res later a d = { kills := [(self, 2)], stop := mainConfig res later a d }) := by
  obtain ⟨wr, hp⟩ := runWithConfig_pid res fs fs' w self c tls addr calls h ho ht hk
  rw [hb, if_pos rfl, ← hl] at hp
  have hc : cString b!"./server.pid" = b!"./server.pid" := by decide
  have hg : fileGet res later b!"./server.pid" [] a.pidRead = .ok (kSuccess, intToStr self) := by
    unfold fileGet
    rw [hc, hp]
    simp [hr.1, FsAns.cut, hr.2.1, hr.2.2]
  have hn : ¬ self ≤ 66 := by omega
  have hi : stoi (intToStr self) = .ok self := stoi_intToStr self (by unfold intMin; omega) h2
  refine ⟨fun hs => ?_, fun hs hre => ?_⟩
  · unfold webMain
    simp only [hs, Bool.or_true, if_true, hg, kSuccess, hi, if_neg hn, ne_eq, not_true_eq_false, if_false]
  · unfold webMain
    simp only [hs, hre, Bool.or_false, if_true, hg, kSuccess, hi, if_neg hn, ne_eq, not_true_eq_false, if_false,
      Bool.false_eq_true]

/-- C148 is false: a server that runs in the foreground writes the pid 0, and `-stop` does not stop it. -/
theorem C148_foreground_refuted (res : Str → FsKey) (fs fs' later : FsTree) (w : WebAns) (self : Int) (c : WebConfig)
    (tls : Bool) (addr : Str × Nat) (calls : List (ApiCall σ))
    (h : runWithConfig res fs w self c = (fs', .runs tls addr calls)) (hb : c.isBackground = false)
    (ho : canOpenOut fs (res b!"./server.pid") w.write = true) (ht : w.write.taken = none)
    (hk : fs (res b!"./server.pid") ≠ some .other) (hl : later (res b!"./server.pid") = fs' (res b!"./server.pid"))
    (a : MainAns) (hr : a.pidRead.grant = true ∧ a.pidRead.taken = none ∧ a.pidRead.readFails = false) (d : ArgcDeal φ)
    (hs : argcGetOption d b!"stop" = true) : webMain res later a d = { kills := [], stop := .exit 0 } := by
  obtain ⟨wr, hp⟩ := runWithConfig_pid res fs fs' w self c tls addr calls h ho ht hk
  rw [hb, if_neg (by simp), ← hl] at hp
  have hc : cString b!"./server.pid" = b!"./server.pid" := by decide
  have hg : fileGet res later b!"./server.pid" [] a.pidRead = .ok (kSuccess, b!"0") := by
    unfold fileGet
    rw [hc, hp]
    simp only [hr.1, FsAns.cut, hr.2.1, hr.2.2]
    rfl
  have hi : stoi b!"0" = .ok 0 := by decide +kernel
  unfold webMain
  simp only [hs, Bool.or_true, if_true, hg, kSuccess, hi, ne_eq, not_true_eq_false, if_false]
  rfl

/-- C148 is false: without a pid file `-stop` starts a server. -/
theorem C148_no_file_refuted (res : Str → FsKey) (fs : FsTree) (a : MainAns) (d : ArgcDeal φ) (text : Str) (c : WebConfig)
    (w : Bool) (hn : fs (res b!"./server.pid") = none) (hs : argcGetOption d b!"stop" = true)
    (hc : argcGetOption d b!"config" = false) (hf : fs (res b!"./config.json") = some (.file text w))
    (hr : a.configRead.grant = true ∧ a.configRead.taken = none ∧ a.configRead.readFails = false) (hp : a.parse text = (0, c)) :
    webMain res fs a d = { kills := [], stop := .run c } := by
  have h1 : cString b!"./server.pid" = b!"./server.pid" := by decide
  have h2 : cString b!"./config.json" = b!"./config.json" := by decide
  have hg : fileGet res fs b!"./server.pid" [] a.pidRead = .ok (kLogicErr, []) := by
    unfold fileGet
    rw [h1, hn]
  have hm : mainConfig res fs a d = .run c := by
    unfold mainConfig fileGet
    simp only [hc, Bool.false_eq_true, if_false, h2, hf, hr.1, Bool.not_true, hr.2.2, Bool.false_and, FsAns.cut, hr.2.1,
      kSuccess, ne_eq, not_true_eq_false, hp]
  unfold webMain
  simp only [hs, Bool.or_true, if_true, hg, kLogicErr, hm]
  rfl

/-- C148 is false in another way: nobody removes the pid file.  Once a server that ran in the background has ended, each
further `-stop` sends SIGINT to whoever has its number now, and reports success: `later` is any later file system in which
the file was not written again. -/
theorem C148_stale_refuted (res : Str → FsKey) (fs fs' : FsTree) (w : WebAns) (self : Int) (c : WebConfig)
    (tls : Bool) (addr : Str × Nat) (calls : List (ApiCall σ))
    (h : runWithConfig res fs w self c = (fs', .runs tls addr calls)) (hb : c.isBackground = true)
    (h1 : 66 < self) (h2 : self ≤ intMax)
    (ho : canOpenOut fs (res b!"./server.pid") w.write = true) (ht : w.write.taken = none)
    (hk : fs (res b!"./server.pid") ≠ some .other)
    (a : MainAns) (hr : a.pidRead.grant = true ∧ a.pidRead.taken = none ∧ a.pidRead.readFails = false) (d : ArgcDeal φ)
    (hs : argcGetOption d b!"stop" = true) (laters : List FsTree)
    (hl : ∀ later ∈ laters, later (res b!"./server.pid") = fs' (res b!"./server.pid")) :
    laters.flatMap (fun later => (webMain res later a d).kills) = List.replicate laters.length (self, 2) := by
  induction laters with
  | nil => rfl
  | cons later laters ih =>
    have := (C148_stop_partial res fs fs' later w self c tls addr calls h hb h1 h2 ho ht hk (hl later (by simp)) a hr d).1 hs
    simp only [List.flatMap_cons, this, List.length_cons, List.replicate_succ, List.singleton_append]
    rw [ih (fun l hm => hl l (by simp [hm]))]

/-- C148 is false for `-reload` with a configuration that is missing or wrong: the running server is ended first, and then none is started. -/
theorem C148_reload_refuted (res : Str → FsKey) (fs fs' later : FsTree) (w : WebAns) (self : Int) (c : WebConfig)
    (tls : Bool) (addr : Str × Nat) (calls : List (ApiCall σ))
    (h : runWithConfig res fs w self c = (fs', .runs tls addr calls)) (hb : c.isBackground = true)
    (h1 : 66 < self) (h2 : self ≤ intMax)
    (ho : canOpenOut fs (res b!"./server.pid") w.write = true) (ht : w.write.taken = none)
    (hk : fs (res b!"./server.pid") ≠ some .other) (hl : later (res b!"./server.pid") = fs' (res b!"./server.pid"))
    (a : MainAns) (hr : a.pidRead.grant = true ∧ a.pidRead.taken = none ∧ a.pidRead.readFails = false) (d : ArgcDeal φ)
    (hs : argcGetOption d b!"stop" = false) (hre : argcGetOption d b!"reload" = true) (hc : argcGetOption d b!"config" = false)
    (hbad : later (res b!"./config.json") = none ∨ ∀ text, (a.parse text).1 ≠ 0) :
    (webMain res later a d).kills = [(self, 2)] ∧ ∀ c', (webMain res later a d).stop ≠ .run c' := by
  rw [(C148_stop_partial res fs fs' later w self c tls addr calls h hb h1 h2 ho ht hk hl a hr d).2 hs hre]
  refine ⟨rfl, fun c' => ?_⟩
  simp only
  have hj : cString b!"./config.json" = b!"./config.json" := by decide
  unfold mainConfig
  simp only [hc, Bool.false_eq_true, if_false]
  rcases hbad with hbad | hbad
  · unfold fileGet
    rw [hj, hbad]
    simp [kLogicErr]
  · split
    · simp
    · rename_i text _
      split
      · simp
      · have := hbad text
        rw [if_pos this]
        simp

/-! ### The shipped configuration -/

/-- A flat file system with the files of `demo/asset`. -/
def demoTree : FsTree := fun k =>
  if k = [] then some .dir
  else if k = [b!"../asset/index.html"] then some (.file b!"<h1>index</h1>" true)
  else if k = [b!"../asset/blog-home/index.html"] then some (.file b!"<h1>blog</h1>" true)
  else if k = [b!"../asset/blog-home"] then some .dir
  else if k = [b!"../asset/blog-home/"] then some .dir
  else if k = [b!"./config.json"] then some (.file b!"{}" true)
  else none

/-- Each path is its own key. -/
def flatRes (path : Str) : FsKey := [path]

/-- demo/web-server/config.json, without TLS (the routes do not depend on it). -/
def shippedConfig : WebConfig :=
  { port := 8080, host := b!"127.0.0.1", logPath := b!"./server.log"
    redirects := [{ route := b!"/hello", redirect := b!"https://chenxuanweb.top" }]
    statics := [{ route := b!"/", path := b!"../asset/index.html" },
      { route := b!"/home", path := b!"../asset/blog-home/index.html" },
      { route := b!"/", path := b!"../asset/blog-home" }] }

/-- The same items, longest route last. -/
def sortedConfig : WebConfig :=
  { shippedConfig with
    isBackground := true
    redirects := [{ route := b!"/hello", redirect := b!"https://chenxuanweb.top", host := b!"*.top" }]
    statics := [{ route := b!"/home", path := b!"../asset/blog-home/index.html" },
      { route := b!"/pub/", path := b!"../asset/blog-home" }] }

def demoMain (args : List Str) (pid : Option Str) : Option MainDone :=
  match argcDeal (φ := Nat) (b!"web" :: args) with
  | .ok d => some (webMain flatRes (match pid with
      | some text => demoTree.put [b!"./server.pid"] (some (.file text true))
      | none => demoTree) { parse := fun _ => (0, shippedConfig) } d)
  | .error _ => none

example : (demoMain [b!"-stop"] (some b!"1234\n")).map (·.kills) = some [(1234, 2)] ∧
    (demoMain [b!"-stop"] (some b!"-1")).map (·.kills) = some [] ∧
    (demoMain [b!"-stop"] (some b!"99999999999")).map (·.kills) = some [] ∧
    (demoMain [b!"--reload"] (some b!"1234")).map (fun m => (m.kills, match m.stop with
      | .run c => c.port
      | _ => 0)) = some ([(1234, 2)], 8080) ∧
    (demoMain [b!"-stop"] none).map (fun m => match m.stop with
      | .run c => c.port
      | _ => 0) = some 8080 := by decide +kernel
example : canOpenOut demoTree (flatRes b!"./server.pid") {} = true ∧
    demoTree (flatRes b!"./server.pid") ≠ some .other ∧
    (match runWithConfig (σ := Unit) flatRes demoTree {} 1234 sortedConfig with
      | (fs, .runs tls addr calls) => (fs (flatRes b!"./server.pid") == some (.file b!"1234" true), tls, addr, calls.length)
      | _ => (false, false, ([], 0), 0)) = (true, false, (b!"127.0.0.1", 8080), 3) := by decide +kernel

/-- The hypotheses about the configuration are met, too: `-reload` with a text that cannot be parsed, and with no file. -/
example : (match (motive := _ → List (Int × Int) × Int × List (Int × Int) × Int) argcDeal (φ := Nat) [b!"web", b!"-reload"] with
    | .ok d =>
      let fs := demoTree.put [b!"./server.pid"] (some (.file b!"1234" true))
      let m := webMain flatRes fs { parse := fun _ => (-1, {}) } d
      let m' := webMain flatRes (fs.put [b!"./config.json"] none) { parse := fun _ => (0, {}) } d
      (m.kills, (match m.stop with | .exit n => n | _ => (7 : Int)), m'.kills, (match m'.stop with | .exit n => n | _ => (7 : Int)))
    | .error _ => ([], (7 : Int), [], (7 : Int))) = ([(1234, 2)], -1, [(1234, 2)], 0) := by decide +kernel

/-! ### C149 -/

/-- What an item is registered as. -/
def Item.toReg : Item → Reg σ
  | .redirect r => { path := r.route, entry :=
      { callback := some fun ctx => .ok { ctx with resp := respRedirect ctx.resp r.redirect false }
        filters := webFilters r.host } }
  | .dir s => { path := s.route, entry :=
      { callback := some (staticDirHandler 0 s.route s.path), exact := false
        filters := webFilters s.host ++ [methodFilter .GET] } }
  | .file s => { path := s.route, entry :=
      { callback := some (staticFileHandler 0 s.path), filters := webFilters s.host ++ [methodFilter .GET] } }

theorem toReg_route (x : Item) : (Item.toReg x : Reg σ).route = [] ∧ (Item.toReg x : Reg σ).path = x.route ∧
    (Item.toReg x : Reg σ).full = x.route := by
  cases x <;> exact ⟨rfl, rfl, rfl⟩

/-- The calls of the program register the items. -/
theorem webCalls_items (res : Str → FsKey) (fs : FsTree) (c : WebConfig) (calls : List (ApiCall σ))
    (h : webCalls res fs c = some calls) :
    calls.foldlM (fun s x => x.perform s) {} = registerAll ((itemsOf (fileIsDir res fs) c).map Item.toReg) := by
  unfold webCalls at h
  cases hm : c.statics.mapM (webStatic (σ := σ) res fs) with
  | none => rw [hm] at h; simp at h
  | some l =>
    rw [hm] at h
    simp only [Option.map_some, Option.some.injEq] at h
    subst h
    unfold registerAll itemsOf
    rw [List.map_append, List.foldlM_append, List.foldlM_append, List.map_map, List.foldlM_map, List.foldlM_map]
    have h1 : ∀ s0 : Server σ, c.redirects.foldlM (fun s r => (webRedirect r : ApiCall σ).perform s) s0 =
        c.redirects.foldlM (fun s r => registerHandler (Item.toReg (.redirect r) : Reg σ).route
          (Item.toReg (.redirect r) : Reg σ).path (Item.toReg (.redirect r) : Reg σ).entry s) s0 := fun _ => rfl
    rw [h1]
    congr 1
    funext s0
    clear h1
    revert s0
    generalize c.statics = st at hm
    induction st generalizing l with
    | nil =>
      simp at hm
      subst hm
      intro s0
      rfl
    | cons x st ih =>
      rw [List.mapM_cons] at hm
      cases hx : webStatic (σ := σ) res fs x with
      | none => rw [hx] at hm; simp at hm
      | some y =>
        cases hr : st.mapM (webStatic (σ := σ) res fs) with
        | none => rw [hx, hr] at hm; simp at hm
        | some l' =>
          rw [hx, hr] at hm
          simp only [Option.bind_eq_bind, Option.bind_some, Option.pure_def, Option.some.injEq] at hm
          subst hm
          intro s0
          rw [List.foldlM_cons, List.map_cons, List.map_cons, List.foldlM_cons]
          have hy : y.perform s0 = registerHandler (Item.toReg (if fileIsDir res fs x.path then .dir x else .file x) : Reg σ).route
              (Item.toReg (if fileIsDir res fs x.path then .dir x else .file x) : Reg σ).path
              (Item.toReg (if fileIsDir res fs x.path then .dir x else .file x) : Reg σ).entry s0 := by
            unfold webStatic at hx
            split at hx
            · rename_i hd
              simp only [Option.some.injEq] at hx
              subst hx
              rw [if_pos hd]
              rfl
            · rename_i hd
              split at hx
              · simp only [Option.some.injEq] at hx
                subst hx
                rw [if_neg hd]
                rfl
              · cases hx
          rw [hy]
          congr 1
          funext s1
          exact ih l' hr s1

/-- The registrations are separate when the routes grow. -/
theorem separate_items (items : List Item) (earlier : List Str) (h : RoutesGrow earlier items) :
    SeparateAll earlier (items.map (Item.toReg (σ := σ))) := by
  induction items generalizing earlier with
  | nil => exact trivial
  | cons x xs ih =>
    obtain ⟨h1, h2⟩ := h
    obtain ⟨e1, e2, e3⟩ := toReg_route (σ := σ) x
    refine ⟨?_, ?_⟩
    · unfold Separate
      rw [if_pos e1, e2]
      exact h1
    · rw [e3]
      exact ih _ h2

/-- The handlers for a path, by the registrations that concern it. -/
theorem candidates_concern (regs : List (Reg σ)) (path : Str) : candidates regs path =
    (List.range (path.length + 1)).flatMap fun i =>
      ((regs.filter fun r => decide (r.full <+: path ∧ (r.entry.exact = true → r.full = path))).filter
        fun r => decide (r.full.length = i)).map (·.entry) := by
  unfold candidates
  have hcongr : ∀ i ∈ List.range (path.length + 1),
      ((regs.filter fun r => r.full = path.take i ∧ (r.entry.exact = true → i = path.length)).map (·.entry)) =
      ((regs.filter fun r => decide (r.full <+: path ∧ (r.entry.exact = true → r.full = path))).filter
        fun r => decide (r.full.length = i)).map (·.entry) := by
    intro i hi
    have hi := List.mem_range.1 hi
    rw [List.filter_filter]
    congr 1
    refine List.filter_congr fun r _ => ?_
    rw [← Bool.decide_and, decide_eq_decide]
    constructor
    · rintro ⟨h1, h2⟩
      have hl : r.full.length = i := by rw [h1, List.length_take]; omega
      refine ⟨hl, ?_, fun he => ?_⟩
      · rw [h1]; exact List.take_prefix _ _
      · rw [h1, h2 he, List.take_length]
    · rintro ⟨rfl, h1, h2⟩
      refine ⟨List.prefix_iff_eq_take.1 h1, fun he => by rw [h2 he]⟩
  rw [List.flatMap_def, List.flatMap_def, List.map_congr_left hcongr]

theorem candidates_one (regs : List (Reg σ)) (path : Str) (r : Reg σ)
    (h : (regs.filter fun r => decide (r.full <+: path ∧ (r.entry.exact = true → r.full = path))) = [r]) :
    candidates regs path = [r.entry] := by
  rw [candidates_concern, h]
  have hr : r.full <+: path := by
    have : r ∈ regs.filter fun r => decide (r.full <+: path ∧ (r.entry.exact = true → r.full = path)) := by rw [h]; simp
    have := (List.mem_filter.1 this).2
    simp only [decide_eq_true_eq] at this
    exact this.1
  have hl : r.full.length ∈ List.range (path.length + 1) := List.mem_range.2 (by have := hr.length_le; omega)
  have key : ∀ n, (List.range n).flatMap (fun i =>
      (([r] : List (Reg σ)).filter fun r => decide (r.full.length = i)).map (·.entry)) =
      if r.full.length < n then [r.entry] else [] := by
    intro n
    induction n with
    | zero => rfl
    | succ n ih =>
      rw [List.range_succ, List.flatMap_append, ih, List.flatMap_cons, List.flatMap_nil, List.append_nil]
      by_cases h1 : r.full.length = n
      · rw [List.filter_cons_of_pos (by simp [h1]), if_neg (by omega), if_pos (by omega)]
        rfl
      · rw [List.filter_cons_of_neg (by simp [h1])]
        by_cases h2 : r.full.length < n
        · rw [if_pos h2, if_pos (by omega)]
          rfl
        · rw [if_neg h2, if_neg (by omega)]
          rfl
  rw [key, if_pos (List.mem_range.1 hl)]

theorem candidates_none (regs : List (Reg σ)) (path : Str)
    (h : (regs.filter fun r => decide (r.full <+: path ∧ (r.entry.exact = true → r.full = path))) = []) :
    candidates regs path = [] := by
  rw [candidates_concern, h, List.flatMap_eq_nil_iff]
  intro i _
  rfl

/-- The registrations that concern a path are those of the items that are about it. -/
theorem concern_about (items : List Item) (path : Str) :
    ((items.map (Item.toReg (σ := σ))).filter fun r =>
      decide (r.full <+: path ∧ (r.entry.exact = true → r.full = path))) =
    (items.filter (Item.about path)).map Item.toReg := by
  rw [List.filter_map]
  congr 1
  refine List.filter_congr fun x _ => ?_
  obtain ⟨_, _, e⟩ := toReg_route (σ := σ) x
  simp only [Function.comp, e]
  cases x with
  | redirect r =>
    simp only [Item.route, Item.toReg, Item.about, true_implies]
    rw [Bool.eq_iff_iff, decide_eq_true_iff, beq_iff_eq]
    exact ⟨fun h => h.2, fun h => ⟨h ▸ List.prefix_refl _, h⟩⟩
  | dir s =>
    simp only [Item.route, Item.toReg, Item.about, Bool.false_eq_true, false_implies, and_true]
    rw [Bool.eq_iff_iff, decide_eq_true_iff, List.isPrefixOf_iff_prefix]
  | file s =>
    simp only [Item.route, Item.toReg, Item.about, true_implies]
    rw [Bool.eq_iff_iff, decide_eq_true_iff, beq_iff_eq]
    exact ⟨fun h => h.2, fun h => ⟨h ▸ List.prefix_refl _, h⟩⟩

/-- The request comes for the host. -/
def Spec.HostOk (host : Str) (req : HttpReq) : Prop := host = [] ∨ Glob host (hostOf req)

theorem accepts_web (host : Str) (req : HttpReq) (more : List Filter) (h1 : host.length < 2 ^ 31 - 1)
    (h2 : (hostOf req).length < 2 ^ 31 - 1) :
    (HostOk host req → accepts req (webFilters host ++ more) = accepts req more) ∧
    (¬ HostOk host req → accepts req (webFilters host ++ more) = .ok false) := by
  unfold webFilters HostOk
  by_cases hh : host = []
  · subst hh
    simp
  · obtain ⟨b, hb, hg⟩ := C76_wildcard_partial host req h1 h2
    rw [if_pos hh]
    simp only [List.cons_append, List.nil_append, accepts, hb, bind, Except.bind, hh, false_or, ← hg]
    cases b <;> simp

/-- C149, what holds: if no route of the configuration is a proper prefix of the route of an earlier item (redirects come
first), and exactly one item is about the path of a request, the server does for the request what the item says.
Missing: routes in another order, for which the shipped configuration itself is an example (`C149_shipped_refuted`);
requests several items are about (C40 tells what is called then, C42 that all of them are). -/
theorem C149_items_partial (res : Str → FsKey) (fs : FsTree) (c : WebConfig) (calls : List (ApiCall σ))
    (hw : webCalls res fs c = some calls) (ha : AsciiRoutes (itemsOf (fileIsDir res fs) c))
    (hg : RoutesGrow [] (itemsOf (fileIsDir res fs) c)) (hlen : ∀ x ∈ itemsOf (fileIsDir res fs) c, x.host.length < 2 ^ 31 - 1) :
    ∃ s, calls.foldlM (fun s x => x.perform s) {} = .ok s ∧ ∀ (path : Str) (ctx : Ctx σ), Ascii path →
      ctx.req.route.path = path → (hostOf ctx.req).length < 2 ^ 31 - 1 → ctx.live 0 = true →
      ((itemsOf (fileIsDir res fs) c).filter (Item.about path) = [] → dispatch s path ctx = .ok ctx) ∧
      ∀ x, (itemsOf (fileIsDir res fs) c).filter (Item.about path) = [x] →
        (¬ HostOk x.host ctx.req → dispatch s path ctx = .ok ctx) ∧
        (HostOk x.host ctx.req → match x with
          | .redirect r => ∃ ctx', dispatch s path ctx = .ok ctx' ∧ ctx'.resp.status = .FOUND ∧
              ctx'.resp.header.get b!"Location" = some r.redirect
          | .file t => ∀ content, ctx.req.method = .GET → ctx.fs (cString t.path) = .file (some content) →
              ∃ ctx', dispatch s path ctx = .ok ctx' ∧ ctx'.resp.status = .OK ∧ ctx'.resp.body = content
          | .dir t => ∀ rest content, ctx.req.method = .GET → path = t.route ++ rest → ¬ Occurs b!".." rest →
              ctx.fs (cString (t.path ++ b!"/" ++ rest)) = .file (some content) →
              ∃ ctx', dispatch s path ctx = .ok ctx' ∧ ctx'.resp.status = .OK ∧ ctx'.resp.body = content) := by
  generalize hitems : itemsOf (fileIsDir res fs) c = items at ha hg hlen ⊢
  obtain ⟨s, h1, h2⟩ := C40_routing_partial (items.map (Item.toReg (σ := σ)))
    (by
      intro r hr
      obtain ⟨x, hx, rfl⟩ := List.mem_map.1 hr
      obtain ⟨e1, e2, _⟩ := toReg_route (σ := σ) x
      rw [e1, e2]
      exact ⟨by simp [Ascii], ha x hx⟩)
    (separate_items items [] hg)
  refine ⟨s, by rw [webCalls_items res fs c calls hw, hitems]; exact h1, fun path ctx hp hpath hhost hlive => ⟨?_, ?_⟩⟩
  · intro hnone
    rw [h2 path hp, candidates_none _ _ (by rw [concern_about, hnone]; rfl)]
    rfl
  · intro x hx
    rw [h2 path hp, candidates_one _ _ (Item.toReg x) (by rw [concern_about, hx]; rfl)]
    have hmem : x ∈ items := (List.mem_filter.1 (by rw [hx]; simp : x ∈ items.filter (Item.about path))).1
    have habout : Item.about path x = true := (List.mem_filter.1 (by rw [hx]; simp : x ∈ items.filter (Item.about path))).2
    have hl := hlen x hmem
    have hdone : ∀ (e : Entry σ) (f : Handler σ) (ctx' : Ctx σ), e.callback = some f → accepts ctx.req e.filters = .ok true →
        f ctx = .ok ctx' → runInOrder [e] ctx = .ok ctx' := by
      intro e f ctx' h3 h4 h5
      simp only [runInOrder, h4, h3, bind, Except.bind, h5]
      split <;> rfl
    have hskip : ∀ e : Entry σ, accepts ctx.req e.filters = .ok false → runInOrder [e] ctx = .ok ctx := by
      intro e h4
      simp only [runInOrder, h4, bind, Except.bind]
    have hget : ctx.req.method = .GET → accepts ctx.req [methodFilter .GET] = .ok true := by
      intro hm
      simp [accepts, methodFilter, hm, bind, Except.bind]
    cases x with
    | redirect r =>
      have hacc := accepts_web r.host ctx.req [] hl hhost
      rw [List.append_nil] at hacc
      refine ⟨fun hn => hskip _ (hacc.2 hn), fun hok => ⟨_, hdone _ _ _ rfl ?_ rfl, ?_, ?_⟩⟩
      · exact (hacc.1 hok).trans rfl
      · exact (C31_redirect ctx.resp r.redirect false).1
      · exact (C31_redirect ctx.resp r.redirect false).2.2.2.2.1
    | file t =>
      have hacc := accepts_web t.host ctx.req [methodFilter .GET] hl hhost
      refine ⟨fun hn => hskip _ (hacc.2 hn), fun hok content hm hfs => ?_⟩
      obtain ⟨_, _, ctx', _, _, h5, h6, h7, _⟩ := C44_static_file 0 t.path content ctx hlive hfs
      exact ⟨ctx', hdone _ _ _ rfl ((hacc.1 hok).trans (hget hm)) h5, h6, h7⟩
    | dir t =>
      have hacc := accepts_web t.host ctx.req [methodFilter .GET] hl hhost
      refine ⟨fun hn => hskip _ (hacc.2 hn), fun hok rest content hm hr hdots hfs => ?_⟩
      obtain ⟨_, _, ctx', _, _, h5, h6, h7, _⟩ := C44_static_dir_partial 0 t.route t.path [] rest content ctx hlive
        (by rw [hpath, hr]; rfl) (C77_no_prefix_partial t.route rest) hdots hfs
      exact ⟨ctx', hdone _ _ _ rfl ((hacc.1 hok).trans (hget hm)) h5, h6, h7⟩

/-- Start the server of a configuration on the demo files and send it one request: what it answers. -/
def demoWeb (c : WebConfig) (request : Str) : Option (Out (List Str)) :=
  (webCalls (σ := Unit) flatRes demoTree c).map fun calls => do
    let s ← calls.foldlM (fun s x => x.perform s) {}
    let r ← handleRead { fs := sysView flatRes demoTree } s ⟨request, 0⟩ ()
    .ok r.sent

/-- The sorted configuration meets the hypotheses, and does what it says. -/
def sortedItems : List Item := itemsOf (fileIsDir flatRes demoTree) sortedConfig

example : (webCalls (σ := Unit) flatRes demoTree sortedConfig).isSome = true ∧ RoutesGrow [] sortedItems ∧
    (sortedItems.all fun x => x.route.all (· < 128) && decide (x.host.length < 10)) = true ∧
    (sortedItems.filter (Item.about b!"/hello")).length = 1 ∧
    (sortedItems.filter (Item.about b!"/pub/index.html")).length = 1 := by decide +kernel
set_option synthInstance.maxSize 1000 in
example : demoWeb sortedConfig b!"GET /hello HTTP/1.1\r\nHost: a.top\r\n\r\n" = some (.ok [b!"HTTP/1.1 302 Found\r\nContent-Type: text/html\r\nLocation: https://chenxuanweb.top\r\nContent-Length: 44\r\n\r\n<html><body><h1>302 Found</h1></body></html>"]) ∧
    (demoWeb sortedConfig b!"GET /home HTTP/1.1\r\n\r\n").map (·.map (·.map (·.take 15))) = some (.ok [b!"HTTP/1.1 200 OK"]) ∧
    (demoWeb sortedConfig b!"GET /pub/index.html HTTP/1.1\r\n\r\n").map (·.map (·.map (·.take 15))) =
      some (.ok [b!"HTTP/1.1 200 OK"]) := by decide +kernel

/-- C149 is false for the configuration that is shipped with the program: it asks for the index page at `/` and for a
redirect at `/hello`, but `GET /` is answered with 404, and `GET /hello` with the index page. -/
theorem C149_shipped_refuted :
    (demoWeb shippedConfig b!"GET / HTTP/1.1\r\n\r\n").map (·.map (·.map (·.take 22))) =
      some (.ok [b!"HTTP/1.1 404 Not Found"]) ∧
    (demoWeb shippedConfig b!"GET /hello HTTP/1.1\r\n\r\n").map (·.map (·.map fun t => (t.take 15, t.drop (t.length - 14)))) =
      some (.ok [(b!"HTTP/1.1 200 OK", b!"<h1>index</h1>")]) := by
  decide +kernel

/-- C149: without `stop` and `reload` nobody is signalled, and a server is started exactly if the file that `config` names, or
`./config.json`, can be opened and read and the parser takes its contents; it is started with what the parser made of them.
(A device, and a directory where reading one does not throw, read as nothing.) -/
theorem C149_config (res : Str → FsKey) (fs : FsTree) (a : MainAns) (d : ArgcDeal φ) (hs : argcGetOption d b!"stop" = false)
    (hr : argcGetOption d b!"reload" = false) (name : Str)
    (hn : (argcGetOption d b!"config" = true ∧ name = argcGetVar d b!"config") ∨
      (argcGetOption d b!"config" = false ∧ name = b!"./config.json")) :
    (webMain res fs a d).kills = [] ∧ ∀ c, (webMain res fs a d).stop = .run c ↔
      a.configRead.grant = true ∧
        ((∃ text w, fs (res (cString name)) = some (.file text w) ∧
            (a.configRead.readFails = true → a.configRead.libThrows = false) ∧
            a.parse (a.configRead.cut text) = (0, c)) ∨
          (fs (res (cString name)) = some .other ∨
              fs (res (cString name)) = some .dir ∧ a.configRead.libThrows = false) ∧ a.parse [] = (0, c)) := by
  have hm : webMain res fs a d = { stop := mainConfig res fs a d } := by
    unfold webMain
    rw [hs, hr]
    rfl
  rw [hm]
  refine ⟨rfl, fun c => ?_⟩
  have hf : (if argcGetOption d b!"config" then argcGetVar d b!"config" else b!"./config.json") = name := by
    rcases hn with ⟨h1, h2⟩ | ⟨h1, h2⟩
    · rw [h1, if_pos rfl, h2]
    · rw [h1, if_neg (by decide), h2]
  have h1 : (mainConfig res fs a d = .run c) ↔ ∃ text, fileGet res fs name [] a.configRead = .ok (0, text) ∧
      a.parse text = (0, c) := by
    unfold mainConfig
    simp only [hf]
    generalize fileGet res fs name [] a.configRead = g
    cases g with
    | error e => simp
    | ok g =>
      obtain ⟨rc, text⟩ := g
      obtain ⟨rc', c', hq⟩ : ∃ rc' c', a.parse text = (rc', c') := ⟨_, _, rfl⟩
      simp only [hq]
      by_cases h0 : rc = 0
      · by_cases h2 : rc' = 0
        · simp [h0, h2, hq]
        · simp [h0, h2, hq]
      · simp [h0]
  refine h1.trans ?_
  unfold fileGet
  cases hk : fs (res (cString name)) with
  | none => simp [kLogicErr]
  | some node =>
    cases hg : a.configRead.grant with
    | false => cases node <;> simp [kLogicErr]
    | true =>
      cases node with
      | file text w =>
        cases hx : a.configRead.readFails <;> cases hy : a.configRead.libThrows <;> simp [kSuccess]
      | dir => cases hy : a.configRead.libThrows <;> simp [kSuccess]
      | other => simp [kSuccess]

example : (demoMain [b!"-config=other.json"] none).map (fun m => match m.stop with
      | .run c => c.port
      | .exit c => c
      | .threw => 1) = some 0 ∧
    (demoMain [b!"-config=./config.json"] none).map (fun m => match m.stop with
      | .run c => c.port
      | .exit c => c
      | .threw => 1) = some 8080 ∧
    (demoMain [] none).map (fun m => match m.stop with
      | .run c => c.port
      | .exit c => c
      | .threw => 1) = some 8080 := by decide +kernel

/-- C149 is false: a configuration file that is a directory is not reported, the program dies of the exception (with a
library that throws when a directory is read). -/
theorem C149_directory_refuted (res : Str → FsKey) (fs : FsTree) (a : MainAns) (d : ArgcDeal φ)
    (hs : argcGetOption d b!"stop" = false) (hr : argcGetOption d b!"reload" = false)
    (hc : argcGetOption d b!"config" = true) (hd : fs (res (cString (argcGetVar d b!"config"))) = some .dir)
    (hg : a.configRead.grant = true) (ht : a.configRead.libThrows = true) :
    webMain res fs a d = { kills := [], stop := .threw } := by
  unfold webMain mainConfig fileGet
  simp [hs, hr, hc, hd, hg, ht]

example : (demoMain [b!"-config=../asset/blog-home"] none).map (fun m => match m.stop with
      | .threw => true
      | _ => false) = some true := by decide +kernel

/-- C149 is false: the port is cut to 16 bits. -/
theorem C149_port_refuted (c : WebConfig) : webAddress { c with port := 65536 + 80 } = webAddress { c with port := 80 } := by
  rfl

/-- C149: ports from 0 to 65535 and the host are used as they are configured. -/
theorem C149_address_partial (res : Str → FsKey) (fs fs' : FsTree) (a : WebAns) (self : Int) (c : WebConfig) (tls : Bool)
    (addr : Str × Nat) (calls : List (ApiCall σ)) (h : runWithConfig res fs a self c = (fs', .runs tls addr calls)) :
    tls = decide (c.ssl.certPath ≠ []) ∧ addr.1 = c.host ∧ (0 ≤ c.port ∧ c.port < 65536 → (addr.2 : Int) = c.port) ∧
      webCalls res fs c = some calls := by
  have key : ∀ (t : Bool) (pid : Int), webServe res fs a t c pid = (fs', .runs tls addr calls) →
      tls = t ∧ addr = webAddress c ∧ webCalls res fs c = some calls := by
    intro t pid h
    unfold webServe at h
    split at h
    · simp at h
    · rename_i hc
      simp only [Prod.mk.injEq, WebEnd.runs.injEq] at h
      exact ⟨h.2.1.symm, h.2.2.1.symm, by rw [hc, h.2.2.2]⟩
  have hall : tls = decide (c.ssl.certPath ≠ []) ∧ addr = webAddress c ∧ webCalls res fs c = some calls := by
    unfold runWithConfig at h
    simp only at h
    split at h
    · rename_i hc
      split at h
      · simp at h
      · split at h
        · simp at h
        · obtain ⟨h1, h2⟩ := key _ _ h
          exact ⟨by rw [h1]; simp [hc], h2⟩
    · rename_i hc
      split at h
      · simp at h
      · obtain ⟨h1, h2⟩ := key _ _ h
        exact ⟨by rw [h1]; simpa using hc, h2⟩
  obtain ⟨h1, rfl, h3⟩ := hall
  refine ⟨h1, rfl, fun hp => ?_, h3⟩
  unfold webAddress
  simp only
  omega

end Cppnet
