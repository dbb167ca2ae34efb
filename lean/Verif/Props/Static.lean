import Verif.Props.Server
import Verif.Props.Strings
import Verif.Props.Resp
import Verif.Proofs.Socket
import Verif.Spec.Path

/-!
# C43, C44, C74, C76, C77: static files, host filters
-/

namespace Cppnet
open Spec
variable {σ : Type}

/-! ### C43 -/

theorem components_ne_nil (s : Str) : components s ≠ [] := by
  cases s with
  | nil => simp [components]
  | cons c cs =>
    simp only [components]
    split
    · simp
    · split <;> simp

theorem components_slash (a b : Str) : components (a ++ 47 :: b) = components a ++ components b := by
  induction a with
  | nil => simp [components]
  | cons c cs ih =>
    simp only [List.cons_append, components, ih]
    split
    · simp
    · cases h : components cs with
      | nil => exact absurd h (components_ne_nil cs)
      | cons x xs => simp

theorem component_infix (s : Str) : (∀ h t, components s = h :: t → h <+: s) ∧ ∀ n ∈ components s, n <:+: s := by
  induction s with
  | nil => simp [components]
  | cons c cs ih =>
    simp only [components]
    split
    · refine ⟨fun h t e => by injection e with e _; rw [← e]; exact List.nil_prefix, ?_⟩
      intro n hn
      rcases List.mem_cons.1 hn with rfl | hn
      · exact List.nil_infix
      · exact (ih.2 n hn).trans (List.suffix_cons _ _).isInfix
    · cases hc : components cs with
      | nil => exact absurd hc (components_ne_nil cs)
      | cons x xs =>
        refine ⟨fun h t e => ?_, fun n hn => ?_⟩
        · injection e with e _
          rw [← e, List.prefix_cons_inj]
          exact ih.1 x xs hc
        · rcases List.mem_cons.1 hn with rfl | hn
          · refine List.IsPrefix.isInfix ?_
            rw [List.prefix_cons_inj]
            exact ih.1 x xs hc
          · exact (ih.2 n (by rw [hc]; exact List.mem_cons_of_mem _ hn)).trans (List.suffix_cons _ _).isInfix

theorem foldl_down (ns : List Str) (h : b!".." ∉ ns) (r : Resolved) :
    (ns.foldl stepName r).absolute = r.absolute ∧ (ns.foldl stepName r).ups = r.ups ∧
    r.names <+: (ns.foldl stepName r).names := by
  induction ns generalizing r with
  | nil => exact ⟨rfl, rfl, List.prefix_refl _⟩
  | cons n ns ih =>
    obtain ⟨h1, h2, h3⟩ := ih (fun hh => h (List.mem_cons_of_mem _ hh)) (stepName r n)
    have hn : n ≠ b!".." := fun e => h (by simp [e])
    rw [List.foldl_cons, h1, h2]
    have : (stepName r n).absolute = r.absolute ∧ (stepName r n).ups = r.ups ∧ r.names <+: (stepName r n).names := by
      unfold stepName
      by_cases he : n = [] ∨ n = b!"."
      · rw [if_pos he]; exact ⟨rfl, rfl, List.prefix_refl _⟩
      · rw [if_neg he, if_neg hn]; exact ⟨rfl, rfl, List.prefix_append _ _⟩
    exact ⟨this.1, this.2.1, this.2.2.trans h3⟩

theorem inside_below (dir aim : Str) (hd : dir ≠ []) (h : ¬ Occurs b!".." aim) :
    Inside dir (dir ++ b!"/" ++ aim) := by
  have hc : b!".." ∉ components aim := fun hh => h (occurs_iff_infix.2 ((component_infix aim).2 _ hh))
  have he : dir ++ b!"/" ++ aim = dir ++ 47 :: aim := by simp
  have hh : (dir ++ 47 :: aim).head? = dir.head? := by
    cases dir with
    | nil => exact absurd rfl hd
    | cons c cs => rfl
  unfold Inside resolve
  rw [he, components_slash, List.foldl_append, hh]
  exact foldl_down _ hc _

theorem cString_append_slash (dir aim : Str) (hd : 0 ∉ dir) :
    cString (dir ++ b!"/" ++ aim) = dir ++ b!"/" ++ cString aim := by
  unfold cString
  rw [List.takeWhile_append_of_pos]
  intro a ha
  rcases List.mem_append.1 ha with ha | ha
  · simp only [bne_iff_ne, ne_eq]; rintro rfl; exact hd ha
  · simp at ha; subst ha; decide

theorem occurs_cString {aim : Str} (h : ¬ Occurs b!".." aim) : ¬ Occurs b!".." (cString aim) := by
  intro hh
  apply h
  rw [occurs_iff_infix] at hh ⊢
  exact hh.trans (List.takeWhile_prefix _).isInfix

theorem find_dots {aim : Str} : (find aim b!"..").isSome = true ↔ Occurs b!".." aim := by
  rw [find_zero, occurs_iff_infix]
  constructor
  · intro h
    refine Classical.byContradiction fun hn => ?_
    rw [findAux_none.2 hn] at h
    simp at h
  · intro h
    cases hf : findAux b!".." aim with
    | none => exact absurd h (findAux_none.1 hf)
    | some i => rfl

/-- What the handler does with the file, once the suffix of the path is known. -/
def Spec.aimOf (reqPath mount : Str) : Option Str := (find reqPath mount).map fun pos => reqPath.drop (pos + mount.length)

theorem find_bound {s d : Str} {pos : Nat} (h : find s d = some pos) : pos + d.length ≤ s.length := by
  rw [find_zero] at h
  by_cases hd : d = []
  · subst hd
    have : findAux ([] : Str) s = some 0 := by cases s <;> simp [findAux]
    rw [this] at h
    injection h with h
    simp [← h]
  · obtain ⟨a, b, rfl, rfl, _⟩ := (findAux_some_iff hd).1 h
    simp

/-- C43: the handler looks at the file system only inside the configured directory: two file systems that
agree on every path lexically inside it give the same result (same response, same everything). -/
theorem C43_confined (g : Nat) (mount dir : Str) (hd : dir ≠ []) (h0 : 0 ∉ dir) (ctx : Ctx σ) (fs' : FileSys)
    (hfs : ∀ p, Inside dir p → ctx.fs p = fs' p) :
    staticDirHandler g mount dir { ctx with fs := fs' } =
      (staticDirHandler g mount dir ctx).map fun c => { c with fs := fs' } := by
  unfold staticDirHandler
  by_cases hl : (!ctx.live g) = true
  · simp only [hl, if_true]; rfl
  · simp only [hl]
    cases hf : find ctx.req.route.path mount with
    | none => rfl
    | some pos =>
      have hb := find_bound hf
      simp only [substrFrom_ok hb, bind, Except.bind]
      generalize ctx.req.route.path.drop (pos + mount.length) = aim
      by_cases hdots : (find aim b!"..").isSome = true
      · simp only [hdots, if_true]; rfl
      · simp only [hdots]
        have hin : Inside dir (cString (dir ++ b!"/" ++ aim)) := by
          rw [cString_append_slash _ _ h0]
          exact inside_below _ _ hd (occurs_cString fun h => hdots (find_dots.2 h))
        generalize dir ++ b!"/" ++ aim = file at hin ⊢
        have he : fileExist fs' file = fileExist ctx.fs file := by
          unfold fileExist; rw [hfs _ hin]
        have hr : ∀ old, fileRead fs' file old = fileRead ctx.fs file old := by
          intro old; unfold fileRead; rw [hfs _ hin]
        simp only [he, hr]
        cases fileExist ctx.fs file with
        | error e => rfl
        | ok b =>
          cases b with
          | false => rfl
          | true =>
            cases hread : fileRead ctx.fs file ctx.resp.body with
            | error e => simp [Except.map]
            | ok r =>
            by_cases hrc : r.1 = kSuccess
            · cases hsuf : Suffix file with
              | error e => simp [hrc, Except.map]
              | ok suf => simp [hrc, Except.map]
            · simp [hrc, Except.map]

/-- C43, what is served: if the response is a 200 that the handler made, its body is the content of a file
inside the directory. -/
theorem C43_served_inside (g : Nat) (mount dir : Str) (hd : dir ≠ []) (h0 : 0 ∉ dir) (ctx ctx' : Ctx σ)
    (h : staticDirHandler g mount dir ctx = .ok ctx') (hs : ctx'.resp.status = .OK) (hs' : ctx.resp.status ≠ .OK) :
    ∃ p content, Inside dir p ∧ ctx.fs p = .file (some content) ∧ ctx'.resp.body = content := by
  unfold staticDirHandler at h
  by_cases hl : (!ctx.live g) = true
  · simp [hl] at h
  simp only [hl] at h
  cases hf : find ctx.req.route.path mount with
  | none =>
    rw [hf] at h
    injection h with h
    rw [← h] at hs
    simp [respNotFound, respType] at hs
  | some pos =>
    have hb := find_bound hf
    simp only [hf, substrFrom_ok hb, bind, Except.bind] at h
    generalize ctx.req.route.path.drop (pos + mount.length) = aim at h
    by_cases hdots : (find aim b!"..").isSome = true
    · simp only [hdots, if_true] at h
      injection h with h
      rw [← h] at hs
      simp [respNotFound, respType] at hs
    · simp only [hdots] at h
      have hin : Inside dir (cString (dir ++ b!"/" ++ aim)) := by
        rw [cString_append_slash _ _ h0]
        exact inside_below _ _ hd (occurs_cString fun h => hdots (find_dots.2 h))
      generalize dir ++ b!"/" ++ aim = file at hin h
      refine ⟨cString file, ?_⟩
      cases hentry : ctx.fs (cString file) with
      | missing =>
        simp [fileExist, hentry] at h
        rw [← h] at hs
        exact absurd hs hs'
      | other =>
        simp [fileExist, hentry] at h
        rw [← h] at hs
        exact absurd hs hs'
      | failed => simp [fileExist, hentry] at h
      | broken => simp [fileExist, fileRead, hentry] at h
      | file content =>
        cases content with
        | none =>
          simp [fileExist, fileRead, hentry, kLogicErr, kSuccess] at h
          rw [← h] at hs
          simp [respNotFound, respType] at hs
        | some content =>
          refine ⟨content, hin, rfl, ?_⟩
          cases hsuf : Suffix file with
          | error e => simp [fileExist, fileRead, hentry, hsuf] at h
          | ok suf =>
            simp [fileExist, fileRead, hentry, hsuf] at h
            rw [← h]
            simp [respSuccess]

/-- A file system with one page and a secret next to the directory. -/
def demoFs : FileSys := fun p =>
  if p = b!"www/a/index.html" then .file (some b!"<p>hi</p>") else if p = b!"www/x.svg" then .file (some b!"<svg/>")
  else if p = b!"secret" then .file (some b!"key") else .missing

def demoStaticCtx (path : Str) : Ctx Unit :=
  { req := { method := .GET, route := { path } }, conn := ⟨[], 0⟩, fs := demoFs, user := () }

example : (staticDirHandler 0 b!"/s/" b!"www" (demoStaticCtx b!"/s/a/index.html")).map
    (fun c => (c.resp.status, c.resp.body, c.resp.header.get b!"Content-Type")) =
    .ok (.OK, b!"<p>hi</p>", some b!"text/html") := by decide +kernel
example : (staticDirHandler 0 b!"/s" b!"www" (demoStaticCtx b!"/s/../secret")).map (fun c => c.resp.status) =
    .ok .NOT_FOUND := by decide +kernel
example : Inside b!"www" b!"www//a/./b" ∧ ¬ Inside b!"www" b!"www/../secret" ∧ ¬ Inside b!"www" b!"/www/a" ∧
    ¬ Inside b!"../www" b!"../../www/a" := by decide +kernel

/-- The name of the directory must not be empty: with an empty one the handler serves absolute paths of
the whole file system (`"" + "/" + "etc/passwd"`), not files of the working directory. -/
theorem C43_empty_dir_escapes (g : Nat) (ctx : Ctx σ) (hl : ctx.live g = true)
    (hp : ctx.req.route.path = b!"/s/etc/passwd") (secret : Str)
    (hfs : ctx.fs b!"//etc/passwd" = .file (some secret)) :
    ∃ ctx', staticDirHandler g b!"/s" [] ctx = .ok ctx' ∧ ctx'.resp.status = .OK ∧ ctx'.resp.body = secret := by
  have hf : find b!"/s/etc/passwd" b!"/s" = some 0 := by decide +kernel
  have ha : substrFrom b!"/s/etc/passwd" (0 + b!"/s".length) = .ok b!"/etc/passwd" := by decide +kernel
  have hd : (find b!"/etc/passwd" b!"..").isSome = false := by decide +kernel
  have hs : Suffix (([] : Str) ++ b!"/" ++ b!"/etc/passwd") = .ok [] := by decide +kernel
  have hc : cString (([] : Str) ++ b!"/" ++ b!"/etc/passwd") = b!"//etc/passwd" := by decide +kernel
  refine ⟨_, by simp only [staticDirHandler, hl, hp, hf, ha, hd, hs, hc, hfs, fileExist, fileRead, bind, Except.bind,
    Bool.not_true, Bool.false_eq_true, if_false, ne_eq, not_true_eq_false]; rfl, ?_⟩
  simp [respSuccess]

/-! ### C44 -/

theorem typeText_eq (g : UMap) (ext : Str) :
    (contentTypeToStr g (contentTypeOfFile g ext) ext).1 = typeOfSuffix g ext := by
  have step : ∀ (x : Str) (P : Prop), (ext = x → P) → (ext ≠ x → P) → P := fun x P h1 h2 => by
    by_cases h : ext = x
    · exact h1 h
    · exact h2 h
  unfold typeOfSuffix
  apply step b!"html" _ (by rintro rfl; rfl); intro h1
  apply step b!"htm" _ (by rintro rfl; rfl); intro h2
  apply step b!"txt" _ (by rintro rfl; rfl); intro h3
  apply step b!"css" _ (by rintro rfl; rfl); intro h4
  apply step b!"less" _ (by rintro rfl; rfl); intro h5
  apply step b!"js" _ (by rintro rfl; rfl); intro h6
  apply step b!"mjs" _ (by rintro rfl; rfl); intro h7
  apply step b!"json" _ (by rintro rfl; rfl); intro h8
  apply step b!"png" _ (by rintro rfl; rfl); intro h9
  apply step b!"jpg" _ (by rintro rfl; rfl); intro h10
  apply step b!"jpeg" _ (by rintro rfl; rfl); intro h11
  apply step b!"gif" _ (by rintro rfl; rfl); intro h12
  apply step b!"webp" _ (by rintro rfl; rfl); intro h13
  have hn : contentTable.find? (fun r => decide (ext ∈ r.2.2)) = none := by
    simp [contentTable, h1, h2, h3, h4, h5, h6, h7, h8, h9, h10, h11, h12, h13]
  rw [hn]
  simp only [contentTypeOfFile, h1, h2, h3, h4, h5, h6, h7, h8, h9, h10, h11, h12, h13, or_self, if_false]
  cases hg : g.get ext with
  | none => simp [contentTypeToStr]
  | some v => simp [contentTypeToStr, hg]

/-- C44 for StaticFile: an existing readable file is answered with 200, exactly its bytes, and the content
type of its suffix (a registered custom type included); nothing else changes but the Connection header. -/
theorem C44_static_file (g : Nat) (file content : Str) (ctx : Ctx σ) (hl : ctx.live g = true)
    (hfs : ctx.fs (cString file) = .file (some content)) :
    ∃ base ext ctx', LastComponent file base ∧ Extension base ext ∧ staticFileHandler g file ctx = .ok ctx' ∧
      ctx'.resp.status = .OK ∧ ctx'.resp.body = content ∧
      ctx'.resp.header.get b!"Content-Type" = some (typeOfSuffix ctx.types ext) ∧
      ctx'.resp.header.get b!"Connection" = some b!"keep-alive" ∧
      (∀ k, k ≠ b!"Content-Type" → k ≠ b!"Connection" → ctx'.resp.header.get k = ctx.resp.header.get k) ∧
      ctx'.req = ctx.req ∧ ctx'.user = ctx.user ∧ ctx'.sent = ctx.sent ∧ ctx'.conn = ctx.conn := by
  obtain ⟨base, ext, hsuf, h1, h2, _⟩ := C07_suffix file
  refine ⟨base, ext, { ctx with
      resp := respSuccess0 { ctx.resp with
        body := content
        header := headerSetContentTypeStr (headerSetLongConnection ctx.resp.header true)
          (contentTypeToStr ctx.types (contentTypeOfFile ctx.types ext) ext).1 }
      types := (contentTypeToStr ctx.types (contentTypeOfFile ctx.types ext) ext).2 }, h1, h2,
    by simp only [staticFileHandler, hl, hfs, fileExist, fileRead, hsuf, bind, Except.bind,
      Bool.not_true, Bool.false_eq_true, if_false, ne_eq, not_true_eq_false],
    rfl, rfl, ?_, ?_, ?_, rfl, rfl, rfl, rfl⟩
  · simp [respSuccess0, headerSetContentTypeStr, typeText_eq]
  · simp only [respSuccess0, headerSetContentTypeStr, headerSetLongConnection]
    rw [UMap.get_set_ne _ _ (by decide), UMap.get_set_self]; rfl
  · intro k k1 k2
    simp only [respSuccess0, headerSetContentTypeStr, headerSetLongConnection]
    rw [UMap.get_set_ne _ _ k1, UMap.get_set_ne _ _ k2]

/-- C44 for StaticDir, what holds: for a suffix without a custom type the answer is 200 with exactly the
file's bytes and the content type.  `reqPath = pre ++ mount ++ rest` at the first occurrence of `mount`. -/
theorem C44_static_dir_partial (g : Nat) (mount dir pre rest content : Str) (ctx : Ctx σ) (hl : ctx.live g = true)
    (hp : ctx.req.route.path = pre ++ mount ++ rest) (hfirst : find (pre ++ mount ++ rest) mount = some pre.length)
    (hdots : ¬ Occurs b!".." rest) (hfs : ctx.fs (cString (dir ++ b!"/" ++ rest)) = .file (some content)) :
    ∃ base ext ctx', LastComponent (dir ++ b!"/" ++ rest) base ∧ Extension base ext ∧
      staticDirHandler g mount dir ctx = .ok ctx' ∧ ctx'.resp.status = .OK ∧ ctx'.resp.body = content ∧
      (ctx.types.get ext = none ∨ ext ∈ builtinSuffixes →
        ctx'.resp.header.get b!"Content-Type" = some (typeOfSuffix ctx.types ext)) ∧
      (∀ v, ctx.types.get ext = some v → ext ∉ builtinSuffixes →
        ctx'.resp.header.get b!"Content-Type" = some ((ctx.types.get []).getD [])) := by
  obtain ⟨base, ext, hsuf, h1, h2, _⟩ := C07_suffix (dir ++ b!"/" ++ rest)
  have hb := find_bound hfirst
  have haim : substrFrom (pre ++ mount ++ rest) (pre.length + mount.length) = .ok rest := by
    rw [substrFrom_ok hb]; simp
  have hd : (find rest b!"..").isSome = false := by
    cases h : (find rest b!"..").isSome with
    | false => rfl
    | true => exact absurd (find_dots.1 h) hdots
  refine ⟨base, ext, _, h1, h2, by simp only [staticDirHandler, hl, hp, hfirst, haim, hd, hfs, fileExist, fileRead, hsuf,
    bind, Except.bind, Bool.not_true, Bool.false_eq_true, if_false, ne_eq, not_true_eq_false]; rfl, ?_, ?_, ?_, ?_⟩
  · simp [respSuccess]
  · simp [respSuccess]
  · intro hc
    have : contentTypeOfFile ctx.types ext ≠ .custom := by
      rcases hc with hc | hc
      · simp only [contentTypeOfFile, hc, Option.isSome_none, Bool.false_eq_true, if_false]
        repeat' split
        all_goals simp
      · simp [builtinSuffixes, contentTable] at hc
        rcases hc with rfl | rfl | rfl | rfl | rfl | rfl | rfl | rfl | rfl | rfl | rfl | rfl | rfl <;>
          simp [contentTypeOfFile]
    have e : ∀ f, (contentTypeToStr ctx.types (contentTypeOfFile ctx.types ext) f).1 =
        (contentTypeToStr ctx.types (contentTypeOfFile ctx.types ext) ext).1 := by
      intro f
      cases ht : contentTypeOfFile ctx.types ext <;> first | rfl | exact absurd ht this
    simp only [respSuccess, headerSetContentType, UMap.get_set_self]
    rw [e, typeText_eq]
  · intro v hv hb
    have hcust : contentTypeOfFile ctx.types ext = .custom := by
      simp [builtinSuffixes, contentTable] at hb
      simp [contentTypeOfFile, hv, hb]
    simp only [respSuccess, headerSetContentType, UMap.get_set_self, hcust, contentTypeToStr]
    cases ctx.types.get [] <;> rfl

/-- C44 is false for StaticDir: a file whose suffix has a registered custom type is sent with an empty
Content-Type (StaticFile sends the registered one). -/
theorem C44_static_dir_custom_refuted :
    let ctx := { demoStaticCtx b!"/s/x.svg" with types := UMap.empty.set b!"svg" b!"image/svg+xml" }
    typeOfSuffix ctx.types b!"svg" = b!"image/svg+xml" ∧
    (staticDirHandler 0 b!"/s/" b!"www" ctx).map (fun c => (c.resp.body, c.resp.header.get b!"Content-Type")) =
      .ok (b!"<svg/>", some []) ∧
    (staticFileHandler 0 b!"www/x.svg" ctx).map (fun c => (c.resp.body, c.resp.header.get b!"Content-Type")) =
      .ok (b!"<svg/>", some b!"image/svg+xml") := by decide +kernel

example : ∃ base ext ctx', LastComponent b!"www/x.svg" base ∧ Extension base ext ∧
    staticFileHandler 0 b!"www/x.svg" (demoStaticCtx b!"/any") = .ok ctx' ∧ ctx'.resp.body = b!"<svg/>" := by
  obtain ⟨b, e, c, h1, h2, h3, _, h4, _⟩ := C44_static_file 0 b!"www/x.svg" b!"<svg/>" (demoStaticCtx b!"/any") rfl
    (by decide +kernel)
  exact ⟨b, e, c, h1, h2, h3, h4⟩
example : find (b!"/g" ++ b!"/s/" ++ b!"a/index.html") b!"/s/" = some b!"/g".length ∧
    (find b!"a/index.html" b!"..").isSome = false ∧
    demoFs (cString (b!"www" ++ b!"/" ++ b!"a/index.html")) = .file (some b!"<p>hi</p>") := by decide +kernel

/-! ### C74 -/

theorem candidates_single (r : Reg σ) : candidates [r] r.full = [r.entry] := by
  unfold candidates
  rw [List.range_succ, List.flatMap_append]
  have hz : (List.range r.full.length).flatMap (fun i =>
      (([r] : List (Reg σ)).filter fun x => x.full = r.full.take i ∧ (x.entry.exact = true → i = r.full.length)).map (·.entry)) = [] := by
    rw [List.flatMap_eq_nil_iff]
    intro i hi
    have hi := List.mem_range.1 hi
    have : ¬ r.full = r.full.take i := by
      intro e
      have := congrArg List.length e
      simp only [List.length_take] at this
      omega
    rw [List.filter_eq_nil_iff.2]
    · rfl
    · intro x hx
      simp only [List.mem_singleton] at hx
      subst hx
      simp [this]
  rw [hz]
  simp

/-- One registration, one request for its path. -/
theorem dispatch_single (route path : Str) (e : Entry σ) (h1 : Ascii route) (h2 : Ascii path) :
    ∃ s, registerHandler route path e {} = .ok s ∧ ∀ ctx, dispatch s (route ++ path) ctx = runInOrder [e] ctx := by
  obtain ⟨s, hs, hd⟩ := C40_routing_partial [⟨route, path, e⟩] (by intro r hr; simp at hr; subst hr; exact ⟨h1, h2⟩)
    (by refine ⟨?_, trivial⟩; unfold Separate; split <;> simp)
  refine ⟨s, by simpa [registerAll] using hs, fun ctx => ?_⟩
  have h := hd (route ++ path) (by
    intro c hc; rcases List.mem_append.1 hc with hc | hc
    · exact h1 c hc
    · exact h2 c hc) ctx
  rw [h]
  congr 1
  exact candidates_single (⟨route, path, e⟩ : Reg σ)

/-- C74 is false: after the group object is gone, a GET request for the registered path is undefined
behaviour, for StaticFile and StaticDir, every prefix, path and file. -/
theorem C74_temporary_group_refuted (g : Nat) (route path file : Str) (h1 : Ascii route) (h2 : Ascii path) :
    (∃ s, groupStaticFile g route path file [] ({} : Server σ) = .ok s ∧
      ∀ ctx, ctx.req.method = .GET → ctx.live g = false → dispatch s (route ++ path) ctx = .error .ub) ∧
    (∃ s, groupStaticDir g route path file [] ({} : Server σ) = .ok s ∧
      ∀ ctx, ctx.req.method = .GET → ctx.live g = false → dispatch s (route ++ path) ctx = .error .ub) := by
  refine ⟨?_, ?_⟩
  · obtain ⟨s, hs, hd⟩ := dispatch_single route path
      ({ callback := some (staticFileHandler g file), filters := [methodFilter .GET] } : Entry σ) h1 h2
    exact ⟨s, hs, fun ctx hm hl => by rw [hd]; simp [runInOrder, accepts, methodFilter, hm, staticFileHandler, hl, bind, Except.bind]⟩
  · obtain ⟨s, hs, hd⟩ := dispatch_single route path
      ({ callback := some (staticDirHandler g path file), exact := false, filters := [methodFilter .GET] } : Entry σ) h1 h2
    exact ⟨s, hs, fun ctx hm hl => by rw [hd]; simp [runInOrder, accepts, methodFilter, hm, staticDirHandler, hl, bind, Except.bind]⟩

/-- C74, what holds: while the group lives, the handlers are never undefined behaviour, on any request and
any file system. -/
theorem C74_live_group_partial (g : Nat) (path file : Str) (ctx : Ctx σ) (hl : ctx.live g = true) :
    staticFileHandler g file ctx ≠ .error .ub ∧ staticDirHandler g path file ctx ≠ .error .ub := by
  have hfile : ∀ f, fileExist ctx.fs f ≠ .error .ub := by
    intro f h
    unfold fileExist at h
    split at h <;> simp at h
  have hread : ∀ f old e, fileRead ctx.fs f old = .error e → e ≠ .ub := by
    intro f old e h
    unfold fileRead at h
    split at h <;> simp at h <;> simp [← h]
  refine ⟨?_, ?_⟩
  · simp only [staticFileHandler, hl, Bool.not_true, Bool.false_eq_true, if_false, bind, Except.bind]
    cases he : fileExist ctx.fs file with
    | error e => intro h; simp at h; exact hfile file (h ▸ he)
    | ok b =>
      obtain ⟨base, ext, hsuf, _⟩ := C07_suffix file
      cases b <;> simp only [hsuf] <;> repeat' split
      all_goals first | simp; done | (rename_i h; simpa using hread _ _ _ h)
  · simp only [staticDirHandler, hl, Bool.not_true, Bool.false_eq_true, if_false]
    cases hf : find ctx.req.route.path path with
    | none => simp
    | some pos =>
      simp only [substrFrom_ok (find_bound hf), bind, Except.bind]
      generalize ctx.req.route.path.drop (pos + path.length) = aim
      split
      · simp
      · generalize file ++ b!"/" ++ aim = f
        cases he : fileExist ctx.fs f with
        | error e => intro h; simp at h; exact hfile f (h ▸ he)
        | ok b =>
          obtain ⟨base, ext, hsuf, _⟩ := C07_suffix f
          cases b <;> simp only [hsuf] <;> repeat' split
          all_goals first | simp; done | (rename_i h; simpa using hread _ _ _ h)

/-! ### C76 -/

/-- The Host of a request: the header's value, empty if there is none. -/
def Spec.hostOf (r : HttpReq) : Str := (r.header.get b!"Host").getD []

/-- C76, exactly what a host filter accepts: hosts matching the expression, or the wildcard, which is empty
unless it was set. -/
theorem C76_host_partial (regex : Str → Bool) (wild : Str) (r : HttpReq) (h1 : wild.length < 2 ^ 31 - 1)
    (h2 : (hostOf r).length < 2 ^ 31 - 1) :
    ∃ b, hostFilter regex wild r = .ok b ∧ (b = true ↔ regex (hostOf r) = true ∨ Glob wild (hostOf r)) := by
  have hh : headerGetHost r.header = hostOf r := by
    unfold headerGetHost hostOf
    cases r.header.get b!"Host" <;> rfl
  unfold hostFilter
  rw [hh]
  by_cases hr : regex (hostOf r) = true
  · exact ⟨true, by rw [if_pos hr], by simp [hr]⟩
  · obtain ⟨b, hb, hg⟩ := C06_wildcard wild (hostOf r) h1 h2
    exact ⟨b, by rw [if_neg hr, hb], by simp [hr, hg]⟩

theorem glob_nil {s : Str} : Glob [] s ↔ s = [] := by
  constructor
  · intro h; cases h; rfl
  · rintro rfl; exact .nil

/-- C76 for a wildcard filter: accepts exactly the hosts that match the wildcard. -/
theorem C76_wildcard_partial (wild : Str) (r : HttpReq) (h1 : wild.length < 2 ^ 31 - 1)
    (h2 : (hostOf r).length < 2 ^ 31 - 1) :
    ∃ b, hostFilter noRegex wild r = .ok b ∧ (b = true ↔ Glob wild (hostOf r)) := by
  obtain ⟨b, hb, hi⟩ := C76_host_partial noRegex wild r h1 h2
  exact ⟨b, hb, by simpa [noRegex] using hi⟩

/-- C76 for a filter with an expression, as far as it holds: exact for every request that names a host. -/
theorem C76_regex_partial (regex : Str → Bool) (r : HttpReq) (h0 : hostOf r ≠ [])
    (h2 : (hostOf r).length < 2 ^ 31 - 1) :
    hostFilter regex [] r = .ok (regex (hostOf r)) := by
  obtain ⟨b, hb, hi⟩ := C76_host_partial regex [] r (by simp) h2
  rw [hb]
  congr 1
  simp only [glob_nil, h0, or_false] at hi
  exact Bool.eq_iff_iff.2 hi

/-- C76 is false: a filter with only an expression lets every request without a Host header through,
whatever the expression. -/
theorem C76_no_host_refuted (regex : Str → Bool) (r : HttpReq) (h : r.header.get b!"Host" = none) :
    hostFilter regex [] r = .ok true := by
  have hh : hostOf r = [] := by simp [hostOf, h]
  obtain ⟨b, hb, hi⟩ := C76_host_partial regex [] r (by simp) (by simp [hh])
  rw [hb, hi.2 (Or.inr (by rw [hh]; exact .nil))]

example : hostFilter (fun h => h == b!"a.com") [] { header := UMap.empty.set b!"Host" b!"b.com" } = .ok false ∧
    hostFilter (fun h => h == b!"a.com") [] { header := UMap.empty.set b!"Host" b!"a.com" } = .ok true ∧
    hostFilter (fun h => h == b!"a.com") [] {} = .ok true ∧
    hostFilter noRegex b!"*.com" { header := UMap.empty.set b!"Host" b!"b.com" } = .ok true := by decide +kernel

/-! ### C77 -/

/-- C77, what holds: if the first occurrence of the mount path (without the group's prefix) in the URL is
the mount itself, the file asked for is the one of the same relative name: a file system holding only
that file gives its content, and any other file is irrelevant. -/
theorem C77_relative_partial (g : Nat) (route path dir rest : Str) (ctx : Ctx σ) (fs' : FileSys)
    (hp : ctx.req.route.path = route ++ path ++ rest)
    (hfirst : find (route ++ path ++ rest) path = some route.length)
    (hsame : fs' (cString (dir ++ b!"/" ++ rest)) = ctx.fs (cString (dir ++ b!"/" ++ rest))) :
    staticDirHandler g path dir { ctx with fs := fs' } =
      (staticDirHandler g path dir ctx).map fun c => { c with fs := fs' } := by
  have haim : substrFrom (route ++ path ++ rest) (route.length + path.length) = .ok rest := by
    rw [substrFrom_ok (find_bound hfirst)]; simp
  unfold staticDirHandler
  by_cases hl : (!ctx.live g) = true
  · simp only [hl, if_true]; rfl
  simp only [hl, hp, hfirst, haim, bind, Except.bind]
  by_cases hdots : (find rest b!"..").isSome = true
  · simp only [hdots, if_true]; rfl
  simp only [hdots]
  generalize dir ++ b!"/" ++ rest = file at hsame ⊢
  have he : fileExist fs' file = fileExist ctx.fs file := by
    unfold fileExist; rw [hsame]
  have hr : ∀ old, fileRead fs' file old = fileRead ctx.fs file old := by
    intro old; unfold fileRead; rw [hsame]
  simp only [he, hr]
  cases fileExist ctx.fs file with
  | error e => rfl
  | ok b =>
    cases b with
    | false => rfl
    | true =>
      cases hread : fileRead ctx.fs file ctx.resp.body with
      | error e => simp [Except.map]
      | ok r =>
      by_cases hrc : r.1 = kSuccess
      · cases hsuf : Suffix file with
        | error e => simp [hrc, Except.map]
        | ok suf => simp [hrc, Except.map]
      · simp [hrc, Except.map]

/-- The condition always holds on the server itself (no group prefix). -/
theorem C77_no_prefix_partial (path rest : Str) : find ([] ++ path ++ rest) path = some ([] : Str).length := by
  rw [find_zero, List.nil_append]
  by_cases hp : path = []
  · subst hp; cases rest <;> simp [findAux]
  · exact (findAux_some_iff hp).2 ⟨[], rest, by simp, rfl, by
      intro e
      have := e.length_le
      have := List.length_pos_iff.2 hp
      simp only [List.nil_append, List.length_dropLast] at *
      omega⟩

/-- C77 is false: with `Group("/a")` and `StaticDir("/a", "www")`, the request `/a/a/x.svg` is not answered
from `www/x.svg` but passed on (the file looked for is `www//a/x.svg`). -/
theorem C77_first_occurrence_refuted :
    let ctx := demoStaticCtx b!"/a/a/x.svg"
    ctx.fs b!"www/x.svg" = .file (some b!"<svg/>") ∧
    (staticDirHandler 0 b!"/a" b!"www" ctx).map (fun c => (c.resp.status, c.resp.body, c.isContinue)) =
      .ok (.UNKNOWN, b!"", true) := by decide +kernel

end Cppnet
