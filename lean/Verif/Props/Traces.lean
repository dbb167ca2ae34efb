import Verif.Props.Conversation
import Verif.Spec.Traces
import Verif.Props.Static

/-!
# C184: requests leave next to nothing behind in a server
-/

namespace Cppnet
open Spec
variable {σ : Type}

/-- The registry of content types after some requests: as before, or with an empty entry for the empty suffix. -/
def Grown (t0 t : UMap) : Prop := t = t0 ∨ t0.get [] = none ∧ t = t0.set [] []

theorem grown_toStr {t0 t : UMap} (h : Grown t0 t) (c : ContentType) : Grown t0 (contentTypeToStr t c []).2 := by
  cases c <;> try exact h
  simp only [contentTypeToStr]
  cases hg : t.get [] with
  | some v => exact h
  | none =>
    rcases h with rfl | ⟨h0, rfl⟩
    · exact .inr ⟨hg, rfl⟩
    · rw [UMap.get_set_self] at hg
      cases hg

theorem toStr_ofFile (t : UMap) (suffix : Str) : (contentTypeToStr t (contentTypeOfFile t suffix) suffix).2 = t := by
  unfold contentTypeOfFile
  repeat' split
  all_goals try rfl
  rename_i h
  simp only [contentTypeToStr]
  cases hg : t.get suffix with
  | some v => rfl
  | none => rw [hg] at h; cases h

theorem staticFile_grown {t0 : UMap} (g : Nat) (file : Str) (ctx ctx' : Ctx σ) (h : staticFileHandler g file ctx = .ok ctx')
    (hg : Grown t0 ctx.types) : Grown t0 ctx'.types := by
  unfold staticFileHandler at h
  by_cases hl : (!ctx.live g) = true
  · rw [if_pos hl] at h; cases h
  rw [if_neg hl] at h
  cases he : fileExist ctx.fs file with
  | error e => simp only [he, bind, Except.bind] at h; cases h
  | ok b =>
    simp only [he, bind, Except.bind] at h
    cases b with
    | false => cases h; exact hg
    | true =>
      simp only [Bool.not_true, Bool.false_eq_true, if_false] at h
      cases hr : fileRead ctx.fs file ctx.resp.body with
      | error e => simp only [hr] at h; cases h
      | ok x =>
        simp only [hr] at h
        by_cases hc : x.1 ≠ kSuccess
        · rw [if_pos hc] at h; cases h; exact hg
        · rw [if_neg hc] at h
          cases hs : Suffix file with
          | error e => simp only [hs] at h; cases h
          | ok suffix =>
            simp only [hs] at h
            cases h
            show Grown t0 (contentTypeToStr _ _ _).2
            rw [toStr_ofFile]
            exact hg

theorem staticDir_grown {t0 : UMap} (g : Nat) (mount dir : Str) (ctx ctx' : Ctx σ) (h : staticDirHandler g mount dir ctx = .ok ctx')
    (hg : Grown t0 ctx.types) : Grown t0 ctx'.types := by
  unfold staticDirHandler at h
  by_cases hl : (!ctx.live g) = true
  · rw [if_pos hl] at h; cases h
  rw [if_neg hl] at h
  cases hf : find ctx.req.route.path mount with
  | none => simp only [hf] at h; cases h; exact hg
  | some pos =>
    simp only [hf] at h
    cases ha : substrFrom ctx.req.route.path (pos + mount.length) with
    | error e => simp only [ha, bind, Except.bind] at h; cases h
    | ok aim =>
      simp only [ha, bind, Except.bind] at h
      by_cases hd : (find aim b!"..").isSome = true
      · rw [if_pos hd] at h; cases h; exact hg
      rw [if_neg hd] at h
      cases he : fileExist ctx.fs (dir ++ b!"/" ++ aim) with
      | error e => simp only [he] at h; cases h
      | ok b =>
        simp only [he] at h
        cases b with
        | false => cases h; exact hg
        | true =>
          simp only [Bool.not_true, Bool.false_eq_true, if_false] at h
          cases hr : fileRead ctx.fs (dir ++ b!"/" ++ aim) ctx.resp.body with
          | error e => simp only [hr] at h; cases h
          | ok x =>
            simp only [hr] at h
            by_cases hc : x.1 ≠ kSuccess
            · rw [if_pos hc] at h; cases h; exact hg
            · rw [if_neg hc] at h
              cases hs : Suffix (dir ++ b!"/" ++ aim) with
              | error e => simp only [hs] at h; cases h
              | ok suffix =>
                simp only [hs] at h
                cases h
                exact grown_toStr hg _

/-! ### Invariants of serving -/

theorem runNode_inv {P : Ctx σ → Prop} (isEnd : Bool) (es : List (Entry σ))
    (hP : ∀ e ∈ es, ∀ f, e.callback = some f → ∀ ctx ctx', P ctx → f ctx = .ok ctx' → P ctx') :
    ∀ ctx r, P ctx → runNode isEnd es ctx = .ok r → P r.1 := by
  induction es with
  | nil => intro ctx r h hr; cases hr; exact h
  | cons e es ih =>
    intro ctx r h hr
    have ih := ih fun x hx => hP x (List.mem_cons_of_mem _ hx)
    unfold runNode at hr
    by_cases he : (!isEnd && e.exact) = true
    · rw [if_pos he] at hr
      exact ih ctx r h hr
    rw [if_neg he] at hr
    cases hf : filtersMatch ctx.req e.filters with
    | error x => simp only [hf, bind, Except.bind] at hr; cases hr
    | ok b =>
      simp only [hf, bind, Except.bind] at hr
      cases b with
      | false => exact ih ctx r h hr
      | true =>
        simp only [if_true] at hr
        cases hc : e.callback with
        | none => simp only [hc] at hr; exact ih ctx r h hr
        | some f =>
          simp only [hc] at hr
          cases hfc : f ctx with
          | error x => simp only [hfc] at hr; cases hr
          | ok ctx1 =>
            simp only [hfc] at hr
            have h1 := hP e (List.mem_cons_self ..) f hc ctx ctx1 h hfc
            by_cases hrun : (!ctx1.running) = true
            · rw [if_pos hrun] at hr; cases hr; exact h1
            · rw [if_neg hrun] at hr; exact ih ctx1 r h1 hr

theorem searchGo_inv {α τ : Type} {P : τ → Prop} (cb : τ → α → Bool → Out (τ × Bool))
    (hP : ∀ s v e r, P s → cb s v e = .ok r → P r.1) (key : Str) : ∀ (s : τ) (now : TNode α) (i : Nat) (s' : τ), P s →
    searchGo cb s now i key = .ok s' → P s' := by
  induction key with
  | nil =>
    intro s now i s' h hs
    unfold searchGo at hs
    cases hv : now.val with
    | none => simp only [hv] at hs; cases hs; exact h
    | some v =>
      simp only [hv] at hs
      by_cases hi : i = now.key.length
      · rw [if_pos hi] at hs
        cases hc : cb s v true with
        | error e => simp only [hc, bind, Except.bind] at hs; cases hs
        | ok r => simp only [hc, bind, Except.bind] at hs; cases hs; exact hP s v true r h hc
      · rw [if_neg hi] at hs; cases hs; exact h
  | cons c cs ih =>
    intro s now i s' h hs
    unfold searchGo at hs
    by_cases hi : i < now.key.length
    · rw [if_pos hi] at hs
      by_cases hk : now.key[i]? = some c
      · rw [if_pos hk] at hs; exact ih s now (i + 1) s' h hs
      · rw [if_neg hk] at hs; cases hs; exact h
    · rw [if_neg hi] at hs
      have tail : ∀ r : τ × Bool, P r.1 → (if (!r.2) = true then (.ok r.1 : Out τ) else (do
          match ← now.slot c with
          | none => .ok r.1
          | some ch => searchGo cb r.1 ch 1 cs)) = .ok s' → P s' := by
        intro r hr ht
        by_cases h2 : (!r.2) = true
        · rw [if_pos h2] at ht; cases ht; exact hr
        · rw [if_neg h2] at ht
          cases hsl : now.slot c with
          | error e => simp only [hsl, bind, Except.bind] at ht; cases ht
          | ok o =>
            simp only [hsl, bind, Except.bind] at ht
            cases o with
            | none => cases ht; exact hr
            | some ch => exact ih r.1 ch 1 s' hr ht
      cases hv : now.val with
      | none => simp only [hv] at hs; exact tail (s, true) h hs
      | some v =>
        simp only [hv] at hs
        cases hc : cb s v false with
        | error e => simp only [hc, bind, Except.bind] at hs; cases hs
        | ok r =>
          rw [hc] at hs
          exact tail r (hP s v false r h hc) hs

theorem trieSearch_inv {α τ : Type} {P : τ → Prop} (cb : τ → α → Bool → Out (τ × Bool))
    (hP : ∀ s v e r, P s → cb s v e = .ok r → P r.1) (key : Str) (s : τ) (root : TNode α) (s' : τ) (h : P s)
    (hs : trieSearch cb s root key = .ok s') : P s' := by
  revert hs
  have tail : ∀ r : τ × Bool, P r.1 → (if (!r.2) = true then (.ok r.1 : Out τ) else
      match key with
      | [] => .ok r.1
      | c :: _ => do
        match ← root.slot c with
        | none => .ok r.1
        | some ch => searchGo cb r.1 ch 0 key) = .ok s' → P s' := by
    intro r hr ht
    by_cases h2 : (!r.2) = true
    · rw [if_pos h2] at ht; cases ht; exact hr
    · rw [if_neg h2] at ht
      cases key with
      | nil => cases ht; exact hr
      | cons c cs =>
        simp only at ht
        cases hsl : root.slot c with
        | error e => simp only [hsl, bind, Except.bind] at ht; cases ht
        | ok o =>
          simp only [hsl, bind, Except.bind] at ht
          cases o with
          | none => cases ht; exact hr
          | some ch => exact searchGo_inv cb hP _ r.1 ch 0 s' hr ht
  intro hs
  unfold trieSearch at hs
  cases hv : root.val with
  | none => simp only [hv] at hs; exact tail (s, true) h hs
  | some v =>
    simp only [hv] at hs
    cases hc : cb s v key.isEmpty with
    | error e => simp only [hc, bind, Except.bind] at hs; cases hs
    | ok r =>
      rw [hc] at hs
      exact tail r (hP s v _ r h hc) hs

/-- All handlers of the server. -/
def AllHandlers (P : Handler σ → Prop) (s : Server σ) : Prop := ∀ es ∈ s.store, ∀ e ∈ es, ∀ f, e.callback = some f → P f

theorem dispatch_inv {P : Ctx σ → Prop} {s : Server σ} (hP : AllHandlers (fun f => ∀ ctx ctx', P ctx → f ctx = .ok ctx' → P ctx') s)
    (path : Str) (ctx ctx' : Ctx σ) (h : P ctx) (hd : dispatch s path ctx = .ok ctx') : P ctx' := by
  unfold dispatch at hd
  refine trieSearch_inv _ (fun c ref isEnd r hc hr => ?_) path ctx s.trie ctx' h hd
  refine runNode_inv isEnd _ (fun e he f hf => ?_) c r hc hr
  by_cases hm : s.store.getD ref [] ∈ s.store
  · exact hP _ hm e he f hf
  · have : s.store.getD ref [] = [] := by
      rw [List.getD_eq_getElem?_getD]
      cases hg : s.store[ref]? with
      | none => rfl
      | some x =>
        exact absurd (by rw [List.getD_eq_getElem?_getD, hg]; exact List.mem_of_getElem? hg) hm
    rw [this] at he
    cases he

theorem handleRead_inv {Q : UMap → Prop} {s : Server σ}
    (hP : AllHandlers (fun f => ∀ ctx ctx' : Ctx σ, Q ctx.types → f ctx = .ok ctx' → Q ctx'.types) s)
    (env : Env) (c : Conn) (u : σ) (r : Served σ) (h : Q env.types) (hr : handleRead env s c u = .ok r) : Q r.types := by
  have serve : ∀ req conn, serveRequest env s req conn u = .ok r → Q r.types := by
    intro req conn hs
    unfold serveRequest at hs
    cases hd : dispatch s req.route.path
      { req, conn, running := env.running, types := env.types, fs := env.fs, live := env.live, user := u } with
    | error e => simp only [hd, bind, Except.bind] at hs; cases hs
    | ok ctx =>
      simp only [hd, bind, Except.bind] at hs
      cases hs
      exact dispatch_inv (P := fun ctx => Q ctx.types) hP _ _ _ h hd
  unfold handleRead at hr
  cases hu : sockReadUntil c [] crlf2 with
  | error e => simp only [hu, bind, Except.bind] at hr; cases hr
  | ok x =>
    simp only [hu, bind, Except.bind] at hr
    split at hr
    · cases hr; exact h
    · cases hp : reqParse {} x.2.1 with
      | error e => simp only [hp] at hr; cases hr
      | ok y =>
        simp only [hp] at hr
        split at hr
        · cases hr; exact h
        · split at hr
          · split at hr
            · cases hr; exact h
            · exact serve _ _ hr
          · exact serve _ _ hr

theorem worldRun_inv {Q : UMap → Prop} {s : Server σ}
    (hP : AllHandlers (fun f => ∀ ctx ctx' : Ctx σ, Q ctx.types → f ctx = .ok ctx' → Q ctx'.types) s)
    (evs : List (Nat × Env)) : ∀ (w w' : World σ) (rs : List (Nat × Served σ)), Q w.types → worldRun s evs w = .ok (w', rs) → Q w'.types := by
  induction evs with
  | nil => intro w w' rs h hr; cases hr; exact h
  | cons x evs ih =>
    obtain ⟨i, env⟩ := x
    intro w w' rs h hr
    unfold worldRun at hr
    cases hs : worldStep s w i env with
    | error e => simp only [hs, bind, Except.bind] at hr; cases hr
    | ok y =>
      simp only [hs, bind, Except.bind] at hr
      have h1 : Q y.1.types := by
        unfold worldStep at hs
        by_cases hc : w.closed i = true
        · rw [if_pos hc] at hs; cases hs; exact h
        · rw [if_neg hc] at hs
          cases hh : handleRead { env with types := w.types } s (w.conns i) w.user with
          | error e => rw [hh] at hs; cases hs
          | ok r =>
            rw [hh] at hs
            cases hs
            exact handleRead_inv hP _ _ _ r h hh
      cases hw : worldRun s evs y.1 with
      | error e => simp only [hw] at hr; cases hr
      | ok z =>
        simp only [hw] at hr
        cases hr
        exact ih y.1 z.1 z.2 h1 hw

/-! ### Registering -/

theorem register_all {P : Handler σ → Prop} (route path : Str) (e : Entry σ) (he : ∀ f, e.callback = some f → P f)
    (s s' : Server σ) (h : AllHandlers P s) (hr : registerHandler route path e s = .ok s') : AllHandlers P s' := by
  unfold registerHandler at hr
  cases hg : trieGet s.trie path with
  | error x => simp only [hg, bind, Except.bind] at hr; cases hr
  | ok o =>
    simp only [hg, bind, Except.bind] at hr
    cases o with
    | none =>
      simp only at hr
      cases ht : trieSet s.trie (route ++ path) s.store.length with
      | error x => simp only [ht] at hr; cases hr
      | ok t =>
        simp only [ht] at hr
        cases hr
        intro es hes e' he'
        simp only [List.mem_append, List.mem_singleton] at hes
        rcases hes with hes | rfl
        · exact h es hes e' he'
        · simp only [List.mem_singleton] at he'
          subst he'
          exact he
    | some r =>
      cases hr
      intro es hes e' he'
      obtain ⟨i, hi, rfl⟩ := List.mem_iff_getElem.1 hes
      rw [List.getElem_modify] at he'
      split at he'
      · simp only [List.mem_append, List.mem_singleton] at he'
        rcases he' with he' | rfl
        · exact h _ (List.getElem_mem _) e' he'
        · exact he
      · exact h _ (List.getElem_mem _) e' he'

theorem foldlM_all {α : Type} {P : Handler σ → Prop} (step : Server σ → α → Out (Server σ)) (l : List α)
    (hstep : ∀ a ∈ l, ∀ s s', AllHandlers P s → step s a = .ok s' → AllHandlers P s') :
    ∀ s s', AllHandlers P s → l.foldlM step s = .ok s' → AllHandlers P s' := by
  induction l with
  | nil => intro s s' h hr; cases hr; exact h
  | cons a l ih =>
    intro s s' h hr
    rw [List.foldlM_cons] at hr
    cases hs : step s a with
    | error e => rw [hs] at hr; cases hr
    | ok s1 =>
      rw [hs] at hr
      exact ih (fun b hb => hstep b (List.mem_cons_of_mem _ hb)) s1 s' (hstep a (List.mem_cons_self ..) s s1 h hs) hr

theorem perform_all {P : Handler σ → Prop} (hdir : ∀ g mount dir, P (staticDirHandler g mount dir))
    (hfile : ∀ g file, P (staticFileHandler g file)) (c : ApiCall σ) (hc : ∀ f ∈ handlersOf c.fn, P f) (s s' : Server σ)
    (h : AllHandlers P s) (hr : c.perform s = .ok s') : AllHandlers P s' := by
  unfold ApiCall.perform at hr
  cases hfn : c.fn with
  | register path cb filters exact =>
    rw [hfn] at hr hc
    exact register_all _ _ _ (fun f hf => hc f (by simpa [handlersOf] using hf)) s s' h hr
  | registers path cbs filters exact =>
    rw [hfn] at hr hc
    refine foldlM_all _ cbs (fun cb hcb s s' hs hr => ?_) s s' h hr
    exact register_all _ _ _ (fun f hf => hc f (List.mem_filterMap.2 ⟨cb, hcb, hf⟩)) s s' hs hr
  | get path cb filters =>
    rw [hfn] at hr hc
    exact register_all _ _ _ (fun f hf => hc f (by simpa [handlersOf] using hf)) s s' h hr
  | gets path cbs filters =>
    rw [hfn] at hr hc
    refine foldlM_all _ cbs (fun cb hcb s s' hs hr => ?_) s s' h hr
    exact register_all _ _ _ (fun f hf => hc f (List.mem_filterMap.2 ⟨cb, hcb, hf⟩)) s s' hs hr
  | post path cb filters =>
    rw [hfn] at hr hc
    exact register_all _ _ _ (fun f hf => hc f (by simpa [handlersOf] using hf)) s s' h hr
  | posts path cbs filters =>
    rw [hfn] at hr hc
    refine foldlM_all _ cbs (fun cb hcb s s' hs hr => ?_) s s' h hr
    exact register_all _ _ _ (fun f hf => hc f (List.mem_filterMap.2 ⟨cb, hcb, hf⟩)) s s' hs hr
  | use cb filters =>
    rw [hfn] at hr hc
    exact register_all _ _ _ (fun f hf => hc f (by simpa [handlersOf] using hf)) s s' h hr
  | staticDir path dir filters =>
    rw [hfn] at hr
    exact register_all _ _ _ (fun f hf => by cases hf; exact hdir _ _ _) s s' h hr
  | staticFile path file filters =>
    rw [hfn] at hr
    exact register_all _ _ _ (fun f hf => by cases hf; exact hfile _ _) s s' h hr

theorem grown_run (calls : List (ApiCall σ)) (hk : ∀ c ∈ calls, ∀ f ∈ handlersOf c.fn, KeepsTypes f) (s : Server σ)
    (hs : madeBy calls = .ok s) (evs : List (Nat × Env)) (w w' : World σ) (rs : List (Nat × Served σ))
    (hr : worldRun s evs w = .ok (w', rs)) : Grown w.types w'.types := by
  refine worldRun_inv (Q := Grown w.types) ?_ evs w w' rs (.inl rfl) hr
  refine foldlM_all _ calls (fun c hc s s' h hr => ?_) {} s (by intro es hes; cases hes) hs
  refine perform_all (fun g m d ctx ctx' hq hh => staticDir_grown g m d ctx ctx' hh hq)
    (fun g f ctx ctx' hq hh => staticFile_grown g f ctx ctx' hh hq) c (fun f hf ctx ctx' hq hh => ?_) s s' h hr
  rw [hk c hc f hf ctx ctx' hh]
  exact hq

/-- **C184**: whatever clients have asked, for however long, the registry of content types has every entry it had, and at most one more:
an empty one for the empty suffix. -/
theorem C184_registry (calls : List (ApiCall σ)) (hk : ∀ c ∈ calls, ∀ f ∈ handlersOf c.fn, KeepsTypes f) (s : Server σ)
    (hs : madeBy calls = .ok s) (evs : List (Nat × Env)) (w w' : World σ) (rs : List (Nat × Served σ))
    (hr : worldRun s evs w = .ok (w', rs)) :
    (∀ suffix v, w.types.get suffix = some v → w'.types.get suffix = some v) ∧
    (∀ suffix, suffix ≠ [] → w'.types.get suffix = w.types.get suffix) ∧
    w'.types.size ≤ w.types.size + 1 := by
  rcases grown_run calls hk s hs evs w w' rs hr with h | ⟨h0, h⟩
  · rw [h]; exact ⟨fun _ _ h => h, fun _ _ => rfl, by omega⟩
  · rw [h]
    refine ⟨fun k v hv => ?_, fun k hne => UMap.get_set_ne _ _ hne, ?_⟩
    · by_cases he : k = []
      · subst he; rw [h0] at hv; cases hv
      · rw [UMap.get_set_ne _ _ he]; exact hv
    · have : (assocSet ([] : Str) [] w.types.entries).map Prod.fst = _ := assocSet_keys [] [] _
      have := congrArg List.length this
      simp only [UMap.size, UMap.set]
      split at this <;> simp only [List.length_map, List.length_append, List.length_singleton] at this <;> omega

/-- A server with a static directory, a static file and a handler of its own. -/
def traceCalls : List (ApiCall Unit) :=
  [⟨[], 0, .staticDir b!"/s" b!"www" []⟩, ⟨[], 0, .staticFile b!"/one" b!"www//a.md" []⟩, ⟨[], 0, .get b!"/hi" (some fun ctx => .ok ctx) []⟩]

example : ∀ c ∈ traceCalls, ∀ f ∈ handlersOf c.fn, KeepsTypes f := by
  intro c hc f hf
  simp only [traceCalls, List.mem_cons, List.not_mem_nil, or_false] at hc
  rcases hc with rfl | rfl | rfl
  · simp [handlersOf] at hf
  · simp [handlersOf] at hf
  · simp only [handlersOf, Option.toList_some, List.mem_singleton] at hf
    subst hf
    intro ctx ctx' h
    cases h
    rfl

/-- The registry before and after three reports. -/
def traceRun : Out (List Nat × List (Option Str)) := do
  let s ← madeBy traceCalls
  let (w, rs) ← worldRun s [(0, { fs := twoFiles }), (1, { fs := twoFiles }), (0, { fs := twoFiles })] twoClients
  .ok ([twoClients.types.size, w.types.size, rs.length], [w.types.get b!"md", w.types.get []])

/- The bound is met: the first file with a registered suffix leaves the empty entry, and nothing that follows adds another. -/
example : traceRun = .ok ([1, 2, 3], [some b!"text/markdown", some []]) := by decide +kernel

theorem grown_ofFile {t0 t : UMap} (h : Grown t0 t) {suffix : Str} (hne : suffix ≠ []) :
    contentTypeOfFile t suffix = contentTypeOfFile t0 suffix := by
  have : t.get suffix = t0.get suffix := by
    rcases h with rfl | ⟨_, rfl⟩
    · rfl
    · exact UMap.get_set_ne _ _ hne
  unfold contentTypeOfFile
  rw [this]

theorem grown_text {t0 t : UMap} (h : Grown t0 t) (c : ContentType) (suffix : Str) :
    (contentTypeToStr t c suffix).1 = (contentTypeToStr t0 c suffix).1 := by
  rcases h with rfl | ⟨h0, rfl⟩
  · rfl
  · cases c <;> try rfl
    simp only [contentTypeToStr]
    by_cases hs : suffix = []
    · subst hs
      rw [UMap.get_set_self, h0]
    · rw [UMap.get_set_ne _ _ hs]
      cases t0.get suffix <;> rfl

theorem map_congr_bind {α β γ : Type} {x : Out α} {f g : α → Out β} {p : β → γ} (h : ∀ a, x = .ok a → (f a).map p = (g a).map p) :
    (x >>= f).map p = (x >>= g).map p := by
  cases x with
  | error e => rfl
  | ok a => exact h a rfl

theorem file_same {t0 t : UMap} (ht : Grown t0 t) (g : Nat) (file : Str) (hne : Suffix file ≠ .ok []) (ctx : Ctx σ) :
    (staticFileHandler g file { ctx with types := t }).map (·.resp) = (staticFileHandler g file { ctx with types := t0 }).map (·.resp) := by
  unfold staticFileHandler
  simp only
  split
  · rfl
  refine map_congr_bind fun b _ => ?_
  split
  · rfl
  refine map_congr_bind fun r _ => ?_
  split
  · rfl
  refine map_congr_bind fun suffix hs => ?_
  have hn : suffix ≠ [] := fun e => hne (by rw [hs, e])
  simp only [Except.map, grown_ofFile ht hn, grown_text ht]

theorem dir_same {t0 t : UMap} (ht : Grown t0 t) (g : Nat) (mount dir : Str) (ctx : Ctx σ)
    (hne : ∀ pre rest, ctx.req.route.path = pre ++ mount ++ rest → Suffix (dir ++ b!"/" ++ rest) ≠ .ok []) :
    (staticDirHandler g mount dir { ctx with types := t }).map (·.resp) = (staticDirHandler g mount dir { ctx with types := t0 }).map (·.resp) := by
  unfold staticDirHandler
  simp only
  split
  · rfl
  split
  · rfl
  refine map_congr_bind fun aim ha => ?_
  split
  · rfl
  refine map_congr_bind fun b _ => ?_
  split
  · rfl
  refine map_congr_bind fun r _ => ?_
  split
  · rfl
  refine map_congr_bind fun suffix hs => ?_
  have hn : suffix ≠ [] := by
    intro e
    rw [e] at hs
    rename_i pos hf _ _ _ _ _
    rw [find_zero] at hf
    obtain ⟨hcut, hb⟩ := findAux_some_split hf
    refine hne (ctx.req.route.path.take pos) aim ?_ hs
    rw [substrFrom, if_pos hb] at ha
    cases ha
    exact hcut
  simp only [Except.map, grown_ofFile ht hn, respSuccess, headerSetContentType, grown_text ht]

/-- **C184**: and so a static file with a suffix, in whichever of the two ways it is mounted, is answered as on the first day. -/
theorem C184_same_answer (calls : List (ApiCall σ)) (hk : ∀ c ∈ calls, ∀ f ∈ handlersOf c.fn, KeepsTypes f) (s : Server σ)
    (hs : madeBy calls = .ok s) (evs : List (Nat × Env)) (w w' : World σ) (rs : List (Nat × Served σ))
    (hr : worldRun s evs w = .ok (w', rs)) (g : Nat) (ctx : Ctx σ) :
    (∀ file, Suffix file ≠ .ok [] → (staticFileHandler g file { ctx with types := w'.types }).map (·.resp) =
      (staticFileHandler g file { ctx with types := w.types }).map (·.resp)) ∧
    (∀ mount dir, (∀ pre rest, ctx.req.route.path = pre ++ mount ++ rest → Suffix (dir ++ b!"/" ++ rest) ≠ .ok []) →
      (staticDirHandler g mount dir { ctx with types := w'.types }).map (·.resp) =
      (staticDirHandler g mount dir { ctx with types := w.types }).map (·.resp)) :=
  have h := grown_run calls hk s hs evs w w' rs hr
  ⟨fun file hne => file_same h g file hne ctx, fun mount dir hne => dir_same h g mount dir ctx hne⟩

example : Suffix b!"www//a.md" ≠ .ok [] := by decide

example : ∀ pre rest, b!"/s/a.md" = pre ++ b!"/s" ++ rest → Suffix (b!"www" ++ b!"/" ++ rest) ≠ .ok [] := by
  intro pre rest h
  match pre, h with
  | [], h =>
    have : rest = b!"/a.md" := by simpa using h.symm
    subst this
    decide
  | [_], h => simp at h
  | [_, _], h => simp at h
  | [_, _, _], h => simp at h
  | [_, _, _, _], h => simp at h
  | [_, _, _, _, _], h => simp at h
  | _ :: _ :: _ :: _ :: _ :: _ :: l, h =>
    have := congrArg List.length h
    simp at this
    omega

end Cppnet
