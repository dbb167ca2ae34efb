import Verif.Proofs.Server

/-!
# C40–C42: routing
-/

namespace Cppnet
open Spec
variable {σ : Type}

/-! ### C40 -/

theorem separateAll_snoc (earlier : List Str) (regs : List (Reg σ)) (r : Reg σ) :
    SeparateAll earlier (regs ++ [r]) ↔
      SeparateAll earlier regs ∧ Separate (earlier ++ regs.map Reg.full) r := by
  induction regs generalizing earlier with
  | nil => simp [SeparateAll]
  | cons x xs ih => simp [SeparateAll, ih, and_assoc]

/-- The entries registered on a path, in order. -/
def entriesOn (regs : List (Reg σ)) (k : Str) : List (Entry σ) :=
  (regs.filter fun r => r.full = k).map (·.entry)

theorem entriesOn_snoc (regs : List (Reg σ)) (r : Reg σ) (k : Str) :
    entriesOn (regs ++ [r]) k = entriesOn regs k ++ if k = r.full then [r.entry] else [] := by
  unfold entriesOn
  rw [List.filter_append, List.map_append]
  by_cases h : r.full = k
  · simp [h]
  · have : ¬ k = r.full := fun e => h e.symm
    simp [h, this]

theorem entriesOn_nil {regs : List (Reg σ)} {k : Str} (h : k ∉ regs.map Reg.full) : entriesOn regs k = [] := by
  unfold entriesOn
  rw [List.filter_eq_nil_iff.2]
  · rfl
  · intro r hr
    simp only [decide_eq_true_eq]
    intro e
    exact h (e ▸ List.mem_map.2 ⟨r, hr, rfl⟩)

/-- With separate registrations, the table holds for each path the entries registered on it. -/
theorem tableRun_separate {regs : List (Reg σ)} {m} (h : TableRun regs m) (hs : SeparateAll [] regs) :
    ∀ k, m k = if k ∈ regs.map Reg.full then some (entriesOn regs k) else none := by
  induction h with
  | nil => simp
  | @snoc regs m r m' hrun hstep ih =>
    rw [separateAll_snoc] at hs
    obtain ⟨h1, h2⟩ := hs
    simp only [List.nil_append] at h2
    replace ih := ih h1
    have hsome : ∀ k, (m k).isSome = true ↔ k ∈ regs.map Reg.full := by
      intro k; rw [ih]; by_cases hk : k ∈ regs.map Reg.full <;> simp only [hk, if_true, if_false] <;> simp
    have hdone : (∃ m'', m' = m'' ∧ m'' = fun k => if k = r.full then (m k).map (· ++ [r.entry]) else m k) ∧
          r.full ∈ regs.map Reg.full ∨
        (m' = fun k => if k = r.full then some [r.entry] else m k) ∧ r.full ∉ regs.map Reg.full →
        ∀ k, m' k = if k ∈ (regs ++ [r]).map Reg.full then some (entriesOn (regs ++ [r]) k) else none := by
      have hmem : ∀ k, k ∈ (regs ++ [r]).map Reg.full ↔ k ∈ regs.map Reg.full ∨ k = r.full := by
        intro k; simp only [List.map_append, List.map_cons, List.map_nil, List.mem_append, List.mem_singleton]
      rintro (⟨⟨m'', rfl, rfl⟩, hin⟩ | ⟨rfl, hnin⟩) k
      · by_cases hk : k = r.full
        · subst hk
          simp only [if_true, hmem, or_true, entriesOn_snoc]
          rw [ih, if_pos hin]; rfl
        · simp only [hk, if_false, hmem, or_false, entriesOn_snoc, List.append_nil]
          exact ih k
      · by_cases hk : k = r.full
        · subst hk
          simp only [if_true, hmem, or_true, entriesOn_snoc, entriesOn_nil hnin, List.nil_append]
        · simp only [hk, if_false, hmem, or_false, entriesOn_snoc, List.append_nil]
          exact ih k
    apply hdone
    by_cases hr : r.route = []
    · have hfull : r.full = r.path := by simp [Reg.full, hr]
      rw [Separate, if_pos hr] at h2
      rcases hstep with ⟨p, hf, rfl⟩ | ⟨hn, rfl⟩
      · left
        have hp : p = r.full := by
          rw [hfull]
          rcases hf with ⟨e1, e2, _⟩ | ⟨e1, e2⟩
          · rw [e1, e2]
          · rcases h2 with h2 | h2 | h2
            · exact absurd h2 e1
            · have : p <+: r.path := e2.2.2 r.path (List.prefix_refl _) ((hsome _).2 h2)
              exact List.IsPrefix.eq_of_length this (Nat.le_antisymm this.length_le e2.1.length_le)
            · exact absurd e2.1 (h2 p ((hsome _).1 e2.2.1))
        refine ⟨⟨_, rfl, by rw [hp]⟩, ?_⟩
        rcases hf with ⟨e1, e2, e3⟩ | ⟨e1, e2⟩
        · rw [hfull, e1]; exact (hsome _).1 e3
        · rw [← hp]; exact (hsome _).1 e2.2.1
      · right
        refine ⟨rfl, fun hin => hn ?_⟩
        rw [hfull] at hin
        by_cases hp : r.path = []
        · exact ⟨[], Or.inl ⟨hp, rfl, (hsome _).2 (hp ▸ hin)⟩⟩
        · exact ⟨r.path, Or.inr ⟨hp, List.prefix_refl _, (hsome _).2 hin, fun q hq _ => hq⟩⟩
    · rw [Separate, if_neg hr] at h2
      obtain ⟨h2, h3⟩ := h2
      rcases hstep with ⟨p, hf, rfl⟩ | ⟨hn, rfl⟩
      · exfalso
        rcases hf with ⟨e1, e2, e3⟩ | ⟨e1, e2⟩
        · rw [if_pos e1] at h3; exact h3 ((hsome _).1 e3)
        · rw [if_neg e1] at h3
          exact h3 p ((hsome _).1 e2.2.1) e2.1
      · right; exact ⟨rfl, h2⟩

/-- C40, what holds: if no registration collides with an earlier one (`SeparateAll`), all paths are ASCII
and so is the request path, the server calls exactly the handlers the property demands, in that order.
Missing: colliding registrations, for which the property is false (see below), and non-ASCII bytes (C11,
C46). -/
theorem C40_routing_partial (regs : List (Reg σ)) (ha : AsciiRegs regs) (hs : SeparateAll [] regs) :
    ∃ s, registerAll regs = .ok s ∧ ∀ path, Ascii path → ∀ ctx : Ctx σ,
      dispatch s path ctx = runInOrder (candidates regs path) ctx := by
  obtain ⟨s, m, h1, h2, h3⟩ := registerAll_spec regs ha
  refine ⟨s, h1, fun path hp ctx => ?_⟩
  rw [dispatch_table h3 path hp]
  congr 1
  unfold tableCandidates candidates
  congr 1
  funext i
  rw [tableRun_separate h2 hs]
  have hl : ((if path.take i ∈ regs.map Reg.full then some (entriesOn regs (path.take i)) else none).getD []) =
      entriesOn regs (path.take i) := by
    split
    · rfl
    · rename_i hn; rw [entriesOn_nil hn]; rfl
  rw [hl]
  unfold entriesOn
  rw [List.filter_map, List.filter_filter]
  congr 1
  apply List.filter_congr
  intro r _
  simp only [Function.comp, Bool.decide_and, Bool.and_comm]

/-- What the code does for arbitrary (ASCII) registrations: the table it builds is the one of
`TableStep`, which looks for the path without the group's prefix, finds longer paths too, and replaces
instead of appending. -/
theorem C40_exact_partial (regs : List (Reg σ)) (ha : AsciiRegs regs) :
    ∃ s m, registerAll regs = .ok s ∧ TableRun regs m ∧ ∀ path, Ascii path → ∀ ctx : Ctx σ,
      dispatch s path ctx = runInOrder (tableCandidates m path) ctx := by
  obtain ⟨s, m, h1, h2, h3⟩ := registerAll_spec regs ha
  exact ⟨s, m, h1, h2, fun path hp ctx => dispatch_table h3 path hp ctx⟩

/-- A handler that records its number. -/
def note (n : Nat) : Option (Handler (List Nat)) := some fun c => .ok { c with user := c.user ++ [n] }

/-- The numbers of the handlers called for a request of a method to a path. -/
def calledFor (regs : List (Reg (List Nat))) (m : HttpMethod) (path : Str) : Out (List Nat) := do
  let s ← registerAll regs
  let c ← dispatch s path { req := { method := m }, conn := ⟨[], 0⟩, user := [] }
  .ok c.user

/-- The numbers of the handlers the property demands. -/
def demandedFor (regs : List (Reg (List Nat))) (m : HttpMethod) (path : Str) : Out (List Nat) := do
  let c ← runInOrder (candidates regs path) { req := { method := m }, conn := ⟨[], 0⟩, user := [] }
  .ok c.user

/-- A server with middleware, an exact handler, a group with middleware and two handlers, and a filter. -/
def demoRegs : List (Reg (List Nat)) :=
  [⟨[], [], ⟨note 0, false, []⟩⟩, ⟨[], b!"/hello", ⟨note 1, true, []⟩⟩, ⟨[], b!"/hello", ⟨note 2, true, [methodFilter .POST]⟩⟩,
   ⟨b!"/api", b!"/x", ⟨note 3, true, []⟩⟩, ⟨b!"/api", b!"/xy", ⟨note 4, false, []⟩⟩, ⟨[], b!"/helloworld", ⟨none, true, []⟩⟩]

example : AsciiRegs demoRegs ∧ SeparateAll [] demoRegs := by
  decide +kernel
example : calledFor demoRegs .GET b!"/hello" = .ok [0, 1] ∧ calledFor demoRegs .POST b!"/hello" = .ok [0, 1, 2] ∧
    calledFor demoRegs .GET b!"/api/xyz" = .ok [0, 4] ∧ calledFor demoRegs .GET b!"/api/x" = .ok [0, 3] := by
  decide +kernel

/-- C40 is false: of two handlers registered on the same path of a group only the second one is called. -/
theorem C40_group_overwrites_refuted :
    let regs : List (Reg (List Nat)) := [⟨b!"/api", b!"/x", ⟨note 1, true, []⟩⟩, ⟨b!"/api", b!"/x", ⟨note 2, true, []⟩⟩]
    demandedFor regs .GET b!"/api/x" = .ok [1, 2] ∧ calledFor regs .GET b!"/api/x" = .ok [2] := by
  decide +kernel

/-- C40 is false: a handler registered on a prefix of an earlier path is called for the longer path and
not for its own. -/
theorem C40_prefix_hijacked_refuted :
    let regs : List (Reg (List Nat)) := [⟨[], b!"/hello", ⟨note 1, true, []⟩⟩, ⟨[], b!"/hel", ⟨note 2, true, []⟩⟩]
    demandedFor regs .GET b!"/hel" = .ok [2] ∧ calledFor regs .GET b!"/hel" = .ok [] ∧
    demandedFor regs .GET b!"/hello" = .ok [1] ∧ calledFor regs .GET b!"/hello" = .ok [1, 2] := by
  decide +kernel

/-- C40 is false: once the server has middleware, the middleware of a group runs for every request. -/
theorem C40_group_middleware_escapes_refuted :
    let regs : List (Reg (List Nat)) := [⟨[], [], ⟨note 1, false, []⟩⟩, ⟨b!"/admin", [], ⟨note 2, false, []⟩⟩]
    demandedFor regs .GET b!"/other" = .ok [1] ∧ calledFor regs .GET b!"/other" = .ok [1, 2] := by
  decide +kernel

theorem foldl_groupRoute (gs : List Str) (r : Str) : gs.foldl groupRoute r = r ++ gs.flatten := by
  induction gs generalizing r with
  | nil => simp
  | cons g gs ih => simp [groupRoute, ih]

theorem methodFilter_only (m : HttpMethod) :
    methodFilter m = fun req => .ok (decide (req.method = m)) := by
  funext r
  simp only [methodFilter]
  by_cases h : r.method = m <;> simp [h]

theorem perform_meant (c : ApiCall σ) (h : byMethod c = false) (s : Server σ) :
    c.perform s = (meant c).foldlM (fun s r => registerHandler r.route r.path r.entry s) s := by
  obtain ⟨groups, g, fn⟩ := c
  cases fn <;> simp only [byMethod, Bool.true_eq_false] at h <;>
    simp only [ApiCall.perform, meant, foldl_groupRoute, List.nil_append, List.foldlM_cons, List.foldlM_nil, bind_pure,
      groupUse, groupStaticDir, groupStaticFile, registerHandlers, methodFilter_only, List.foldlM_map]

theorem performAll_meant (cs : List (ApiCall σ)) (h : ∀ c ∈ cs, byMethod c = false) (s : Server σ) :
    cs.foldlM (fun s c => c.perform s) s =
      (cs.flatMap meant).foldlM (fun s r => registerHandler r.route r.path r.entry s) s := by
  induction cs generalizing s with
  | nil => rfl
  | cons c cs ih =>
    rw [List.flatMap_cons, List.foldlM_append, List.foldlM_cons, perform_meant c (h c (by simp))]
    congr 1
    funext s'
    exact ih (fun c hc => h c (by simp [hc])) s'

/-- C40 for the calls a user makes: whatever groups are nested and whichever of `RegisterHandler`, `Use`,
`StaticDir` and `StaticFile` are called, with one callback or several, the server calls exactly the handlers
the calls are meant to register.  Missing: GET and POST (C41), collisions, non-ASCII bytes. -/
theorem C40_api_partial (cs : List (ApiCall σ)) (hm : ∀ c ∈ cs, byMethod c = false)
    (ha : AsciiRegs (cs.flatMap meant)) (hs : SeparateAll [] (cs.flatMap meant)) :
    ∃ s, cs.foldlM (fun s c => c.perform s) {} = .ok s ∧ ∀ path, Ascii path → ∀ ctx : Ctx σ,
      dispatch s path ctx = runInOrder (candidates (cs.flatMap meant) path) ctx := by
  obtain ⟨s, h1, h2⟩ := C40_routing_partial (cs.flatMap meant) ha hs
  exact ⟨s, by rw [performAll_meant cs hm]; exact h1, h2⟩

/-- Middleware, a list of callbacks, a nested group with middleware. -/
def demoCalls : List (ApiCall (List Nat)) :=
  [{ fn := .use (note 0) [] }, { fn := .registers b!"/x" [note 1, note 2] [] true },
   { groups := [b!"/a", b!"/b"], fn := .register b!"/c" (note 3) [methodFilter .POST] true },
   { groups := [b!"/a"], fn := .staticDir b!"/s" b!"dir" [] }]

example : (∀ c ∈ demoCalls, byMethod c = false) ∧ AsciiRegs (demoCalls.flatMap meant) ∧
    SeparateAll [] (demoCalls.flatMap meant) := by decide +kernel

/-! ### C41 -/

/-- C41 is false: GET and POST do the same thing, namely register for every method. -/
theorem C41_method_dropped_refuted (route path : Str) (cb : Option (Handler σ)) (fs : List Filter) (s : Server σ) :
    groupGET route path cb fs s = groupPOST route path cb fs s ∧
    groupGET route path cb fs s = registerHandler route path { callback := cb, filters := fs } s := ⟨rfl, rfl⟩

/-- The same for lists of callbacks. -/
theorem C41_lists_refuted (route path : Str) (cbs : List (Option (Handler σ))) (fs : List Filter) (s : Server σ) :
    groupGETs route path cbs fs s = registerHandlers route path cbs fs true s ∧
    groupPOSTs route path cbs fs s = registerHandlers route path cbs fs true s := ⟨rfl, rfl⟩

/-- … so a DELETE request reaches a handler registered with GET. -/
theorem C41_delete_reaches_get_refuted :
    (do
      let s ← groupGET [] b!"/x" (note 1) [] {}
      let c ← dispatch s b!"/x" { req := { method := .DELETE }, conn := ⟨[], 0⟩, user := [] }
      .ok c.user : Out (List Nat)) = .ok [1] := by decide +kernel

theorem accepts_method {req : HttpReq} {fs : List Filter} {m : HttpMethod} (hm : methodFilter m ∈ fs)
    (h : accepts req fs = .ok true) : req.method = m := by
  induction fs with
  | nil => simp at hm
  | cons f fs ih =>
    simp only [accepts, bind, Except.bind] at h
    cases hf : f req with
    | error e => simp [hf] at h
    | ok b =>
      rw [hf] at h
      cases b with
      | false => simp at h
      | true =>
        rcases List.mem_cons.1 hm with e | hm
        · subst e
          simpa [methodFilter] using hf
        · exact ih hm (by simpa using h)

theorem accepts_total {req : HttpReq} {fs : List Filter} (h : ∀ f ∈ fs, ∃ b, f req = .ok b) :
    ∃ b, accepts req fs = .ok b := by
  induction fs with
  | nil => exact ⟨_, rfl⟩
  | cons f fs ih =>
    obtain ⟨b, hb⟩ := h f (by simp)
    simp only [accepts, hb, bind, Except.bind]
    cases b with
    | false => exact ⟨false, rfl⟩
    | true => simpa using ih fun g hg => h g (by simp [hg])

/-- C41, the part that holds: a handler that carries a method filter among its filters (as the static
handlers do, and as callers can pass explicitly) is skipped for a request with another method. -/
theorem C41_explicit_filter_partial (e : Entry σ) (es : List (Entry σ)) (ctx : Ctx σ) (m : HttpMethod)
    (hm : methodFilter m ∈ e.filters) (hne : ctx.req.method ≠ m) (ht : ∀ f ∈ e.filters, ∃ b, f ctx.req = .ok b) :
    runInOrder (e :: es) ctx = runInOrder es ctx := by
  obtain ⟨b, hb⟩ := accepts_total ht
  cases b with
  | true => exact absurd (accepts_method hm hb) hne
  | false => simp [runInOrder, hb, bind, Except.bind]

/-- The static handlers are registered with the filter. -/
theorem C41_static_partial (g : Nat) (route path file : Str) (fs : List Filter) (s : Server σ) :
    (∃ e : Entry σ, methodFilter .GET ∈ e.filters ∧
      groupStaticFile g route path file fs s = registerHandler route path e s) ∧
    (∃ e : Entry σ, methodFilter .GET ∈ e.filters ∧
      groupStaticDir g route path file fs s = registerHandler route path e s) :=
  ⟨⟨_, by simp, rfl⟩, ⟨_, by simp, rfl⟩⟩

example : calledFor [⟨[], b!"/x", ⟨note 1, true, [methodFilter .GET]⟩⟩] .DELETE b!"/x" = .ok [] ∧
    calledFor [⟨[], b!"/x", ⟨note 1, true, [methodFilter .GET]⟩⟩] .GET b!"/x" = .ok [1] := by decide +kernel

/-! ### C42 -/

/-- C42 is false: whatever the first handler does to the context's continue flag, the second one runs
on the context it leaves. -/
theorem C42_abort_ignored_refuted (f g : Handler σ) (ctx c1 : Ctx σ) (h1 : f ctx = .ok c1) (h2 : c1.running = true)
    (h3 : c1.isContinue = false) (path : Str) (hp : Ascii path) :
    ∃ s, registerAll [⟨[], [], ⟨some f, false, []⟩⟩, ⟨[], [], ⟨some g, false, []⟩⟩] = .ok s ∧
      dispatch s path ctx = g c1 := by
  obtain ⟨s, hs, hd⟩ := C40_routing_partial
    ([⟨[], [], ⟨some f, false, []⟩⟩, ⟨[], [], ⟨some g, false, []⟩⟩] : List (Reg σ))
    (by intro r hr; simp only [List.mem_cons, List.not_mem_nil, or_false] at hr
        rcases hr with rfl | rfl <;> exact ⟨by simp [Ascii], by simp [Ascii]⟩)
    (by simp [SeparateAll, Separate])
  refine ⟨s, hs, ?_⟩
  rw [hd path hp ctx]
  have hc : candidates ([⟨[], [], ⟨some f, false, []⟩⟩, ⟨[], [], ⟨some g, false, []⟩⟩] : List (Reg σ)) path =
      [⟨some f, false, []⟩, ⟨some g, false, []⟩] := by
    unfold candidates
    rw [List.range_succ_eq_map, List.flatMap_cons]
    have : ∀ i, ([⟨[], [], ⟨some f, false, []⟩⟩, ⟨[], [], ⟨some g, false, []⟩⟩] : List (Reg σ)).filter
        (fun r => r.full = path.take (i + 1) ∧ (r.entry.exact = true → i + 1 = path.length)) =
        if path.take (i + 1) = [] then
          [⟨[], [], ⟨some f, false, []⟩⟩, ⟨[], [], ⟨some g, false, []⟩⟩] else [] := by
      intro i
      by_cases h : path.take (i + 1) = []
      · simp [Reg.full, h]
      · have : ¬ [] = path.take (i + 1) := fun e => h e.symm
        simp [Reg.full, h, this]
    rw [List.flatMap_map]
    simp only [Nat.succ_eq_add_one, this]
    have hz : (List.range path.length).flatMap (fun i => (if path.take (i + 1) = [] then
          ([⟨[], [], ⟨some f, false, []⟩⟩, ⟨[], [], ⟨some g, false, []⟩⟩] : List (Reg σ)) else []).map (·.entry)) = [] := by
      rw [List.flatMap_eq_nil_iff]
      intro i hi
      have : path.take (i + 1) ≠ [] := by
        have := List.mem_range.1 hi
        intro e
        have := congrArg List.length e
        simp only [List.length_take, List.length_nil] at this
        omega
      simp [this]
    rw [hz]
    simp [Reg.full]
  rw [hc]
  simp only [runInOrder, accepts, h1, h2, bind, Except.bind]
  cases hg : g c1 with
  | error e => rfl
  | ok c2 => cases h : c2.running <;> simp [h]

/-- C42, what does stop the chain: a handler that stops the server. -/
theorem C42_server_stop_partial (e : Entry σ) (f : Handler σ) (es : List (Entry σ)) (ctx c1 : Ctx σ)
    (he : e.callback = some f) (ha : accepts ctx.req e.filters = .ok true) (h1 : f ctx = .ok c1)
    (h2 : c1.running = false) : runInOrder (e :: es) ctx = .ok c1 := by
  simp [runInOrder, ha, he, h1, h2, bind, Except.bind]

/-- C42, what `Next` and `Abort` do: after any calls of the two, `is_continue()` tells which one came last (before the first call: as if
`Abort` had). -/
theorem C42_flag_partial (ctx : Ctx σ) (h : ctx.isContinue = false) (calls : List Bool) :
    (calls.foldl (fun c next => if next then c.next else c.abort) ctx).isContinue = calls.getLast?.getD false := by
  rcases List.eq_nil_or_concat calls with rfl | ⟨front, b, rfl⟩
  · exact h
  · cases b <;> simp [Ctx.next, Ctx.abort]

example : ((([true, true, false] : List Bool).foldl (fun c next => if next then c.next else c.abort)
    ({ req := {}, conn := ⟨[], 0⟩, user := () } : Ctx Unit)).isContinue) = false := by decide

/-- An aborting handler and one that records. -/
example : (do
      let s ← registerAll [⟨[], [], ⟨some fun c => .ok c.next.abort, false, []⟩⟩, ⟨[], b!"/x", ⟨note 2, true, []⟩⟩]
      let c ← dispatch s b!"/x" { req := {}, conn := ⟨[], 0⟩, user := [] }
      .ok (c.user, c.isContinue) : Out (List Nat × Bool)) = .ok ([2], false) := by decide +kernel

end Cppnet
