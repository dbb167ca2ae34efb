import Verif.Proofs.Msg

/-!
# C21, C22: routes
-/

namespace Cppnet
open Spec

/-- C21 for targets below 2 GiB: parsing succeeds; the path is the text before the first `?`; without
a `?` the parameters stay as they were; otherwise every `&`-separated item stores the decoded text
after its first `=` under the text before it, the last item of a name wins, other names keep their
old value.  Missing from the full property: longer targets (see the refutation). -/
theorem C21_route_parse_partial (r : HttpRoute) (s : Str) (hs : s ≠ []) (hl : s.length < 2 ^ 31) :
    ∃ r', routeParse r s = .ok (r', kSuccess) ∧ r'.path = before 63 s ∧
      (63 ∉ s → ∀ k, r'.params.get k = r.params.get k) ∧
      (63 ∈ s → ∀ items, Pieces b!"&" (after 63 s) items → ∀ k,
        r'.params.get k =
          (lastFor k (items.map (fun i => (before 61 i, UrlDecode (after 61 i))))).or (r.params.get k)) := by
  refine ⟨routeResult r s, routeParse_eq r s hs ?_, ?_, ?_, ?_⟩
  · intro h; have := length_cut h; omega
  · unfold routeResult; split
    · rfl
    · rename_i h; simp [before_none h]
  · intro h k; simp [routeResult, h]
  · intro h items hi k
    rw [← pieces_unique (by simp) hi]
    simp only [routeResult, h, if_true]
    exact get_setAll_last _ _ _

/-- C21: the empty target is rejected and changes nothing. -/
theorem C21_route_parse_empty (r : HttpRoute) : routeParse r [] = .ok (r, kLogicErr) := routeParse_empty r

/-- C21 is false for huge targets: a `?` at position 2^31 (2 GiB) does not fit the `int` it is stored in,
and `Parse` throws; one position earlier the signed addition overflows. -/
theorem C21_route_parse_huge_refuted (r : HttpRoute) (path query : Str) (h : 63 ∉ path)
    (hq : query.length < 2 ^ 31) :
    (path.length = 2 ^ 31 → routeParse r (path ++ 63 :: query) = .error .outOfRange) ∧
    (path.length = 2 ^ 31 - 1 → routeParse r (path ++ 63 :: query) = .error .ub) := by
  have hf : find (path ++ 63 :: query) b!"?" = some path.length := by
    rw [find_zero]; exact findAux_byte_append h
  have hne : path ++ 63 :: query ≠ [] := by simp
  constructor
  · intro hl
    have e1 : toInt32 (2 ^ 31) = -2147483648 := by decide
    have e2 : intToSize (-2147483648 + 1) = 2 ^ 64 - 2147483647 := by decide
    have e3 : substrFrom (path ++ 63 :: query) (2 ^ 64 - 2147483647) = .error .outOfRange := by
      unfold substrFrom
      rw [if_neg]
      simp only [List.length_append, List.length_cons, hl]
      omega
    simp only [routeParse, hf, hl, e1, e2, hne, if_false]
    rw [if_neg (by decide), if_neg (by decide), e3]
    rfl
  · intro hl
    have e1 : toInt32 (2 ^ 31 - 1) = intMax := by decide
    simp only [routeParse, hf, hl, e1, hne, if_false]
    rw [if_neg (by decide)]
    simp

/-- Such paths exist. -/
theorem long_path (n : Nat) : ∃ path : Str, 63 ∉ path ∧ 32 ∉ path ∧ 13 ∉ path ∧ path.length = n := by
  refine ⟨List.replicate n 97, ?_, ?_, ?_, List.length_replicate⟩ <;>
    (intro h; have := List.eq_of_mem_replicate h; cases this)

example : routeParse { path := b!"/old", params := UMap.empty.set b!"z" b!"0" } b!"/p?a=1%202&b&a=x=y+?" =
    .ok ({ path := b!"/p", params := ((UMap.empty.set b!"z" b!"0").set b!"a" b!"x=y ?").set b!"b" [] },
      kSuccess) := by decide +kernel

theorem WireRoute.toString {o : HashOrder} {r : HttpRoute} (h : WireRoute r.path r.params) :
    routeToString o r = r.path ++ (if o.order r.params = [] then [] else
      63 :: joinWith b!"&" ((o.order r.params).map (fun p => p.1 ++ 61 :: UrlEncode p.2))) := by
  obtain ⟨h1, h2, h3, h4⟩ := h
  unfold routeToString
  rw [UrlEncode_append, UrlEncode_plain (fun c hc => (h3 c hc).1)]
  congr 1
  by_cases he : r.params.entries = []
  · simp [he, (UMap.order_eq_nil o r.params).2 he, UrlEncode]
  · have ho : o.order r.params ≠ [] := fun hh => he ((UMap.order_eq_nil o r.params).1 hh)
    simp only [he, ho, if_false]
    have := flatten_paramText _ ho 63
    simp only [List.cons_append, List.nil_append, this]
    rw [show ∀ t : Str, UrlEncode (63 :: t) = 63 :: UrlEncode t from fun t => rfl, UrlEncode_join]
    congr 2
    rw [List.map_map]
    apply List.map_congr_left
    intro p hp
    have hk := (h4 p.1 p.2 ((UMap.mem_order o _ p).1 hp)).1
    simp only [Function.comp_apply]
    rw [UrlEncode_append, UrlEncode_plain (fun c hc => (hk c hc).1)]
    rfl

theorem WireRoute.result {o : HashOrder} {r : HttpRoute} (h : WireRoute r.path r.params) :
    routeToString o r ≠ [] ∧
    (63 ∈ routeToString o r → (before 63 (routeToString o r)).length < 2 ^ 31 - 1) ∧
    ∃ r', routeResult {} (routeToString o r) = r' ∧ r'.path = r.path ∧ SameMap r'.params r.params := by
  have ht := WireRoute.toString (o := o) h
  obtain ⟨h1, h2, h3, h4⟩ := h
  rw [ht]
  have h63 : 63 ∉ r.path := fun hh => (h3 63 hh).2 rfl
  by_cases ho : o.order r.params = []
  · simp only [ho, if_true, List.append_nil]
    refine ⟨h1, fun hh => absurd hh h63, _, rfl, ?_, ?_⟩
    · simp [routeResult, h63]
    · intro k
      have := UMap.get_order o r.params k
      rw [ho] at this
      simp [routeResult, h63, ← this]
  · simp only [ho, if_false]
    refine ⟨by simp, ?_, _, rfl, ?_, ?_⟩
    · intro _; rw [before_append h63]; exact h2
    · simp [routeResult, before_append h63]
    · intro k
      have hpieces : ∀ p ∈ (o.order r.params).map (fun p => p.1 ++ 61 :: UrlEncode p.2), 38 ∉ p := by
        intro p hp
        obtain ⟨q, hq, rfl⟩ := List.mem_map.1 hp
        obtain ⟨a, b⟩ := h4 q.1 q.2 ((UMap.mem_order o _ q).1 hq)
        simp only [List.mem_append, List.mem_cons, not_or]
        exact ⟨fun hh => (a 38 hh).2.2 rfl, by decide, amp_not_mem_encode b⟩
      simp only [routeResult, List.mem_append, List.mem_cons, true_or, or_true, if_true,
        after_append h63]
      rw [split_join_byte (by simpa using ho) hpieces, List.map_map]
      have : (o.order r.params).map (paramField ∘ fun p => p.1 ++ 61 :: UrlEncode p.2) = o.order r.params := by
        conv => rhs; rw [← List.map_id (o.order r.params)]
        apply List.map_congr_left
        intro p hp
        have a := (h4 p.1 p.2 ((UMap.mem_order o _ p).1 hp)).1
        have hk : 61 ∉ p.1 := fun hh => (a 61 hh).2.1 rfl
        simp [paramField, before_append hk, after_append hk, UrlDecode_UrlEncode]
      rw [this, UMap.get_setAll_order]
      simp

/-- C22: the text of a route is parsed back to the same path and parameters, in whatever order the
parameters were written. -/
theorem C22_round_trip (o : HashOrder) (r : HttpRoute) (h : WireRoute r.path r.params) :
    ∃ r', routeParse {} (routeToString o r) = .ok (r', kSuccess) ∧ r'.path = r.path ∧
      SameMap r'.params r.params := by
  obtain ⟨h1, h2, r', h3, h4, h5⟩ := WireRoute.result (o := o) h
  exact ⟨r', by rw [routeParse_eq _ _ h1 h2, h3], h4, h5⟩

def demoRoute : HttpRoute :=
  { path := b!"/a/b.c", params := (UMap.empty.set b!"q?" b!"1 =\r\n+%").set b!"" [] }

example : WireRoute demoRoute.path demoRoute.params ∧
    routeToString .reversed demoRoute = b!"/a/b.c?=&q?=1+=%0D%0A%2B%25" := by
  refine ⟨⟨by decide, by decide, by decide +kernel, ?_⟩, by decide +kernel⟩
  intro k v hkv
  have := (UMap.get_iff_mem _ _ _).1 hkv
  have : (k, v) = (b!"q?", b!"1 =\r\n+%") ∨ (k, v) = (b!"", b!"") := by
    have e : demoRoute.params.entries = [(b!"q?", b!"1 =\r\n+%"), (b!"", b!"")] := by decide +kernel
    rw [e] at this
    simpa using this
  rcases this with e | e <;> cases e <;> decide +kernel

/-! ### C70 -/

/-- C70 is false: `ToString` escapes the path, `Parse` does not undo it. -/
theorem C70_path_not_decoded_refuted :
    (routeParse {} (routeToString .insertion { path := b!"/a b" })).map (fun x => x.1.path) = .ok b!"/a+b" := by
  decide +kernel

/-- C70, what holds: without parameters, a path without `?` comes back in its escaped form (hence as it
was exactly when no byte needs escaping). -/
theorem C70_path_escaped_partial (o : HashOrder) (path : Str) (hne : path ≠ []) (hq : 63 ∉ path) :
    ∃ r', routeParse {} (routeToString o { path := path }) = .ok (r', kSuccess) ∧
      r'.path = UrlEncode path ∧ r'.params = UMap.empty ∧ ((∀ c ∈ path, Plain c) → r'.path = path) := by
  have e : routeToString o { path := path } = UrlEncode path := by
    simp [routeToString, UMap.empty]
  have hb : ∀ c : Byte, c ≠ 63 → 63 ∉ urlEncodeByte c ∧ urlEncodeByte c ≠ [] := by decide +kernel
  have h1 : 63 ∉ UrlEncode path := by
    clear hne e
    induction path with
    | nil => simp [UrlEncode]
    | cons c v ih =>
      simp only [List.mem_cons, not_or] at hq
      simp only [UrlEncode, List.mem_append, not_or]
      exact ⟨(hb c (Ne.symm hq.1)).1, ih hq.2⟩
  have h2 : UrlEncode path ≠ [] := by
    cases path with
    | nil => exact absurd rfl hne
    | cons c v =>
      simp only [List.mem_cons, not_or] at hq
      simp [UrlEncode, (hb c (Ne.symm hq.1)).2]
  rw [e, routeParse_plain _ _ h2 h1]
  exact ⟨_, rfl, rfl, rfl, fun h => UrlEncode_plain h⟩

example : UrlEncode b!"/a b" = b!"/a+b" := by decide +kernel

end Cppnet
