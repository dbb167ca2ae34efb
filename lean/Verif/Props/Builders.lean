import Verif.Props.Req
import Verif.Spec.Builders
import Verif.Proofs.Socket
import Mathlib.Data.List.Induction

/-!
# C140, C141, C142: filling in headers, routes and requests
-/

namespace Cppnet
open Spec

/-! ### C140 -/

theorem sinceClear_snoc {α : Type} [DecidableEq α] (clear : α) (calls : List α) (c : α) :
    sinceClear clear (calls ++ [c]) = if c = clear then [] else sinceClear clear calls ++ [c] := by
  unfold sinceClear
  by_cases h : c = clear
  · simp [h]
  · simp [h]

theorem lastFor_snoc (k : Str) (l : List (Str × Str)) (p : Str × Str) :
    lastFor k (l ++ [p]) = if p.1 = k then some p.2 else lastFor k l := by
  unfold lastFor
  by_cases h : p.1 = k <;> simp [List.filter_append, h]

theorem headerIndex_get (h : HttpHeader) (k k' : Str) : headerGet (headerIndex h k).1 k' = headerGet h k' := by
  unfold headerIndex
  cases hk : h.get k with
  | some v => rfl
  | none =>
    simp only [headerGet, UMap.get_set]
    by_cases e : k' = k
    · subst e; simp [hk]
    · simp [e]

theorem headerGet_set (h : HttpHeader) (k v k' : Str) :
    headerGet (h.set k v) k' = if k' = k then v else headerGet h k' := by
  unfold headerGet
  rw [UMap.get_set]
  by_cases e : k' = k <;> simp [e]

theorem typeText_call (g g' : UMap) (t : ContentType) (h : g'.getD [] = g.getD []) :
    (contentTypeToStr g' t []).1 = typeText g t ∧ (contentTypeToStr g' t []).2.getD [] = g.getD [] := by
  cases t <;> first
    | exact ⟨by simp [contentTypeToStr, typeText, contentTable], by simpa [contentTypeToStr] using h⟩
    | skip
  have e : typeText g .custom = g.getD [] := by simp [typeText, contentTable]
  rw [e]
  unfold contentTypeToStr
  cases hg : g'.get [] with
  | some v => exact ⟨by rw [← h]; simp [UMap.getD, hg], by simpa using h⟩
  | none => exact ⟨by rw [← h]; simp [UMap.getD, hg], by rw [← h]; simp [UMap.getD, hg]⟩

theorem hdrCalls_snoc (g : UMap) (calls : List HdrCall) (c : HdrCall) :
    hdrCalls g (calls ++ [c]) = hdrCall (hdrCalls g calls) c := by simp [hdrCalls]

theorem storedHeader_snoc (g : UMap) (calls : List HdrCall) (c : HdrCall) (k : Str) :
    storedHeader g (calls ++ [c]) k = if c = .clear then none else
      match HdrStores g c with
      | some (k', v) => if k' = k then some v else storedHeader g calls k
      | none => storedHeader g calls k := by
  unfold storedHeader
  rw [sinceClear_snoc]
  by_cases h : c = .clear
  · simp [h, lastFor]
  · simp only [h, if_false, List.filterMap_append]
    cases hs : HdrStores g c with
    | none => simp [hs]
    | some p => simp [hs, lastFor_snoc]

/-- C140: after any sequence of calls of `Add`, `operator[]`, `SetHost`, `SetContentType`, `SetContentLength`,
`SetLongConnection` and `Clear`, `Get` returns, for every name, the value that was stored last since the last
`Clear`, and the empty string if there is none. -/
theorem C140_headers (g : UMap) (calls : List HdrCall) (k : Str) :
    headerGet (hdrCalls g calls).1 k = (storedHeader g calls k).getD [] := by
  suffices h : (∀ k, headerGet (hdrCalls g calls).1 k = (storedHeader g calls k).getD []) ∧
      (hdrCalls g calls).2.getD [] = g.getD [] from h.1 k
  induction calls using List.reverseRecOn with
  | nil => exact ⟨fun k => rfl, rfl⟩
  | append_singleton calls c ih =>
    rw [hdrCalls_snoc]
    generalize hdrCalls g calls = st at ih ⊢
    obtain ⟨h, g'⟩ := st
    have set : ∀ (k' v k : Str), headerGet (h.set k' v) k =
        (if k' = k then some v else storedHeader g calls k).getD [] := by
      intro k' v k
      rw [headerGet_set, ih.1]
      by_cases e : k = k'
      · simp [e]
      · simp [e, Ne.symm e]
    have tt := typeText_call g g'
    refine ⟨fun k => ?_, ?_⟩
    · rw [storedHeader_snoc]
      cases c with
      | add k' v => exact set k' v k
      | assign k' v =>
        simp only [hdrCall, headerAssign, headerGet_set, headerIndex_get, ih.1, HdrStores]
        by_cases e : k = k'
        · simp [e]
        · simp [e, Ne.symm e]
      | index k' => simpa [HdrStores, hdrCall, headerIndex_get] using ih.1 k
      | setHost v => exact set _ v k
      | setType t =>
        have := set b!"Content-Type" (typeText g t) k
        rw [← (tt t ih.2).1] at this
        simpa [HdrStores, hdrCall, headerSetContentType, (tt t ih.2).1] using this
      | setTypeStr v => exact set _ v k
      | setLength n => exact set _ (intToStr n) k
      | setLong b => exact set _ _ k
      | clear => rfl
    · cases c <;> first
        | exact ih.2
        | skip
      rename_i t
      exact (tt t ih.2).2

/-- C140: the typed readers report what was stored under their name: `GetHost` its text, `GetContentType` the
built-in type with that name, `GetContentLength` the number that was set, -1 if there is none. -/
theorem C140_typed (g : UMap) (calls : List HdrCall) :
    headerGetHost (hdrCalls g calls).1 = (storedHeader g calls b!"Host").getD [] ∧
    (∀ t n fs, (t, n, fs) ∈ contentTable →
      (headerGetContentType (hdrCalls g calls).1 = t ↔ storedHeader g calls b!"Content-Type" = some n)) ∧
    (∀ n : Int, intMin ≤ n → n ≤ intMax → storedHeader g calls b!"Content-Length" = some (intToStr n) →
      headerGetContentLength (hdrCalls g calls).1 = n) ∧
    (storedHeader g calls b!"Content-Length" = none → headerGetContentLength (hdrCalls g calls).1 = -1) := by
  have hh := C140_headers g calls
  generalize (hdrCalls g calls).1 = h at hh
  refine ⟨?_, ?_, ?_, ?_⟩
  · rw [← hh]; unfold headerGetHost headerGet; cases h.get b!"Host" <;> rfl
  · intro t n fs ht
    have hn : n ≠ [] ∧ t ≠ .unknown := by
      simp only [contentTable, List.mem_cons, Prod.mk.injEq, List.not_mem_nil, or_false] at ht
      rcases ht with ⟨rfl, rfl, -⟩ | ⟨rfl, rfl, -⟩ | ⟨rfl, rfl, -⟩ | ⟨rfl, rfl, -⟩ | ⟨rfl, rfl, -⟩ | ⟨rfl, rfl, -⟩ |
        ⟨rfl, rfl, -⟩ | ⟨rfl, rfl, -⟩ | ⟨rfl, rfl, -⟩ | ⟨rfl, rfl, -⟩ <;> decide
    have key : headerGetContentType h = contentTypeOfStr (headerGet h b!"Content-Type") := by
      unfold headerGetContentType headerGet
      cases h.get b!"Content-Type" with
      | none => rfl
      | some v => rfl
    rw [key, hh]
    constructor
    · intro e
      obtain ⟨fs', hf⟩ := (C14_content_types g).2.2 _ t hn.2 e
      have h1 := ((C14_content_types g).1 _ _ _ hf).1 []
      have h2 := ((C14_content_types g).1 _ _ _ ht).1 []
      have h3 : (storedHeader g calls b!"Content-Type").getD [] = n := by
        rw [h1] at h2; exact congrArg Prod.fst h2
      cases hs : storedHeader g calls b!"Content-Type" with
      | none => rw [hs] at h3; exact absurd h3.symm hn.1
      | some v => rw [hs] at h3; simp at h3; rw [h3]
    · intro e
      rw [e]
      exact ((C14_content_types g).1 _ _ _ ht).2.1
  · intro n h1 h2 hs
    have h3 := hh b!"Content-Length"
    rw [hs] at h3
    unfold headerGet at h3
    unfold headerGetContentLength
    cases hc : h.get b!"Content-Length" with
    | none =>
      rw [hc] at h3
      obtain ⟨c, t, e, -⟩ := intToStr_wire n
      rw [e] at h3; simp at h3
    | some v =>
      rw [hc] at h3
      simp only [Option.getD_some] at h3
      simp only [h3, stoi_intToStr n h1 h2]
  · intro hs
    have h3 := hh b!"Content-Length"
    rw [hs] at h3
    unfold headerGet at h3
    unfold headerGetContentLength
    cases hc : h.get b!"Content-Length" with
    | none => rfl
    | some v =>
      rw [hc] at h3
      simp only [Option.getD_none] at h3
      subst h3
      decide +kernel

theorem routeGet_set (r : HttpRoute) (k v k' : Str) :
    routeGetParam { r with params := r.params.set k v } k' = if k' = k then v else routeGetParam r k' := by
  unfold routeGetParam
  simp only [UMap.get_set]
  by_cases e : k' = k <;> simp [e]

theorem routeIndex_get (r : HttpRoute) (k k' : Str) : routeGetParam (routeIndex r k).1 k' = routeGetParam r k' := by
  unfold routeIndex
  cases hk : r.params.get k with
  | some v => rfl
  | none =>
    simp only [routeGet_set]
    by_cases e : k' = k
    · subst e; simp [routeGetParam, hk]
    · simp [e]

theorem routeIndex_path (r : HttpRoute) (k : Str) : (routeIndex r k).1.path = r.path := by
  unfold routeIndex
  split <;> rfl

/-- C140: after any sequence of calls of `AddParam`, `operator[]`, `SetPath` and `Clear`, `GetParam` returns, for
every name, the value that was stored last since the last `Clear`, and the empty string if there is none; `GetPath`
returns the path that was set last. -/
theorem C140_params (calls : List RouteCall) :
    (∀ k, routeGetParam (routeCalls calls) k = (storedParam calls k).getD []) ∧
    routeGetPath (routeCalls calls) = storedPath calls := by
  induction calls using List.reverseRecOn with
  | nil => exact ⟨fun k => rfl, rfl⟩
  | append_singleton calls c ih =>
    have e : routeCalls (calls ++ [c]) = routeCall (routeCalls calls) c := by simp [routeCalls]
    rw [e]
    generalize routeCalls calls = r at ih ⊢
    constructor
    · intro k
      unfold storedParam at ih ⊢
      rw [sinceClear_snoc]
      cases c with
      | add k' v =>
        simp only [routeCall, routeAddParam, routeGet_set, ih.1]
        by_cases e : k = k'
        · simp [e, RouteStores, lastFor_snoc]
        · simp [e, RouteStores, lastFor_snoc, Ne.symm e]
      | assign k' v =>
        simp only [routeCall, routeAssign, routeGet_set, routeIndex_get, ih.1]
        by_cases e : k = k'
        · simp [e, RouteStores, lastFor_snoc]
        · simp [e, RouteStores, lastFor_snoc, Ne.symm e]
      | index k' =>
        have := ih.1 k
        simp only [routeCall, routeIndex_get, this]
        simp [List.filterMap_append, List.filterMap_cons, RouteStores]
      | setPath p =>
        have : routeGetParam (routeCall r (.setPath p)) k = routeGetParam r k := rfl
        rw [this, ih.1 k]
        simp [List.filterMap_append, List.filterMap_cons, RouteStores]
      | clear => simp [routeCall, routeClear, routeGetParam, lastFor]
    · have ih := ih.2
      unfold storedPath routeGetPath at ih ⊢
      rw [sinceClear_snoc]
      cases c with
      | add k' v => simpa [routeCall, routeAddParam] using ih
      | assign k' v => simpa [routeCall, routeAssign, routeIndex_path] using ih
      | index k' => simpa [routeCall, routeIndex_path] using ih
      | setPath p => simp [routeCall, routeSetPath]
      | clear => simp [routeCall, routeClear]

def demoHdrCalls : List HdrCall :=
  [.add b!"Host" b!"a", .clear, .setHost b!"b", .index b!"X", .assign b!"Y" b!"1", .setLength (-7), .setLong false,
   .setType .imagePng, .add b!"Y" b!"2"]

example : storedHeader .empty demoHdrCalls b!"Host" = some b!"b" ∧ storedHeader .empty demoHdrCalls b!"X" = none ∧
    storedHeader .empty demoHdrCalls b!"Y" = some b!"2" ∧
    storedHeader .empty demoHdrCalls b!"Content-Length" = some (intToStr (-7)) ∧
    storedHeader .empty demoHdrCalls b!"Content-Type" = some b!"image/png" ∧
    storedHeader .empty demoHdrCalls b!"Connection" = some b!"close" := by decide +kernel

def demoRouteCalls : List RouteCall :=
  [.setPath b!"/x", .add b!"a" b!"0", .clear, .add b!"a" b!"1", .index b!"b", .setPath b!"/y", .assign b!"a" b!"2"]

example : storedParam demoRouteCalls b!"a" = some b!"2" ∧ storedParam demoRouteCalls b!"b" = none ∧
    storedPath demoRouteCalls = b!"/y" := by decide +kernel

/-! ### C141 -/

/-- C141, the part that holds: reading with `operator[]` gives the value `Get` gives, and changes no value that
`Get` and `GetParam` return; the object is unchanged if the name is there. -/
theorem C141_values_partial (h : HttpHeader) (r : HttpRoute) (k : Str) :
    (headerIndex h k).2 = headerGet h k ∧ (∀ k', headerGet (headerIndex h k).1 k' = headerGet h k') ∧
    (h.get k ≠ none → (headerIndex h k).1 = h) ∧
    (routeIndex r k).2 = routeGetParam r k ∧ (∀ k', routeGetParam (routeIndex r k).1 k' = routeGetParam r k') ∧
    (routeIndex r k).1.path = r.path ∧ (r.params.get k ≠ none → (routeIndex r k).1 = r) := by
  refine ⟨?_, headerIndex_get h k, ?_, ?_, routeIndex_get r k, routeIndex_path r k, ?_⟩
  · unfold headerIndex headerGet; cases h.get k <;> rfl
  · unfold headerIndex; cases h.get k with
    | none => simp
    | some v => simp
  · unfold routeIndex routeGetParam; cases r.params.get k <;> rfl
  · unfold routeIndex; cases r.params.get k with
    | none => simp
    | some v => simp

example : (UMap.empty.set b!"a" b!"1").get b!"a" ≠ none := by decide +kernel

theorem assocSet_new (k v : Str) (m : List (Str × Str)) (h : m.lookup k = none) :
    assocSet k v m = m ++ [(k, v)] := by
  induction m with
  | nil => rfl
  | cons p m ih =>
    obtain ⟨a, b⟩ := p
    rw [List.lookup_cons] at h
    by_cases e : k = a
    · simp [e] at h
    · have : (k == a) = false := by simpa using e
      rw [this] at h
      simp [assocSet, Ne.symm e, ih h]

theorem headerToString_length (o : HashOrder) (h : HttpHeader) :
    (headerToString o h).length = (h.entries.map (fun p => (headerLine p).length)).sum + 2 := by
  have := ((o.perm h).map (fun p => (headerLine p).length)).sum_nat
  simp only [headerToString, List.length_append, List.length_flatten, List.map_map, crlf]
  rw [← this]; rfl

/-- C141 is false: looking up a header that is not there with `operator[]` makes the text of the header longer by a
line for it, for every header and every name. -/
theorem C141_header_refuted (o : HashOrder) (h : HttpHeader) (k : Str) (hk : h.get k = none) :
    (headerToString o (headerIndex h k).1).length = (headerToString o h).length + (k ++ b!": \r\n").length := by
  rw [headerToString_length, headerToString_length]
  have : (headerIndex h k).1.entries = h.entries ++ [(k, [])] := by
    unfold headerIndex
    rw [hk]
    exact assocSet_new k [] _ hk
  rw [this]
  simp [headerLine, crlf]
  omega

/-- C141 is false: the text of a request changes when the server's or the client's code merely reads a missing
header and a missing parameter with `operator[]`. -/
theorem C141_text_refuted :
    headerToString .insertion (UMap.empty.set b!"A" b!"1") = b!"A: 1\r\n\r\n" ∧
    headerToString .insertion (headerIndex (UMap.empty.set b!"A" b!"1") b!"B").1 = b!"A: 1\r\nB: \r\n\r\n" ∧
    routeToString .insertion { path := b!"/p" } = b!"/p" ∧
    routeToString .insertion (routeIndex { path := b!"/p" } b!"id").1 = b!"/p?id=" := by
  decide +kernel

/-! ### C142 -/

theorem headerGet_setAll (o : HashOrder) (h extra : UMap) (k : Str) :
    headerGet (h.setAll (o.order extra)) k = match extra.get k with
      | some v => v
      | none => headerGet h k := by
  unfold headerGet
  rw [UMap.get_setAll_order]
  cases extra.get k <;> rfl

theorem routeGet_setAll (o : HashOrder) (p : Str) (m params : UMap) (k : Str) :
    routeGetParam { path := p, params := m.setAll (o.order params) } k = match params.get k with
      | some v => v
      | none => (m.get k).getD [] := by
  unfold routeGetParam
  simp only [UMap.get_setAll_order]
  cases params.get k with
  | some v => rfl
  | none => cases m.get k <;> rfl

/-- C142, the part that holds for every request object, whatever was in it: `GET` sets the method, the version, the
path, the given parameters and the given headers; parameters and headers of other names and the body are those
the object had. -/
theorem C142_get_partial (o : HashOrder) (r : HttpReq) (url : Str) (params extra : UMap) :
    let q := reqGET o r url params extra
    q.method = .GET ∧ q.version = .HTTP_1_1 ∧ routeGetPath q.route = url ∧ q.body = r.body ∧
    (∀ k v, params.get k = some v → routeGetParam q.route k = v) ∧
    (∀ k, params.get k = none → routeGetParam q.route k = routeGetParam r.route k) ∧
    (∀ k v, extra.get k = some v → headerGet q.header k = v) ∧
    (∀ k, extra.get k = none → headerGet q.header k = headerGet r.header k) := by
  refine ⟨rfl, rfl, rfl, rfl, ?_, ?_, ?_, ?_⟩
  · intro k v hk; simp only [reqGET, routeGet_setAll, hk]
  · intro k hk
    simp only [reqGET, routeGet_setAll, hk]
    unfold routeGetParam
    cases r.route.params.get k <;> rfl
  · intro k v hk; simp only [reqGET, headerGet_setAll, hk]
  · intro k hk; simp only [reqGET, headerGet_setAll, hk]

/-- C142, the part that holds for every request object: `POST` with a body sets the method, the version, the path, the
body and the given headers; the parameters of the URL and the headers of other names are those the object had. -/
theorem C142_post_partial (o : HashOrder) (r : HttpReq) (url body : Str) (extra : UMap) :
    let q := reqPOST o r url body extra
    q.method = .POST ∧ q.version = .HTTP_1_1 ∧ routeGetPath q.route = url ∧ q.body = body ∧
    (∀ k, routeGetParam q.route k = routeGetParam r.route k) ∧
    (∀ k v, extra.get k = some v → headerGet q.header k = v) ∧
    (∀ k, extra.get k = none → headerGet q.header k = headerGet r.header k) := by
  refine ⟨rfl, rfl, rfl, rfl, fun k => rfl, ?_, ?_⟩
  · intro k v hk; simp only [reqPOST, headerGet_setAll, hk]
  · intro k hk; simp only [reqPOST, headerGet_setAll, hk]

/-- A request object nothing has been stored in: a new one, or one that was cleared. -/
def EmptyReq (r : HttpReq) : Prop := r = {} ∨ ∃ r₀, r = reqClear r₀

theorem EmptyReq.parts {r : HttpReq} (h : EmptyReq r) : r.header = UMap.empty ∧ r.route = {} ∧ r.body = [] := by
  rcases h with rfl | ⟨r₀, rfl⟩ <;> exact ⟨rfl, rfl, rfl⟩

theorem setAll_empty (o : HashOrder) (m : UMap) : SameMap (UMap.empty.setAll (o.order m)) m := by
  intro k; rw [UMap.get_setAll_order]; simp

/-- C142: with a new or cleared request object, `GET` makes a request with exactly the given path, parameters and
headers and an empty body. -/
theorem C142_get_fresh_partial (o : HashOrder) (r : HttpReq) (h : EmptyReq r) (url : Str) (params extra : UMap) :
    let q := reqGET o r url params extra
    q.method = .GET ∧ q.version = .HTTP_1_1 ∧ routeGetPath q.route = url ∧ q.body = [] ∧
    SameMap q.route.params params ∧ SameMap q.header extra := by
  obtain ⟨h1, h2, h3⟩ := h.parts
  refine ⟨rfl, rfl, rfl, h3, ?_, ?_⟩
  · simp only [reqGET, h2]; exact setAll_empty o params
  · simp only [reqGET, h1]; exact setAll_empty o extra

/-- C142: with a new or cleared request object, `POST` with a body makes a request with exactly the given path, body
and headers and no parameters in the URL. -/
theorem C142_post_fresh_partial (o : HashOrder) (r : HttpReq) (h : EmptyReq r) (url body : Str) (extra : UMap) :
    let q := reqPOST o r url body extra
    q.method = .POST ∧ q.version = .HTTP_1_1 ∧ routeGetPath q.route = url ∧ q.body = body ∧
    q.route.params = .empty ∧ SameMap q.header extra := by
  obtain ⟨h1, h2, h3⟩ := h.parts
  refine ⟨rfl, rfl, rfl, rfl, ?_, ?_⟩
  · simp only [reqPOST, h2]
  · simp only [reqPOST, h1]; exact setAll_empty o extra

theorem form_flatten (ps : List (Str × Str)) (hne : ps ≠ []) :
    (ps.map paramText).flatten = formText ps ++ [38] := by
  induction ps with
  | nil => exact absurd rfl hne
  | cons p ps ih =>
    cases ps with
    | nil => simp [formText, joinWith, paramText]
    | cons q ps =>
      rw [List.map_cons, List.flatten_cons, ih (by simp)]
      simp [formText, joinWith, paramText]

theorem form_body (o : HashOrder) (r : HttpReq) (h : EmptyReq r) (url : Str) (params extra : UMap)
    (hl : (formText (o.order params)).length < 2 ^ 63) :
    (reqPOSTForm o r url params extra).body = formText (o.order params) := by
  simp only [reqPOSTForm, h.parts.2.2, List.nil_append]
  by_cases he : o.order params = []
  · rw [he]; simp [formText, joinWith]
  · rw [form_flatten _ he]
    have e : ((formText (o.order params)) ++ [38]).length = (formText (o.order params)).length + 1 := by
      rw [List.length_append]; rfl
    rw [e, szSub_le (by omega) (by omega), Nat.add_sub_cancel, List.take_left']
    rfl

/-- C142: with a new or cleared request object, `POST` with parameters makes a request whose body is the text of a
form with exactly these parameters, in some order. -/
theorem C142_form_fresh_partial (o : HashOrder) (r : HttpReq) (h : EmptyReq r) (url : Str) (params extra : UMap)
    (hl : (formText (o.order params)).length < 2 ^ 63) :
    let q := reqPOSTForm o r url params extra
    q.method = .POST ∧ q.version = .HTTP_1_1 ∧ routeGetPath q.route = url ∧ q.route.params = .empty ∧
    SameMap q.header extra ∧ ∃ fields, fields.Perm params.entries ∧ q.body = formText fields := by
  obtain ⟨h1, h2, h3⟩ := h.parts
  refine ⟨rfl, rfl, rfl, ?_, ?_, o.order params, o.perm params, ?_⟩
  · simp only [reqPOSTForm, h2]
  · simp only [reqPOSTForm, h1]; exact setAll_empty o extra
  · exact form_body o r h url params extra hl

/-- C142: if no name has a `=` or `&` in it and no value a `&`, the items between the `&` of the body are `name=value`
for exactly the given parameters. -/
theorem C142_form_items_partial (o : HashOrder) (r : HttpReq) (h : EmptyReq r) (url : Str) (params extra : UMap)
    (hl : (formText (o.order params)).length < 2 ^ 63) (hne : ∃ k, params.get k ≠ none)
    (hc : ∀ k v, params.get k = some v → 61 ∉ k ∧ 38 ∉ k ∧ 38 ∉ v) :
    ∃ items, Pieces b!"&" (reqPOSTForm o r url params extra).body items ∧
      ∀ k v, params.get k = some v ↔ ∃ i ∈ items, before 61 i = k ∧ after 61 i = v ∧ 61 ∈ i := by
  obtain ⟨h1, h2, h3⟩ := h.parts
  have hb := form_body o r h url params extra hl
  have he : o.order params ≠ [] := by
    obtain ⟨k, hk⟩ := hne
    cases hp : params.get k with
    | none => exact absurd hp hk
    | some v =>
      have := (UMap.mem_order o params (k, v)).2 hp
      exact List.ne_nil_of_mem this
  have hs : split [38] (formText (o.order params)) = (o.order params).map (fun p => p.1 ++ b!"=" ++ p.2) := by
    refine split_join_byte (by simpa using he) ?_
    intro i hi
    obtain ⟨p, hp, rfl⟩ := List.mem_map.1 hi
    have := hc p.1 p.2 ((UMap.mem_order o params p).1 hp)
    simp [this.2.1, this.2.2]
  refine ⟨split [38] (formText (o.order params)), ?_, ?_⟩
  · rw [hb]
    exact ⟨join_split (by simp) _, leftmost_split (by simp) _⟩
  · intro k v
    rw [hs]
    constructor
    · intro hk
      refine ⟨_, List.mem_map.2 ⟨(k, v), (UMap.mem_order o params (k, v)).2 hk, rfl⟩, ?_, ?_, by simp⟩
      · have := before_append (c := 61) (k := k) (v := v) (hc k v hk).1
        simpa using this
      · have := after_append (c := 61) (k := k) (v := v) (hc k v hk).1
        simpa using this
    · rintro ⟨i, hi, e1, e2, -⟩
      obtain ⟨p, hp, rfl⟩ := List.mem_map.1 hi
      have hk := (UMap.mem_order o params p).1 hp
      have b1 := before_append (c := 61) (k := p.1) (v := p.2) (hc p.1 p.2 hk).1
      have b2 := after_append (c := 61) (k := p.1) (v := p.2) (hc p.1 p.2 hk).1
      simp only [List.append_assoc, List.cons_append, List.nil_append] at e1 e2
      rw [b1] at e1; rw [b2] at e2
      rw [← e1, ← e2]; exact hk

def demoForm : UMap := (UMap.empty.set b!"a" b!"1").set b!"b" b!"x=y"

example : (reqPOSTForm .reversed {} b!"/f" demoForm .empty).body = b!"b=x=y&a=1" := by decide +kernel
example : ∀ k v, demoForm.get k = some v → 61 ∉ k ∧ 38 ∉ k ∧ 38 ∉ v := by
  intro k v hkv
  have := (UMap.get_iff_mem _ _ _).1 hkv
  have e : demoForm.entries = [(b!"a", b!"1"), (b!"b", b!"x=y")] := by decide +kernel
  rw [e] at this
  simp only [List.mem_cons, Prod.mk.injEq, List.not_mem_nil, or_false] at this
  rcases this with ⟨rfl, rfl⟩ | ⟨rfl, rfl⟩ <;> decide
example : EmptyReq (reqClear demoReq) ∧ (formText (HashOrder.insertion.order demoForm)).length < 2 ^ 63 :=
  ⟨Or.inr ⟨_, rfl⟩, by decide +kernel⟩

/-- C142, end to end: what `GET` with a new or cleared object was given is what the server's `HttpReq::Parse` reads,
if path, parameters and headers survive the wire (`Host` and `Content-Length` are added by `Build`). -/
theorem C142_get_wire_partial (o : HashOrder) (r : HttpReq) (h : EmptyReq r) (url : Str) (params extra : UMap)
    (old : Str) (hr : WireRoute url params) (hh : WireHeaders extra) :
    ∃ r' text, reqBuild o (reqGET o r url params extra) old = (r', text, kSuccess) ∧ (Fits text →
      ∃ q, reqParse {} text = .ok (q, kSuccess) ∧ q.method = .GET ∧ q.version = .HTTP_1_1 ∧
        routeGetPath q.route = url ∧ SameMap q.route.params params ∧ q.body = [] ∧
        headerGetContentLength q.header = 0 ∧
        headerGetHost q.header = (if headerGetHost extra = [] then b!"localhost" else headerGetHost extra) ∧
        ∀ k, k ≠ b!"Content-Length" → k ≠ b!"Host" → q.header.get k = extra.get k) := by
  obtain ⟨-, -, hp, hb, hm, hx⟩ := C142_get_fresh_partial o r h url params extra
  have hw : WireRequest (reqGET o r url params extra) := by
    refine ⟨by simp [reqGET], by simp [reqGET], ?_, ?_⟩
    · obtain ⟨h1, h2, h3, h4⟩ := hr
      refine ⟨h1, h2, h3, ?_⟩
      intro k v hk
      rw [hm k] at hk
      exact h4 k v hk
    · intro k v hk
      rw [hx k] at hk
      exact Or.inr (Or.inr (hh k v hk))
  obtain ⟨r', text, e, hq⟩ := C23_round_trip o _ old hw
  refine ⟨r', text, e, fun hf => ?_⟩
  obtain ⟨q, q1, q2, q3, q4, q5, q6, q7, q8, q9⟩ := hq hf
  have hg : headerGetHost (reqGET o r url params extra).header = headerGetHost extra := by
    unfold headerGetHost; rw [hx]
  refine ⟨q, q1, q2, q3, q4, fun k => (q5 k).trans (hm k), q6.trans hb, ?_, by rw [q8, hg], ?_⟩
  · rw [hb] at q7; simpa using q7
  · intro k h1 h2; rw [q9 k h1 h2, hx]

/-- C142, end to end: the same for `POST` with a body, which arrives byte for byte (below 2 GiB the announced
length is its length). -/
theorem C142_post_wire_partial (o : HashOrder) (r : HttpReq) (h : EmptyReq r) (url body : Str) (extra : UMap)
    (old : Str) (hr : WireRoute url .empty) (hh : WireHeaders extra) :
    ∃ r' text, reqBuild o (reqPOST o r url body extra) old = (r', text, kSuccess) ∧ (Fits text →
      ∃ q, reqParse {} text = .ok (q, kSuccess) ∧ q.method = .POST ∧ q.version = .HTTP_1_1 ∧
        routeGetPath q.route = url ∧ SameMap q.route.params .empty ∧ q.body = body ∧
        (body.length < 2 ^ 31 → headerGetContentLength q.header = body.length) ∧
        headerGetHost q.header = (if headerGetHost extra = [] then b!"localhost" else headerGetHost extra) ∧
        ∀ k, k ≠ b!"Content-Length" → k ≠ b!"Host" → q.header.get k = extra.get k) := by
  obtain ⟨-, -, hp, hb, hm, hx⟩ := C142_post_fresh_partial o r h url body extra
  have hw : WireRequest (reqPOST o r url body extra) := by
    refine ⟨by simp [reqPOST], by simp [reqPOST], ?_, ?_⟩
    · obtain ⟨h1, h2, h3, h4⟩ := hr
      refine ⟨h1, h2, h3, ?_⟩
      intro k v hk
      rw [hm] at hk
      exact h4 k v hk
    · intro k v hk
      rw [hx k] at hk
      exact Or.inr (Or.inr (hh k v hk))
  obtain ⟨r', text, e, hq⟩ := C23_round_trip o _ old hw
  refine ⟨r', text, e, fun hf => ?_⟩
  obtain ⟨q, q1, q2, q3, q4, q5, q6, q7, q8, q9⟩ := hq hf
  have hg : headerGetHost (reqPOST o r url body extra).header = headerGetHost extra := by
    unfold headerGetHost; rw [hx]
  refine ⟨q, q1, q2, q3, q4, fun k => by rw [q5 k, hm], q6, q7, by rw [q8, hg], ?_⟩
  intro k h1 h2; rw [q9 k h1 h2, hx]

example : WireRoute b!"/a" (UMap.empty.set b!"q" b!"1 2") := by
  refine ⟨by decide, by decide, by decide +kernel, ?_⟩
  intro k v hk
  rw [UMap.get_set] at hk
  by_cases e : k = b!"q"
  · simp only [e, if_true, Option.some.injEq] at hk
    subst e; subst hk; decide +kernel
  · simp [e] at hk

/-- C142 is false for an object that is used again: a parameter, a header or a body of the first request that the
second call does not mention is sent once more with the second. -/
theorem C142_reuse_refuted :
    (let q := reqGET .insertion (reqGET .insertion {} b!"/a" (UMap.empty.set b!"token" b!"1") (UMap.empty.set b!"X" b!"2"))
        b!"/b" .empty .empty
     routeGetPath q.route = b!"/b" ∧ routeGetParam q.route b!"token" = b!"1" ∧ headerGet q.header b!"X" = b!"2") ∧
    (reqGET .insertion (reqPOST .insertion {} b!"/a" b!"secret" .empty) b!"/b" .empty .empty).body = b!"secret" ∧
    (reqPOSTForm .insertion (reqPOSTForm .insertion {} b!"/a" (UMap.empty.set b!"a" b!"1") .empty) b!"/b"
      (UMap.empty.set b!"b" b!"2") .empty).body = b!"a=1b=2" := by
  decide +kernel

/-- C142 is false for an object that is used again: `POST` with an empty set of parameters removes the last byte of
the old body, whatever it is. -/
theorem C142_chop_refuted (o : HashOrder) (r : HttpReq) (url : Str) (extra : UMap) (hne : r.body ≠ [])
    (hl : Fits r.body) : (reqPOSTForm o r url .empty extra).body = r.body.dropLast := by
  have h0 : o.order .empty = [] := (UMap.order_eq_nil o _).2 rfl
  have hp : 1 ≤ r.body.length := by
    cases hb : r.body with
    | nil => exact absurd hb hne
    | cons c t => simp
  unfold Fits at hl
  simp only [reqPOSTForm, h0, List.map_nil, List.flatten_nil, List.append_nil]
  rw [szSub_le hp (by omega), List.dropLast_eq_take]

/-- C142 is false for the form: names and values are not encoded, so that different parameters make the same body. -/
theorem C142_form_refuted :
    (UMap.empty.set b!"a" b!"1&b=2").get b!"b" = none ∧
    (reqPOSTForm .insertion {} b!"/f" (UMap.empty.set b!"a" b!"1&b=2") .empty).body =
      (reqPOSTForm .insertion {} b!"/f" ((UMap.empty.set b!"a" b!"1").set b!"b" b!"2") .empty).body := by
  decide +kernel

end Cppnet
