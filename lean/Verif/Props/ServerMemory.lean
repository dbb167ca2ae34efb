import Verif.Model.ServerMemory
import Verif.Proofs.TrieMemory
import Verif.Proofs.TrieEnough
import Verif.Proofs.Trie

/-!
# C196: a server whose routes are registered while memory runs out
-/

namespace Cppnet
open Spec TNode
variable {σ : Type}

theorem objectsOf_texts : ∀ (n : Nat) {m m' : Mem}, m.objectsOf n = some m' → m.texts = none →
    m'.texts = none ∧ (m.objects = none → m'.objects = none)
  | 0, m, m', h, ht => by cases h; exact ⟨ht, id⟩
  | n + 1, m, m', h, ht => by
    simp only [Mem.objectsOf] at h
    cases ho : m.object with
    | none => simp [ho] at h
    | some m1 =>
      simp only [ho] at h
      have a := object_some ho
      have b := objectsOf_texts n h (a.1 ht)
      exact ⟨b.1, fun e => b.2 (a.2 e)⟩

theorem objectsOf_enough : ∀ (n : Nat) {m : Mem}, m.objects = none → m.objectsOf n = some m
  | 0, _, _ => rfl
  | n + 1, m, h => by simp [Mem.objectsOf, Mem.object, h, objectsOf_enough n h]

/-- What a call of `registerMem` does to a server whose tree is well-formed. -/
theorem registerMem_spec (s : Server σ) (hf : FairRoot s.trie) (r : RegCall σ) (hr : Ascii r.route) (hp : Ascii r.path) (m : Mem)
    (ht : m.texts = none) :
    ∃ s' b, registerMem s r m = .ok (s', b) ∧ FairRoot s'.trie ∧ (m.objects = none → b = true) ∧
      (b = false → lookup s'.trie = lookup s.trie ∧ s'.store = s.store) ∧
      (b = true → ∃ s'' b', registerMem s r {} = .ok (s'', b') ∧ b' = true ∧ FairRoot s''.trie ∧ lookup s'.trie = lookup s''.trie ∧
        s'.store = s''.store) := by
  obtain ⟨g, hg⟩ := trieGet_total (root := s.trie) r.path hp
  have hk : Ascii (r.route ++ r.path) := by
    intro c hc
    rcases List.mem_append.1 hc with h | h
    · exact hr c h
    · exact hp c h
  unfold registerMem
  simp only [hg, bind, Except.bind]
  cases g with
  | none =>
    cases h3 : m.objectsOf 3 with
    | none =>
      exact ⟨s, false, rfl, hf, fun e => (by rw [objectsOf_enough 3 e] at h3; cases h3), fun _ => ⟨rfl, rfl⟩, fun h => (nomatch h)⟩
    | some m1 =>
      have a := objectsOf_texts 3 h3 ht
      have et : m1.text = some m1 := text_enough a.1
      obtain ⟨t1, q, e1, e2, e3, e4⟩ := trieSetMem_spec s.store.length s.trie hf (r.route ++ r.path) hk m1 a.1
      simp only [et, e1]
      cases q with
      | none =>
        refine ⟨{ s with trie := t1 }, false, rfl, e2, fun e => ?_, fun _ => ⟨?_, rfl⟩, fun h => (nomatch h)⟩
        · have := e3.2 (a.2 e)
          cases this
        · funext k'
          rw [e4]
          simp
      | some m2 =>
        have o3 : ({} : Mem).objectsOf 3 = some {} := rfl
        have ot : ({} : Mem).text = some {} := rfl
        obtain ⟨t2, q2, f1, f2, f3, f4⟩ := trieSetMem_spec s.store.length s.trie hf (r.route ++ r.path) hk {} rfl
        have hq := f3.2 rfl
        cases q2 with
        | none => cases hq
        | some m3 =>
          refine ⟨_, true, rfl, e2, fun _ => rfl, fun h => (nomatch h), fun _ => ?_⟩
          refine ⟨{ trie := t2, store := s.store ++ [[r.entry]] }, true, by simp [o3, ot, f1], rfl, f2, ?_, rfl⟩
          funext k'
          show lookup t1 k' = lookup t2 k'
          rw [e4, f4]
          simp
  | some ref =>
    cases h2 : m.objectsOf 2 with
    | none =>
      exact ⟨s, false, rfl, hf, fun e => (by rw [objectsOf_enough 2 e] at h2; cases h2), fun _ => ⟨rfl, rfl⟩, fun h => (nomatch h)⟩
    | some m1 =>
      have o2 : ({} : Mem).objectsOf 2 = some {} := rfl
      exact ⟨_, true, rfl, hf, fun _ => rfl, fun h => (nomatch h), fun _ =>
        ⟨{ s with store := s.store.modify ref (· ++ [r.entry]) }, true, by simp only [o2], rfl, hf, rfl, rfl⟩⟩

theorem registerAllMem_fair : ∀ (hist : List (RegCall σ × Mem)) (s : Server σ), FairRoot s.trie →
    (∀ x ∈ hist, Ascii x.1.route ∧ Ascii x.1.path ∧ x.2.texts = none) →
    ∃ s', registerAllMem s hist = .ok s' ∧ FairRoot s'.trie
  | [], s, hf, _ => ⟨s, rfl, hf⟩
  | (r, m) :: hist, s, hf, h => by
    obtain ⟨a, b, c⟩ := h (r, m) (by simp)
    obtain ⟨s1, q, e1, e2, -⟩ := registerMem_spec s hf r a b m c
    obtain ⟨s', f1, f2⟩ := registerAllMem_fair hist s1 e2 (fun x hx => h x (List.mem_cons_of_mem _ hx))
    exact ⟨s', by simp [registerAllMem, e1, bind, Except.bind, f1], f2⟩

theorem dispatch_same {s s' : Server σ} (hf : FairRoot s.trie) (hf' : FairRoot s'.trie) (hl : lookup s'.trie = lookup s.trie)
    (hs : s'.store = s.store) (path : Str) (hp : Ascii path) (ctx : Ctx σ) : dispatch s' path ctx = dispatch s path ctx := by
  unfold dispatch
  rw [trieSearch_fair _ _ hf' path hp, trieSearch_fair _ _ hf path hp, hl, hs]

/-! ### C196 -/

/-- **C196**, if it is never a text that cannot be made (no part of a route is longer than what fits into a `std::string` itself):
after any history of registrations, of which any have thrown at any object they were to make, one more registration never faults.  If
it throws, every request is then answered exactly as before the call; if it returns, every request is answered exactly as if the
call had had all the memory it wants; and with enough memory it returns.  (Missing: texts, `C196_lost_refuted`; later
registrations, `C196_later_refuted`.) -/
theorem C196_routes_partial (hist : List (RegCall σ × Mem)) (h : ∀ x ∈ hist, Ascii x.1.route ∧ Ascii x.1.path ∧ x.2.texts = none)
    (r : RegCall σ) (hr : Ascii r.route) (hp : Ascii r.path) (m : Mem) (hm : m.texts = none) :
    ∃ s s' returned, registerAllMem {} hist = .ok s ∧ registerMem s r m = .ok (s', returned) ∧
      (m.objects = none → returned = true) ∧
      (returned = false → ∀ (env : Env) (req : HttpReq) (conn : Conn) (u : σ), Ascii req.route.path →
        serveRequest env s' req conn u = serveRequest env s req conn u) ∧
      (returned = true → ∃ full, registerMem s r {} = .ok (full, true) ∧
        ∀ (env : Env) (req : HttpReq) (conn : Conn) (u : σ), Ascii req.route.path →
          serveRequest env s' req conn u = serveRequest env full req conn u) := by
  obtain ⟨s, e1, e2⟩ := registerAllMem_fair hist {} fairRoot_empty h
  obtain ⟨s', b, f1, f2, f3, f4, f5⟩ := registerMem_spec s e2 r hr hp m hm
  refine ⟨s, s', b, e1, f1, f3, ?_, ?_⟩
  · intro hb env req conn u ha
    obtain ⟨g1, g2⟩ := f4 hb
    unfold serveRequest
    rw [dispatch_same e2 f2 g1 g2 _ ha]
  · intro hb
    obtain ⟨full, b', g1, rfl, g2, g3, g4⟩ := f5 hb
    refine ⟨full, g1, fun env req conn u ha => ?_⟩
    unfold serveRequest
    rw [dispatch_same g2 f2 g3 g4 _ ha]

/-- **C196**: a registration that has all the memory it wants does what `RegisterHandler` does, on every server: it returns, or faults as
that does. -/
theorem C196_enough (s : Server σ) (r : RegCall σ) :
    registerMem s r {} = (registerHandler r.route r.path r.entry s).map (fun s' => (s', true)) := by
  have o2 : ({} : Mem).objectsOf 2 = some {} := rfl
  have o3 : ({} : Mem).objectsOf 3 = some {} := rfl
  unfold registerMem registerHandler
  simp only [bind, Except.bind]
  cases trieGet s.trie r.path with
  | error e => rfl
  | ok g =>
    cases g with
    | none =>
      simp only [o3, text_all, trieSetMem_all]
      cases trieSet s.trie (r.route ++ r.path) s.store.length <;> rfl
    | some ref => simp only [o2]; rfl

/-- A handler that notes its number in the user's state. -/
def noteHandler (n : Nat) : Handler (List Nat) := fun c => .ok { c with user := c.user ++ [n] }

/-- Which of the handlers a request for `path` reaches. -/
def reached (s : Server (List Nat)) (path : Str) : Out (List Nat) :=
  (dispatch s path { req := {}, conn := { input := [], fin := 0 }, user := [] }).map (·.user)

/-- Hypotheses met: of three registrations the second and the third throw, one after it has split a node, one after it has hung a new
node to the tree. -/
example : let hist : List (RegCall (List Nat) × Mem) := [(⟨[], b!"/abc", { callback := noteHandler 1 }⟩, {}),
      (⟨[], b!"/abd", { callback := noteHandler 2 }⟩, { objects := some 5 }), (⟨b!"/v", b!"/x", { callback := noteHandler 3 }⟩, { objects := some 4 })]
    (∀ x ∈ hist, Ascii x.1.route ∧ Ascii x.1.path ∧ x.2.texts = none) ∧
    (registerAllMem {} hist).bind (fun s => do .ok (← reached s b!"/abc", ← reached s b!"/abd", ← reached s b!"/v/x")) =
      .ok ([1], [], []) := by
  refine ⟨?_, by decide +kernel⟩
  intro x hx
  simp only [List.mem_cons, List.not_mem_nil, or_false] at hx
  rcases hx with rfl | rfl | rfl <;> refine ⟨?_, ?_, rfl⟩ <;> (intro c hc; revert c hc; decide)

/-- **C196**, refuted for texts: two routes with a long part in common.  The registration of the second throws where it cannot make the
text of that part, and requests for the first are then no longer answered by its handler. -/
theorem C196_lost_refuted :
    ∃ (s s' : Server (List Nat)), registerAllMem {} [(⟨b!"/api/v1/resources", b!"/users", { callback := noteHandler 1 }⟩, {})] = .ok s ∧
      reached s b!"/api/v1/resources/users" = .ok [1] ∧
      registerMem s ⟨b!"/api/v1/resources", b!"/items", { callback := noteHandler 2 }⟩ { texts := some 2 } = .ok (s', false) ∧
      reached s' b!"/api/v1/resources/users" = .ok [] := by
  refine ⟨_, _, rfl, by decide +kernel, rfl, by decide +kernel⟩

/-- **C196**, refuted for registrations that come later: a registration that throws changes what a later one does.  `/hello` is
registered, then `/hel`: without anything in between the handler of `/hel` lands in the list of `/hello`; if a registration of `/helm`
has thrown in between, it is a route of its own. -/
theorem C196_later_refuted :
    ∃ (s s' a b : Server (List Nat)), registerAllMem {} [(⟨[], b!"/hello", { callback := noteHandler 1 }⟩, {})] = .ok s ∧
      registerMem s ⟨[], b!"/helm", { callback := noteHandler 2 }⟩ { objects := some 5 } = .ok (s', false) ∧
      registerMem s ⟨[], b!"/hel", { callback := noteHandler 3 }⟩ {} = .ok (a, true) ∧
      registerMem s' ⟨[], b!"/hel", { callback := noteHandler 3 }⟩ {} = .ok (b, true) ∧
      reached a b!"/hel" = .ok [] ∧ reached a b!"/hello" = .ok [1, 3] ∧
      reached b b!"/hel" = .ok [3] ∧ reached b b!"/hello" = .ok [1] := by
  refine ⟨_, _, _, _, rfl, rfl, rfl, rfl, by decide +kernel, by decide +kernel, by decide +kernel, by decide +kernel⟩

end Cppnet
