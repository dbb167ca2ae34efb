import Verif.Props.Conversation

/-!
# C128: every request that has arrived is answered
-/

namespace Cppnet
open Spec
variable {σ : Type}
set_option synthInstance.maxSize 1000

/-- C128: any number of connections, on each any number of complete requests (`texts i`) and then anything else
(`later i`), reported readable in any order, none more often than it has requests.  Then every report is answered, in the
order of the reports, the answer is the one the next request of that connection would get alone, no connection is closed,
and what is left of each connection's stream is what follows the answered requests: so after as many reports as requests
nothing is left unanswered. -/
theorem C128_answered (regs : List (Reg σ)) (ha : AsciiRegs regs) (hal : ∀ r ∈ regs, AloofEntry r.entry) (s : Server σ)
    (hs : registerAll regs = .ok s) (evs : List (Nat × Env)) (hw : ∀ e ∈ evs, 0 ≤ e.2.writeRc) (texts : Nat → List Str)
    (later : Nat → Str) (fin : Nat → Int) (u : σ) (t : UMap) (ht : ∀ i, ∀ x ∈ texts i, CompleteRequest x)
    (hn : ∀ i, reports i evs ≤ (texts i).length) (hf : ∀ i, Fits ((texts i).flatten ++ later i)) :
    ∃ w outs u' t', worldRun s evs ⟨fun i => ⟨(texts i).flatten ++ later i, fin i⟩, fun _ => false, u, t⟩ = .ok (w, outs) ∧
      AllAlone s texts evs u t (outs.map (fun o => (o.1, o.2.sent))) u' t' ∧ outs.map (·.1) = evs.map (·.1) ∧
      ∀ i, w.conns i = ⟨((texts i).drop (reports i evs)).flatten ++ later i, fin i⟩ ∧ w.closed i = false := by
  induction evs generalizing texts u t with
  | nil => exact ⟨_, [], u, t, rfl, .nil texts u t, rfl, fun i => ⟨rfl, rfl⟩⟩
  | cons e evs ih =>
    obtain ⟨i, env⟩ := e
    have hni := hn i
    match hti : texts i with
    | [] => rw [hti] at hni; simp [reports] at hni
    | x :: rest =>
      have hfi := hf i
      rw [hti] at hfi
      have hfi' : Fits (x ++ (rest.flatten ++ later i)) := by simpa using hfi
      have hx : CompleteRequest x := ht i x (by simp [hti])
      obtain ⟨q, hq, hserve⟩ := complete_served { env with types := t } s hx
      obtain ⟨r, hcl, hne, hr⟩ := serve_aloof regs ha hal s hs { env with types := t } q hq u
      have hcl' : r.closed = false := by rw [hcl]; simpa using hw (i, env) (by simp)
      have h1 := hserve (rest.flatten ++ later i) (fin i) u hfi'
      rw [hr] at h1
      have h2 := hserve [] (fin i) u (by
        unfold Fits at *
        simp only [List.length_append, List.append_nil] at hfi' ⊢
        omega)
      rw [hr, List.append_nil] at h2
      have hcons : ∀ j, reports j ((i, env) :: evs) = (if j = i then 1 else 0) + reports j evs := by
        intro j
        by_cases e : j = i
        · subst e; simp [reports]; omega
        · have e' : ¬ i = j := fun h => e h.symm
          simp [reports, e, e']
      obtain ⟨w, outs, u', t', g1, g2, g3, g4⟩ := ih (fun e he => hw e (by simp [he])) (fun j => if j = i then rest else texts j) r.user r.types
        (fun j x hx => by
          by_cases e : j = i
          · subst e; rw [if_pos rfl] at hx; exact ht j x (by simp [hti, hx])
          · rw [if_neg e] at hx; exact ht j x hx)
        (fun j => by
          have := hn j
          rw [hcons] at this
          by_cases e : j = i
          · subst e; rw [if_pos rfl] at this ⊢; rw [hti, List.length_cons] at this; omega
          · simp only [if_neg e] at this ⊢; omega)
        (fun j => by
          by_cases e : j = i
          · subst e
            rw [if_pos rfl]
            unfold Fits at *
            simp only [List.length_append] at hfi' ⊢
            omega
          · simp only [if_neg e]; exact hf j)
      refine ⟨w, (i, { r with conn := ⟨rest.flatten ++ later i, fin i⟩ }) :: outs, u', t', ?_, ?_, ?_, ?_⟩
      · have hw' : (⟨fun j => if j = i then (⟨rest.flatten ++ later i, fin i⟩ : Conn) else ⟨(texts j).flatten ++ later j, fin j⟩,
            fun j => if j = i then r.closed else false, r.user, r.types⟩ : World σ) =
            ⟨fun j => ⟨(if j = i then rest else texts j).flatten ++ later j, fin j⟩, fun _ => false, r.user, r.types⟩ := by
          congr 1
          · funext j
            by_cases e : j = i
            · subst e; simp
            · simp [e]
          · funext j
            rw [hcl']; simp
        have h3 : (texts i).flatten ++ later i = x ++ (rest.flatten ++ later i) := by rw [hti]; simp
        simp only [worldRun, worldStep, Bool.false_eq_true, if_false, h3, h1, Except.map, bind, Except.bind, hw', g1]
        simp
      · exact AllAlone.cons (r := { r with conn := ⟨[], fin i⟩ }) hti h2 hcl' hne g2
      · simp [g3]
      · intro j
        obtain ⟨k1, k2⟩ := g4 j
        refine ⟨?_, k2⟩
        rw [k1, hcons]
        by_cases e : j = i
        · subst e; rw [if_pos rfl, if_pos rfl, hti, Nat.add_comm, List.drop_succ_cons]
        · simp [e]

/-- Two connections, three requests, reported alternately. -/
example : (do
    let s ← demoServer
    let (w, outs) ← worldRun s [(0, {}), (1, {}), (0, {})]
      { conns := fun i => if i = 0 then ⟨b!"GET /b HTTP/1.1\r\n\r\nPOST /a HTTP/1.1\r\nContent-Length: 1\r\n\r\nxGE", 0⟩ else
          ⟨b!"POST /a HTTP/1.1\r\nContent-Length: 3\r\n\r\nxyz", 0⟩, user := [] }
    .ok (outs.map (fun o => (o.1, o.2.sent.map (·.take 15))), (w.conns 0).input, (w.conns 1).input, w.user) : Out _) =
    .ok ([(0, [b!"HTTP/1.1 404 No"]), (1, [b!"HTTP/1.1 200 OK"]), (0, [b!"HTTP/1.1 200 OK"])], b!"GE", [],
      [(.POST, b!"/a", b!"xyz"), (.POST, b!"/a", b!"x")]) := by decide +kernel

end Cppnet
