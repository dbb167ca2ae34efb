import Verif.Spec.Pieces
import Verif.Proofs.Socket

/-!
# C180: a server that reads in pieces gets all that was sent
-/

namespace Cppnet
open Spec

theorem sockRead_piece (u : Str) (fin : Int) (len chunk : Nat) (hl : 0 < len) (hu : u ≠ []) :
    ∃ k, 0 < k ∧ k ≤ len ∧ k ≤ u.length ∧ (len ≤ maxRw → len ≤ chunk + 1 → u.length ≤ len → k = u.length) ∧
      sockRead ⟨u, fin⟩ len false chunk = ((k : Int), cString (u.take k), (⟨u.drop k, fin⟩ : Conn)) := by
  have hpos : 0 < u.length := List.length_pos_iff.2 hu
  have hm : 0 < maxRw := by decide
  refine ⟨recvCount len u.length chunk .none, ?_, ?_, ?_, ?_, ?_⟩
  · simp only [recvCount]; omega
  · simp only [recvCount]; omega
  · simp only [recvCount]; omega
  · intro _ _ _; simp only [recvCount]; omega
  · unfold sockRead ioRead
    simp only [Bool.false_eq_true, if_false, if_neg (show ¬ len = 0 by omega), hu, reduceCtorEq]
    have e : len + 1 - (u.take (recvCount len u.length chunk .none)).length =
        len - (u.take (recvCount len u.length chunk .none)).length + 1 := by
      simp only [List.length_take, recvCount]; omega
    rw [e, cString_append]

theorem readPieces_spec (len : Nat) (hl : 0 < len) : ∀ (n : Nat) (ch : Nat → Nat) (u : Str),
    results (readPieces len n ch u).1 + (readPieces len n ch u).2.length = u.length ∧
    (0 ∉ u → texts (readPieces len n ch u).1 ++ (readPieces len n ch u).2 = u) ∧
    (readPieces len n ch u).2.length ≤ u.length - n ∧ (readPieces len n ch u).2 <:+ u
  | 0, ch, u => by simp [readPieces, results, texts]
  | n + 1, ch, u => by
    unfold readPieces
    by_cases hu : u = []
    · simp [hu, results, texts]
    · obtain ⟨k, k1, k2, k3, _, k4⟩ := sockRead_piece u (-1) len (ch 0) hl hu
      rw [if_neg hu, k4]
      obtain ⟨i1, i2, i3, i4⟩ := readPieces_spec len hl n (fun i => ch (i + 1)) (u.drop k)
      simp only [List.length_drop] at i1 i3
      refine ⟨?_, ?_, ?_, ?_⟩
      · simp only [results, List.map_cons, List.sum_cons] at i1 ⊢
        omega
      · intro h0
        have h1 : 0 ∉ u.drop k := fun h => h0 (List.mem_of_mem_drop h)
        have h2 : 0 ∉ u.take k := fun h => h0 (List.mem_of_mem_take h)
        have := i2 h1
        simp only [texts, List.map_cons, List.flatten_cons, List.append_assoc] at this ⊢
        rw [this, cString_eq_self.2 h2, List.take_append_drop]
      · simp only; omega
      · exact i4.trans (List.drop_suffix _ _)

/-- What is left after the events is the end of what was unread and sent; the rest was read. -/
theorem feed_spec (edge drain : Bool) (len : Nat) (hl : 0 < len) : ∀ (es : List FeedEv) (f : Feed), f.fin = false → f.gone = false →
    StaysOpen es →
    (feed edge drain len f es).1.fin = false ∧ (feed edge drain len f es).1.gone = false ∧
    results (feed edge drain len f es).2 + (feed edge drain len f es).1.unread.length = (f.unread ++ sentBytes es).length ∧
    (0 ∉ f.unread ++ sentBytes es → texts (feed edge drain len f es).2 ++ (feed edge drain len f es).1.unread = f.unread ++ sentBytes es)
  | [], f, h1, h2, _ => by simp [feed, results, texts, sentBytes, h1, h2]
  | e :: es, f, h1, h2, ho => by
    have ho' : StaysOpen es := fun x hx => ho x (by simp [hx])
    cases e with
    | shut => exact absurd rfl (ho .shut (by simp))
    | send s =>
      obtain ⟨i1, i2, i3, i4⟩ := feed_spec edge drain len hl es { f with unread := f.unread ++ s, fresh := f.fresh || s != [] } h1 h2 ho'
      have e : sentBytes (.send s :: es) = s ++ sentBytes es := rfl
      simp only [feed, feedStep, h1, h2, Bool.or_self, Bool.false_eq_true, if_false, List.nil_append, e] at i1 i2 i3 i4 ⊢
      rw [List.append_assoc] at i3 i4
      exact ⟨i1, i2, i3, i4⟩
    | round ch =>
      have e : sentBytes (.round ch :: es) = sentBytes es := rfl
      simp only [feed, feedStep, h1, h2, Bool.false_eq_true, if_false, e]
      split
      · obtain ⟨p1, p2, _, p4⟩ := readPieces_spec len hl (if drain then f.unread.length else 1) ch f.unread
        generalize hp : readPieces len (if drain then f.unread.length else 1) ch f.unread = x at p1 p2 p4
        obtain ⟨cs, u⟩ := x
        obtain ⟨i1, i2, i3, i4⟩ := feed_spec edge drain len hl es { f with unread := u, fresh := false } h1 h2 ho'
        simp only [h1, h2] at i1 i2 i3 i4 p1 p2 p4 ⊢
        refine ⟨i1, i2, ?_, ?_⟩
        · simp only [results, List.map_append, List.sum_append, List.length_append] at i3 p1 ⊢
          omega
        · intro h0
          have a : 0 ∉ f.unread := fun h => h0 (by simp [h])
          have b : 0 ∉ u ++ sentBytes es := by
            intro h
            rcases List.mem_append.1 h with h | h
            · exact a (p4.subset h)
            · exact h0 (by simp [h])
          have q := p2 a
          have r := i4 b
          have t : texts (cs ++ (feed edge drain len { unread := u, fresh := false, fin := f.fin, gone := f.gone } es).2) =
              texts cs ++ texts (feed edge drain len { unread := u, fresh := false, fin := f.fin, gone := f.gone } es).2 := by
            simp [texts]
          simp only [h1, h2] at t
          rw [t, List.append_assoc, r, ← List.append_assoc, q]
      · obtain ⟨i1, i2, i3, i4⟩ := feed_spec edge drain len hl es f h1 h2 ho'
        simp only [List.nil_append]
        exact ⟨i1, i2, i3, i4⟩

/-- **C180** (what holds): as long as the client stays, whatever the trigger, the lengths of the pieces and the order of events: the
results of the reads add up to the number of bytes that were read, in order, and the texts are those bytes if no zero byte is among
them; nothing is lost, doubled or moved.  (`rest` is what was not read yet.) -/
theorem C180_order_partial (edge drain : Bool) (len : Nat) (hl : 0 < len) (es : List FeedEv) (ho : StaysOpen es)
    (f : Feed) (cs : List FeedCall) (h : feed edge drain len {} es = (f, cs)) :
    results cs + f.unread.length = (sentBytes es).length ∧ (0 ∉ sentBytes es → texts cs ++ f.unread = sentBytes es) := by
  have := feed_spec edge drain len hl es {} rfl rfl ho
  rw [h] at this
  exact this.2.2

theorem feed_append (edge drain : Bool) (len : Nat) : ∀ (a b : List FeedEv) (f : Feed),
    feed edge drain len f (a ++ b) =
      ((feed edge drain len (feed edge drain len f a).1 b).1, (feed edge drain len f a).2 ++ (feed edge drain len (feed edge drain len f a).1 b).2)
  | [], b, f => by simp [feed]
  | e :: a, b, f => by
    simp only [List.cons_append, feed, feed_append edge drain len a b, List.append_assoc]

theorem feed_rounds (drain : Bool) (len : Nat) (hl : 0 < len) : ∀ (rs : List (Nat → Nat)) (f : Feed), f.fin = false → f.gone = false →
    (feed false drain len f (rs.map .round)).1.unread.length ≤ f.unread.length - rs.length
  | [], f, _, _ => by simp [feed]
  | ch :: rs, f, h1, h2 => by
    simp only [List.map_cons, feed, feedStep, h1, h2, Bool.false_eq_true, if_false, Bool.not_false, Bool.true_or, Bool.and_true]
    split
    · rename_i hu
      obtain ⟨_, _, p3, _⟩ := readPieces_spec len hl (if drain then f.unread.length else 1) ch f.unread
      have hpos : 0 < f.unread.length := List.length_pos_iff.2 (by simpa using hu)
      generalize hx : readPieces len (if drain then f.unread.length else 1) ch f.unread = x at p3 ⊢
      obtain ⟨cs, u⟩ := x
      have ih := feed_rounds drain len hl rs { f with unread := u, fresh := false } h1 h2
      simp only [h1, h2, List.length_cons] at ih p3 ⊢
      have : u.length ≤ f.unread.length - 1 := by
        cases drain <;> simp only [if_true, Bool.false_eq_true, if_false] at p3 <;> omega
      omega
    · rename_i hu
      have hn : f.unread = [] := by simpa using hu
      have ih := feed_rounds drain len hl rs f h1 h2
      rw [hn] at ih ⊢
      simp only [List.length_nil, Nat.zero_sub, Nat.le_zero_eq] at ih ⊢
      exact ih

/-- **C180** (what holds), level-triggered (the default): however short the pieces, after as many rounds as bytes are waiting everything
has been read. -/
theorem C180_level_partial (len : Nat) (hl : 0 < len) (es : List FeedEv) (ho : StaysOpen es) (h0 : 0 ∉ sentBytes es)
    (rs : List (Nat → Nat)) (hr : (sentBytes es).length ≤ rs.length) :
    texts (feed false false len {} (es ++ rs.map .round)).2 = sentBytes es := by
  have ho' : StaysOpen (es ++ rs.map .round) := by
    intro e he
    rcases List.mem_append.1 he with h | h
    · exact ho e h
    · obtain ⟨_, _, rfl⟩ := List.mem_map.1 h
      simp
  have hs : sentBytes (es ++ rs.map .round) = sentBytes es := by
    have : ∀ rs : List (Nat → Nat), sentBytes (rs.map .round) = [] := by
      intro rs
      induction rs with
      | nil => rfl
      | cons c rs ih => exact ih
    simp only [sentBytes, List.map_append, List.flatten_append] at this ⊢
    rw [this, List.append_nil]
  obtain ⟨x1, x2, x3, _⟩ := feed_spec false false len hl es {} rfl rfl ho
  have hend := feed_rounds false len hl rs (feed false false len {} es).1 x1 x2
  have hall := (C180_order_partial false false len hl (es ++ rs.map .round) ho' _ _ rfl).2 (by rw [hs]; exact h0)
  have hnil : (feed false false len {} (es ++ rs.map .round)).1.unread = [] := by
    rw [feed_append]
    have hres := x3
    have hle : (feed false false len {} es).1.unread.length ≤ (sentBytes es).length := by
      obtain ⟨_, _, _, x4⟩ := feed_spec false false len hl es {} rfl rfl ho
      have := congrArg List.length (x4 (by simpa using h0))
      simp only [List.length_append, List.nil_append] at this
      omega
    exact List.length_eq_zero_iff.1 (by simp only; omega)
  rw [hnil, List.append_nil, hs] at hall
  exact hall

/-- What waits was reported as new, between rounds that drain. -/
theorem feed_fresh (len : Nat) (hl : 0 < len) : ∀ (es : List FeedEv) (f : Feed), f.fin = false → f.gone = false → StaysOpen es →
    (f.unread ≠ [] → f.fresh = true) → ((feed true true len f es).1.unread ≠ [] → (feed true true len f es).1.fresh = true)
  | [], f, _, _, _, h => h
  | e :: es, f, h1, h2, ho, h => by
    have ho' : StaysOpen es := fun x hx => ho x (by simp [hx])
    cases e with
    | shut => exact absurd rfl (ho .shut (by simp))
    | send s =>
      simp only [feed, feedStep, h1, h2, Bool.or_self, Bool.false_eq_true, if_false]
      refine feed_fresh len hl es _ rfl rfl ho' ?_
      intro hne
      by_cases hf : f.unread = []
      · rw [hf] at hne
        simp only [List.nil_append] at hne
        simp [hne]
      · simp [h hf]
    | round ch =>
      simp only [feed, feedStep, h1, h2, Bool.false_eq_true, if_false, Bool.not_true, Bool.false_or]
      split
      · obtain ⟨_, _, p3, _⟩ := readPieces_spec len hl f.unread.length ch f.unread
        refine feed_fresh len hl es _ rfl rfl ho' ?_
        intro hne
        exact absurd (List.length_eq_zero_iff.1 (by simp only [if_true]; omega)) hne
      · exact feed_fresh len hl es _ h1 h2 ho' h

/-- **C180** (what holds), edge-triggered with a callback that reads until nothing is left: after every round everything that was sent
until then has been read. -/
theorem C180_edge_partial (len : Nat) (hl : 0 < len) (es : List FeedEv) (ho : StaysOpen es) (h0 : 0 ∉ sentBytes es) (ch : Nat → Nat) :
    texts (feed true true len {} (es ++ [.round ch])).2 = sentBytes es := by
  obtain ⟨x1, x2, _, x4⟩ := feed_spec true true len hl es {} rfl rfl ho
  have hf := feed_fresh len hl es {} rfl rfl ho (by simp)
  have hall := x4 (by simpa using h0)
  rw [feed_append]
  generalize feed true true len {} es = y at x1 x2 hf hall
  obtain ⟨f, cs⟩ := y
  simp only [List.nil_append] at x1 x2 hf hall ⊢
  have ht : ∀ a b : List FeedCall, texts (a ++ b) = texts a ++ texts b := by intro a b; simp [texts]
  simp only [feed, feedStep, x1, x2, Bool.false_eq_true, if_false, Bool.not_true, Bool.false_or, List.append_nil, ht]
  by_cases hu : f.unread = []
  · rw [if_neg (by simp [hu])]
    rw [hu, List.append_nil] at hall
    simp [texts] at hall ⊢
    exact hall
  · rw [if_pos (by simp [hu, hf hu])]
    obtain ⟨_, p2, p3, _⟩ := readPieces_spec len hl f.unread.length ch f.unread
    have hne : 0 ∉ f.unread := fun h => h0 (hall ▸ by simp [h])
    have hnil := List.length_eq_zero_iff.1 (show (readPieces len f.unread.length ch f.unread).2.length = 0 by omega)
    have := p2 hne
    rw [hnil, List.append_nil] at this
    simp only [if_true, this]
    exact hall

/-- **C180 is false** edge-triggered for the callback of the README, which reads once: of a text that is longer than `len` it gets a
piece of at most `len` bytes, however often the loop goes round; the rest waits until the client sends more. -/
theorem C180_edge_refuted (len : Nat) (hl : 0 < len) (s : Str) (hs : len < s.length) (ch : Nat → Nat) (rs : List (Nat → Nat)) :
    ∃ k, 0 < k ∧ k ≤ len ∧ (feed true false len {} (.send s :: .round ch :: rs.map .round)).2 = [.read k (cString (s.take k))] ∧
      (feed true false len {} (.send s :: .round ch :: rs.map .round)).1.unread = s.drop k := by
  have hne : s ≠ [] := by rintro rfl; simp at hs
  obtain ⟨k, k1, k2, k3, _, k4⟩ := sockRead_piece s (-1) len (ch 0) hl hne
  have idle : ∀ (rs : List (Nat → Nat)) (f : Feed), f.fin = false → f.gone = false → f.fresh = false →
      feed true false len f (rs.map .round) = (f, []) := by
    intro rs
    induction rs with
    | nil => intro f _ _ _; rfl
    | cons c rs ih =>
      intro f a b c
      simp [feed, feedStep, a, b, c, ih f a b c]
  refine ⟨k, k1, k2, ?_⟩
  have hr : readPieces len 1 ch s = ([.read k (cString (s.take k))], s.drop k) := by
    simp [readPieces, hne, k4]
  simp [feed, feedStep, hne, hr, idle]

/-- **C180 is false** for a text with a zero byte: the piece ends there, and what follows it in the piece is never seen. -/
theorem C180_nul_refuted (len : Nat) (a b : Str) (ha : 0 ∉ a) (hlen : (a ++ 0 :: b).length ≤ len) (hm : len ≤ maxRw)
    (ch : Nat → Nat) (hch : len ≤ ch 0 + 1) (rs : List (Nat → Nat)) :
    (feed false false len {} (.send (a ++ 0 :: b) :: .round ch :: rs.map .round)).2 = [.read ((a ++ 0 :: b).length : Nat) a] := by
  have hne : a ++ 0 :: b ≠ [] := by simp
  have hl : 0 < len := by simp at hlen; omega
  obtain ⟨k, _, _, _, k5, k4⟩ := sockRead_piece (a ++ 0 :: b) (-1) len (ch 0) hl hne
  have hk := k5 hm hch hlen
  subst hk
  have idle : ∀ (rs : List (Nat → Nat)) (f : Feed), f.fin = false → f.gone = false → f.unread = [] →
      feed false false len f (rs.map .round) = (f, []) := by
    intro rs
    induction rs with
    | nil => intro f _ _ _; rfl
    | cons c rs ih =>
      intro f a b c
      simp [feed, feedStep, a, b, c, ih f a b c]
  have hcs : cString (a ++ 0 :: b) = a := by
    unfold cString
    rw [List.takeWhile_append_of_pos (by intro x hx; simp; rintro rfl; exact ha hx)]
    simp
  have hr : readPieces len 1 ch (a ++ 0 :: b) = ([.read ((a ++ 0 :: b).length : Nat) a], []) := by
    unfold readPieces
    rw [if_neg hne, k4, List.take_length, List.drop_length, hcs]
    rfl
  simp only [feed, feedStep, Bool.or_self, Bool.false_eq_true, if_false, List.nil_append, Bool.not_false, Bool.true_or,
    Bool.and_true, hr, bne_iff_ne, ne_eq, hne, not_false_eq_true, if_true]
  rw [idle]
  · rfl
  · rfl
  · rfl
  · rfl

/-- **C180 is false** for pieces of no bytes (the README's `msg.size()` of an empty `msg`): nothing is ever read, and level-triggered the
callback is called in every round. -/
theorem C180_zero_refuted (s : Str) (hs : s ≠ []) (rs : List (Nat → Nat)) :
    (feed false false 0 {} (.send s :: rs.map .round)).2 = List.replicate rs.length (.read 0 []) := by
  have key : ∀ (rs : List (Nat → Nat)) (f : Feed), f.fin = false → f.gone = false → f.unread = s →
      (feed false false 0 f (rs.map .round)).2 = List.replicate rs.length (.read 0 []) := by
    intro rs
    induction rs with
    | nil => intro f _ _ _; rfl
    | cons c rs ih =>
      intro f a b d
      have hr : readPieces 0 1 c s = ([.read 0 []], s) := by
        simp [readPieces, hs, sockRead, ioRead, cString]
      have := ih { f with unread := s, fresh := false } a b rfl
      simp [feed, feedStep, a, b, d, hs, hr, List.replicate_succ]
      simpa [a, b] using this
  simpa [feed, feedStep] using key rs { unread := s, fresh := s != [] } rfl rfl rfl

/-- The hypotheses can be met: "hello world" in pieces of at most four bytes, the first `recv` giving only two. -/
example : (feed false false 4 {} [.send b!"hello ", .round fun _ => 1, .send b!"world", .round fun _ => 9, .round fun _ => 9,
    .round fun _ => 9]).2 = [.read 2 b!"he", .read 4 b!"llo ", .read 4 b!"worl", .read 1 b!"d"] := by decide +kernel

end Cppnet
