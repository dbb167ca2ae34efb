import Verif.Props.Server
import Verif.Props.Resp
import Verif.Props.Socket
import Verif.Model.HttpClient

/-!
# Lemmas on reading and serving one message
-/

namespace Cppnet
open Spec
variable {σ : Type}

/-- Cutting a message after its blank line. -/
theorem message_cut {s line : Str} {ls : List Str} {body : Str} (h : MessageText s line ls body) :
    ∃ head, s = head ++ crlf2 ++ body ∧ ¬ Occurs crlf2 (head ++ crlf2.dropLast) ∧
      MessageText (head ++ crlf2) line ls [] := by
  obtain ⟨head, h1, h2⟩ := message_head h
  refine ⟨head, h1, h2, ?_⟩
  obtain ⟨e, h3, h4⟩ := messageText_iff.1 h
  rw [messageText_iff]
  refine ⟨?_, h3, h4⟩
  rw [h1] at e
  have : (head ++ crlf2) ++ body = (line ++ crlf ++ (terminated ls ++ crlf)) ++ body := by
    rw [e]; simp
  have := List.append_cancel_right this
  rw [this]; simp

theorem earlyEnd_crlf2 (s : Str) : EarlyEnd crlf2 0 s ↔ 10 ∈ s.take 3 := by
  constructor
  · rintro ⟨front, last, h, _, h2⟩
    have e : last = 10 := by
      have := getLast?_front h
      simpa [crlf2] using this.symm
    subst e
    rcases h2 with h2 | h2
    · cases h2
    · simpa [crlf2] using h2
  · intro h
    exact ⟨[13, 10, 13], 10, rfl, by simp [crlf2], Or.inr (by simpa [crlf2] using h)⟩

/-- Reading the head of a message off the stream. -/
theorem readHead {head rest : Str} {fin : Int} (h1 : ¬ Occurs crlf2 (head ++ crlf2.dropLast))
    (h2 : 10 ∉ (head ++ crlf2 ++ rest).take 3) (hf : Fits (head ++ crlf2 ++ rest)) :
    sockReadUntil ⟨head ++ crlf2 ++ rest, fin⟩ [] crlf2 =
      .ok (toInt32 (head ++ crlf2).length, head ++ crlf2, ⟨rest, fin⟩) := by
  have hl : crlf2.getLast? = some 10 := rfl
  unfold sockReadUntil
  rw [hl]
  unfold Fits at hf
  exact readUntilLoop_found fin hl (fun h => h1 (occurs_iff_infix.2 h)) _ _ _ (by simp) (by simp)
    (by simp only [List.nil_append]; omega) (fun e => absurd e (by decide)) (by simpa [crlf2] using h2)
    (fun _ h => by simp [crlf2] at h)

/-- What a body read of exactly `n = body.length > 0` bytes does. -/
theorem readBody {body rest : Str} {fin : Int} {n : Int} (hn : n = body.length) (hpos : 0 < n) (hmax : body.length ≤ maxRw) :
    sockRead ⟨body ++ rest, fin⟩ n.toNat true 0 = (n, cString body, ⟨rest, fin⟩) := by
  have hlen : 0 < body.length := by omega
  have ht : n.toNat = body.length := by omega
  have hne : body ++ rest ≠ [] := by
    intro e
    have := congrArg List.length e
    simp only [List.length_append, List.length_nil] at this
    omega
  obtain ⟨b, r, h1, _, h3, h4, _, h6, _⟩ := C35_read_partial ⟨body ++ rest, fin⟩ n.toNat 0 true (by omega) hne
  have hl := h4 rfl (by omega) (by simp [ht])
  obtain ⟨rfl, rfl⟩ := List.append_inj h1 (by rw [hl, ht])
  rw [h6, hl, Int.toNat_of_nonneg (by omega)]

/-- A body read of `n` bytes out of at least as many: one `recv` does not take more than the kernel's limit. -/
theorem readBody_any {body rest : Str} {fin : Int} {n : Int} (hn : n ≤ body.length) (hpos : 0 < n) :
    sockRead ⟨body ++ rest, fin⟩ n.toNat true 0 =
      (((min n.toNat maxRw : Nat) : Int), cString (body.take (min n.toNat maxRw)), ⟨body.drop (min n.toNat maxRw) ++ rest, fin⟩) := by
  have hk : min n.toNat maxRw ≤ body.length := by omega
  have hne : body ++ rest ≠ [] := by
    intro e
    have := congrArg List.length e
    simp only [List.length_append, List.length_nil] at this
    omega
  obtain ⟨b, r, h1, _, _, _, _, h6, _⟩ := C35_read_partial ⟨body ++ rest, fin⟩ n.toNat 0 true (by omega) hne
  have hl : b.length = min n.toNat maxRw := by
    have e := congrArg Prod.fst h6
    simp only [sockRead, ioRead] at e
    rw [if_neg (by omega), if_neg hne] at e
    simp only [recvCount, if_true, List.length_append] at e
    omega
  have e1 : body.take (min n.toNat maxRw) = b := by
    have := congrArg (List.take (min n.toNat maxRw)) h1
    rw [List.take_append_of_le_length hk, ← hl, List.take_left] at this
    rw [← hl]; exact this
  have e2 : body.drop (min n.toNat maxRw) ++ rest = r := by
    have := congrArg (List.drop (min n.toNat maxRw)) h1
    rw [List.drop_append_of_le_length hk, ← hl, List.drop_left] at this
    rw [← hl]; exact this
  rw [h6, e1, e2, hl]

theorem toInt32_le (n : Nat) : toInt32 n ≤ n := by
  unfold toInt32
  have : n % 2 ^ 32 ≤ n := Nat.mod_le _ _
  simp only
  split <;> omega

/-- Does the stream hold a complete header block? -/
theorem first_blank {s : Str} (h : Occurs crlf2 s) :
    ∃ head rest, s = head ++ crlf2 ++ rest ∧ ¬ Occurs crlf2 (head ++ crlf2.dropLast) := by
  obtain ⟨line, ls, body, hm⟩ := message_exists h
  obtain ⟨head, h1, h2⟩ := message_head hm
  exact ⟨head, body, h1, h2⟩

/-- The parser on the head of a message alone: the same, with an empty body. -/
theorem parse_head {p q : HttpReq} {line : Str} {ls : List Str} {s body : Str} (h : MessageText s line ls body) (hf : Fits s)
    (head : Str) (h1 : s = head ++ crlf2 ++ body) (hm : MessageText (head ++ crlf2) line ls [])
    {rc : Int} (hp : reqParse p s = .ok (q, rc)) :
    ∃ q', reqParse p (head ++ crlf2) = .ok (q', rc) ∧ q' = { q with body := [] } := by
  have hf' : Fits (head ++ crlf2) := by
    unfold Fits at *
    rw [h1] at hf
    simp only [List.length_append] at hf ⊢
    omega
  rw [reqParse_message p h hf] at hp
  rw [reqParse_message p hm hf']
  unfold reqTail at *
  cases hs : split b!" " line with
  | nil => rw [hs] at hp; simp only at hp ⊢; cases hp; exact ⟨_, rfl, rfl⟩
  | cons m l =>
    cases l with
    | nil => rw [hs] at hp; simp only at hp ⊢; cases hp; exact ⟨_, rfl, rfl⟩
    | cons t l =>
      cases l with
      | nil => rw [hs] at hp; simp only at hp ⊢; cases hp; exact ⟨_, rfl, rfl⟩
      | cons v l =>
        cases l with
        | cons x xs => rw [hs] at hp; simp only at hp ⊢; cases hp; exact ⟨_, rfl, rfl⟩
        | nil =>
          rw [hs] at hp
          simp only at hp ⊢
          by_cases hm : methodOfStr m = .UNKNOWN
          · simp only [hm, if_true] at hp ⊢; cases hp; exact ⟨_, rfl, rfl⟩
          · simp only [hm, if_false] at hp ⊢
            cases hr : routeParse p.route t with
            | error e => simp [hr, bind, Except.bind] at hp
            | ok x =>
              obtain ⟨route, rc'⟩ := x
              simp only [hr, bind, Except.bind] at hp ⊢
              by_cases h2 : rc' = kSuccess
              case neg => rw [if_pos h2] at hp ⊢; cases hp; exact ⟨_, rfl, rfl⟩
              · rw [if_neg (by simp [h2])] at hp ⊢
                by_cases h3 : versionOfStr v = .UNKNOWN
                · simp only [h3, if_true] at hp ⊢; cases hp; exact ⟨_, rfl, rfl⟩
                · simp only [h3, if_false] at hp ⊢; cases hp; exact ⟨_, rfl, rfl⟩

theorem reqLine_start (o : HashOrder) (r : HttpReq) (rest : Str) :
    10 ∉ (reqLine o r ++ rest).take 3 := by
  unfold reqLine
  cases r.method <;> simp [methodToStr]

theorem respLine_start (r : HttpResp) (hs : r.status ≠ .UNKNOWN) (rest : Str) :
    10 ∉ (respLine r ++ rest).take 3 := by
  have key : ∀ (c : HttpStatus) (v : HttpVersion), c ≠ .UNKNOWN →
      3 ≤ (versionToStr v ++ b!" " ++ intToStr (statusNum c)).length ∧
      10 ∉ (versionToStr v ++ b!" " ++ intToStr (statusNum c)).take 3 := by
    intro c v
    cases v <;> cases c <;> first | (intro h; exact absurd rfl h) | (intro _; decide +kernel)
  obtain ⟨h1, h2⟩ := key r.status r.version hs
  have e : respLine r ++ rest =
      (versionToStr r.version ++ b!" " ++ intToStr (statusNum r.status)) ++ (b!" " ++ statusToStr r.status ++ rest) := by
    simp [respLine]
  rw [e, List.take_append_of_le_length h1]
  exact h2

end Cppnet
