import Verif.Model.Address
import Verif.Proofs.Num
import Verif.Proofs.Util
import Verif.Proofs.Header
import Verif.Spec.Http

/-!
# C65: addresses
-/

namespace Cppnet
open Spec

/-- The plain decimal text of a number: digits, no superfluous leading zero. -/
def Spec.PlainDecimal (t : Str) (n : Nat) : Prop :=
  t ≠ [] ∧ (∀ c ∈ t, DecDigit c) ∧ (t.head? = some 48 → t = b!"0") ∧ decimal t = n

/-- The canonical text of an address: four numbers below 256 in plain decimal, separated by dots. -/
def Spec.DottedQuad (s : Str) (a b c d : Nat) : Prop :=
  a < 256 ∧ b < 256 ∧ c < 256 ∧ d < 256 ∧ ∃ ta tb tc td, PlainDecimal ta a ∧ PlainDecimal tb b ∧
    PlainDecimal tc c ∧ PlainDecimal td d ∧ s = ta ++ b!"." ++ tb ++ b!"." ++ tc ++ b!"." ++ td

theorem decDigits_fuel : ∀ (fuel n : Nat), n < fuel → decDigits fuel n = natToStr n := by
  intro fuel
  induction fuel using Nat.strongRecOn with
  | ind fuel ih =>
    intro n hn
    cases fuel with
    | zero => omega
    | succ fuel =>
      unfold natToStr
      simp only [decDigits]
      by_cases h : n < 10
      · simp [h]
      · simp only [h, if_false]
        rw [ih fuel (by omega) (n / 10) (by omega), ih n (by omega) (n / 10) (by omega)]

theorem decimal_snoc (u : Str) (c : Byte) : decimal (u ++ [c]) = 10 * decimal u + (c.toNat - 48) := by
  induction u with
  | nil => simp [decimal]
  | cons x u ih =>
    simp only [List.cons_append, decimal, ih, List.length_append, List.length_singleton, Nat.pow_succ]
    rw [Nat.mul_add, ← Nat.add_assoc]
    congr 2
    rw [← Nat.mul_assoc, Nat.mul_comm, Nat.mul_comm 10]

theorem decimal_pos {u : Str} (hne : u ≠ []) (hd : ∀ c ∈ u, DecDigit c) (h0 : u.head? ≠ some 48) :
    0 < decimal u := by
  cases u with
  | nil => exact absurd rfl hne
  | cons c u =>
    have hc := hd c (by simp)
    have h48 : c ≠ 48 := by simpa using h0
    have key : ∀ c : Byte, 48 ≤ c ∧ c ≤ 57 → c ≠ 48 → 1 ≤ c.toNat - 48 := by decide +kernel
    have : 1 ≤ c.toNat - 48 := key c hc h48
    simp only [decimal]
    have h10 : 0 < 10 ^ u.length := Nat.pow_pos (by omega)
    exact Nat.lt_of_lt_of_le (Nat.mul_pos this h10) (Nat.le_add_right _ _)

theorem plainDecimal_text : ∀ {t : Str} {n : Nat}, PlainDecimal t n → t = natToStr n := by
  intro t
  induction t using snoc_induction with
  | nil => intro n h; exact absurd rfl h.1
  | snoc u c ih =>
    rintro n ⟨_, hd, h0, rfl⟩
    have hcv : ∀ c : Byte, DecDigit c → c = 48 + UInt8.ofNat (c.toNat - 48) ∧ c.toNat - 48 < 10 := by
      unfold DecDigit; decide +kernel
    obtain ⟨e1, e2⟩ := hcv c (hd c (by simp))
    rw [decimal_snoc]
    by_cases hu : u = []
    · subst hu
      unfold natToStr
      simp only [decimal, Nat.mul_zero, Nat.zero_add, decDigits, e2, if_true, List.nil_append]
      rw [← e1]
    · have hud : ∀ c ∈ u, DecDigit c := fun x hx => hd x (by simp [hx])
      have hu0 : u.head? ≠ some 48 := by
        intro e
        have h1 : (u ++ [c]).head? = some 48 := by
          cases u with
          | nil => exact absurd rfl hu
          | cons x xs => simpa using e
        have := congrArg List.length (h0 h1)
        cases u with
        | nil => exact absurd rfl hu
        | cons x xs => simp at this
      have hpos := decimal_pos hu hud hu0
      have := ih ⟨hu, hud, fun e => absurd e hu0, rfl⟩
      obtain ⟨v, hv⟩ : ∃ v, c.toNat - 48 = v := ⟨_, rfl⟩
      rw [hv] at e1 e2 ⊢
      unfold natToStr
      rw [decDigits, if_neg (by omega)]
      have q1 : (10 * decimal u + v) / 10 = decimal u := by omega
      have q2 : (10 * decimal u + v) % 10 = v := by omega
      rw [q1, q2, decDigits_fuel _ _ (by omega), ← this, ← e1]

theorem head_table : ∀ n : Fin 256, (natToStr n.val).head? = some 48 → natToStr n.val = b!"0" := by
  decide +kernel

theorem plainDecimal_natToStr {n : Nat} (h : n < 256) : PlainDecimal (natToStr n) n := by
  have hd : ∀ c : Byte, isDigit c = true → 48 ≤ c ∧ c ≤ 57 := by decide +kernel
  refine ⟨natToStr_ne_nil n, fun c hc => hd c (natToStr_digits n c hc), head_table ⟨n, h⟩, ?_⟩
  rw [← digitsVal_eq, digitsVal_natToStr]

theorem dottedQuad_iff {s : Str} {a b c d : Nat} : DottedQuad s a b c d ↔
    a < 256 ∧ b < 256 ∧ c < 256 ∧ d < 256 ∧
    s = natToStr a ++ b!"." ++ natToStr b ++ b!"." ++ natToStr c ++ b!"." ++ natToStr d := by
  constructor
  · rintro ⟨h1, h2, h3, h4, ta, tb, tc, td, p1, p2, p3, p4, rfl⟩
    rw [plainDecimal_text p1, plainDecimal_text p2, plainDecimal_text p3, plainDecimal_text p4]
    exact ⟨h1, h2, h3, h4, rfl⟩
  · rintro ⟨h1, h2, h3, h4, rfl⟩
    exact ⟨h1, h2, h3, h4, _, _, _, _, plainDecimal_natToStr h1, plainDecimal_natToStr h2,
      plainDecimal_natToStr h3, plainDecimal_natToStr h4, rfl⟩

theorem swap_swap (n : Nat) (h : n < 65536) :
    ((n % 256 * 256 + n / 256) % 65536 % 256 * 256 + (n % 256 * 256 + n / 256) % 65536 / 256) % 65536 = n := by
  have e : (n % 256 * 256 + n / 256) % 65536 = n % 256 * 256 + n / 256 := Nat.mod_eq_of_lt (by omega)
  have e1 : (n % 256 * 256 + n / 256) % 256 = n / 256 := by omega
  have e2 : (n % 256 * 256 + n / 256) / 256 = n % 256 := by omega
  rw [e, e1, e2, Nat.div_add_mod']
  exact Nat.mod_eq_of_lt h

theorem htons_htons (p : UInt16) : htons (htons p) = p := by
  unfold htons
  apply UInt16.toNat_inj.1
  simp only [UInt16.toNat_ofNat']
  exact swap_swap _ p.toNat_lt

theorem numBase_append (base : Nat) (ds rest : Str) : ∀ acc,
    (∀ c ∈ ds, ∃ v, digitVal c = some v ∧ v < base) →
    numBase base acc (ds ++ rest) =
      numBase base (ds.foldl (fun acc c => acc * base + (digitVal c).getD 0) acc) rest := by
  induction ds with
  | nil => intro acc _; rfl
  | cons c cs ih =>
    intro acc h
    obtain ⟨v, hv, hb⟩ := h c (by simp)
    simp only [List.cons_append, numBase, hv, hb, if_true, List.foldl_cons, Option.getD_some]
    exact ih _ (fun x hx => h x (by simp [hx]))

theorem byte_val : ∀ a : Fin 256,
    (natToStr a.val).foldl (fun acc c => acc * 10 + (digitVal c).getD 0) 0 = a.val := by
  decide +kernel

theorem byte_digits (a : Fin 256) :
    ∀ c ∈ natToStr a.val, (digitVal c).isSome ∧ (digitVal c).getD 0 < 10 ∧ isDigit c = true := by
  have h : ∀ a : Fin 256, ((natToStr a.val).all fun c =>
      decide ((digitVal c).isSome ∧ (digitVal c).getD 0 < 10 ∧ isDigit c = true)) = true := by decide +kernel
  intro c hc
  simpa using List.all_eq_true.1 (h a) c hc

theorem byte_table (a : Fin 256) :
    (natToStr a.val).foldl (fun acc c => acc * 10 + (digitVal c).getD 0) 0 = a.val ∧
    ((natToStr a.val).head? = some 48 → a = 0) ∧
    (∀ c ∈ natToStr a.val, (digitVal c).isSome ∧ (digitVal c).getD 0 < 10 ∧ isDigit c = true) := by
  refine ⟨byte_val a, fun h => ?_, byte_digits a⟩
  have h1 := byte_val a
  rw [head_table a h] at h1
  exact Fin.ext h1.symm

theorem strtoul_byte (a : Nat) (ha : a < 256) (rest : Str) (hr : rest = [] ∨ ∃ t, rest = 46 :: t) :
    strtoul0 (natToStr a ++ rest) = (a, rest) := by
  obtain ⟨h1, h3, h4⟩ := byte_table ⟨a, ha⟩
  simp only at h1 h3 h4
  have hstop : ∀ base acc, numBase base acc rest = (acc, rest) := by
    intro base acc
    rcases hr with rfl | ⟨t, rfl⟩
    · rfl
    · simp [numBase, digitVal]
  by_cases h0 : a = 0
  · subst h0
    have e : natToStr 0 = b!"0" := by decide +kernel
    rw [e]
    have : numBase 8 0 (b!"0" ++ rest) = (0, rest) := by
      rw [numBase_append _ _ _ _ (by simp; decide)]
      simp [hstop]
      decide
    rcases hr with rfl | ⟨t, rfl⟩
    · exact this
    · cases t with
      | nil => exact this
      | cons h t =>
        simp only [List.cons_append, List.nil_append, strtoul0]
        rw [if_neg (by simp)]
        exact this
  · have hne := natToStr_ne_nil a
    cases hs : natToStr a with
    | nil => exact absurd hs hne
    | cons x xs =>
      have hx : x ≠ 48 := by
        rintro rfl
        have := h3 (by rw [hs]; rfl)
        exact h0 (by simpa using this)
      have e : strtoul0 (x :: xs ++ rest) = numBase 10 0 (x :: xs ++ rest) := by
        unfold strtoul0
        split
        · rename_i heq; simp at heq; exact absurd heq.1 hx
        · rename_i heq; simp at heq; exact absurd heq.1 hx
        · rfl
      rw [e, ← hs, numBase_append 10 _ _ _ ?_, h1, hstop]
      intro c hc
      obtain ⟨p, q, _⟩ := h4 c hc
      obtain ⟨v, hv⟩ := Option.isSome_iff_exists.1 p
      refine ⟨v, hv, ?_⟩
      rw [hv] at q
      exact q

theorem inetLoop_step (fuel : Nat) (parts : List Nat) (a : Nat) (ha : a < 256) (hp : parts.length ≤ 2) (t : Str) :
    inetLoop (fuel + 1) parts (natToStr a ++ 46 :: t) = inetLoop fuel (parts ++ [a]) t := by
  obtain ⟨_, _, h4⟩ := byte_table ⟨a, ha⟩
  have hne := natToStr_ne_nil a
  have hst := strtoul_byte a ha (46 :: t) (Or.inr ⟨t, rfl⟩)
  cases hs : natToStr a with
  | nil => exact absurd hs hne
  | cons x xs =>
    have hx := (h4 x (by simp [hs])).2.2
    rw [hs] at hst
    simp only [List.cons_append] at hst ⊢
    rw [inetLoop]
    rw [if_pos hx, hst]
    simp only
    rw [if_neg (by omega), if_neg (by omega)]

theorem inetLoop_last (fuel : Nat) (parts : List Nat) (a : Nat) (ha : a < 256) :
    inetLoop (fuel + 1) parts (natToStr a) = some (parts, a) := by
  obtain ⟨_, _, h4⟩ := byte_table ⟨a, ha⟩
  have hne := natToStr_ne_nil a
  have hst := strtoul_byte a ha [] (Or.inl rfl)
  rw [List.append_nil] at hst
  cases hs : natToStr a with
  | nil => exact absurd hs hne
  | cons x xs =>
    have hx := (h4 x (by simp [hs])).2.2
    rw [hs] at hst
    rw [inetLoop]
    rw [if_pos hx, hst]
    simp only
    rw [if_neg (by omega)]

theorem takeWhile_self {p : Byte → Bool} {s : Str} (h : ∀ c ∈ s, p c = true) : s.takeWhile p = s := by
  induction s with
  | nil => rfl
  | cons c s ih => simp [List.takeWhile_cons, h c, ih (fun x hx => h x (by simp [hx]))]

theorem quad_no_nul {s : Str} {a b c d : Nat} (h : DottedQuad s a b c d) : s.takeWhile (· != 0) = s := by
  apply takeWhile_self
  intro x hx
  obtain ⟨_, _, _, _, rfl⟩ := dottedQuad_iff.1 h
  have hd : ∀ n, ∀ y ∈ natToStr n, (y != 0) = true := by
    intro n y hy
    have key : ∀ y : Byte, isDigit y = true → (y != 0) = true := by decide +kernel
    exact key y (natToStr_digits n y hy)
  simp only [List.mem_append, List.mem_singleton] at hx
  rcases hx with (((((hx | hx) | hx) | hx) | hx) | hx) | hx
  all_goals first | exact hd _ _ hx | (subst hx; rfl)

theorem inetAddr_quad {s : Str} {a b c d : Nat} (h : DottedQuad s a b c d) : inetAddr s = ⟨a, b, c, d⟩ := by
  have hn := quad_no_nul h
  obtain ⟨ha, hb, hc, hd, rfl⟩ := dottedQuad_iff.1 h
  unfold inetAddr
  rw [hn]
  have e : natToStr a ++ b!"." ++ natToStr b ++ b!"." ++ natToStr c ++ b!"." ++ natToStr d =
      natToStr a ++ 46 :: (natToStr b ++ 46 :: (natToStr c ++ 46 :: natToStr d)) := by simp
  rw [e, inetLoop_step 3 [] a ha (by simp), inetLoop_step 2 _ b hb (by simp), inetLoop_step 1 _ c hc (by simp),
    inetLoop_last 0 _ d hd]
  simp only [List.nil_append, List.cons_append]
  rw [if_neg (by omega)]

/-- C65: every port and every canonical dotted quad come back, and `ToString` is `ip:port`. -/
theorem C65_round_trip (s : Str) (a b c d : Nat) (port : UInt16) (h : DottedQuad s a b c d) :
    (addressInit s port).2 = 0 ∧ addressIP (addressInit s port).1 = s ∧
    addressPort (addressInit s port).1 = port ∧
    addressToString (addressInit s port).1 = s ++ b!":" ++ natToStr port.toNat := by
  have hip : addressIP (addressInit s port).1 = s := by
    unfold addressIP addressInit
    rw [inetAddr_quad h]
    exact (dottedQuad_iff.1 h).2.2.2.2.symm
  have hport : addressPort (addressInit s port).1 = port := htons_htons port
  refine ⟨rfl, hip, hport, ?_⟩
  unfold addressToString
  rw [hip, hport]

/-- C65 is false in its last part: `Init` reports success for text that is no address, and the object
then holds 255.255.255.255. -/
theorem C65_invalid_accepted_refuted :
    (addressInit b!"no address" 80).2 = 0 ∧ addressIP (addressInit b!"no address" 80).1 = b!"255.255.255.255" := by
  decide +kernel

/-- C65, more generally: `Init` never fails, for any text. -/
theorem C65_init_never_fails_refuted (s : Str) (port : UInt16) : (addressInit s port).2 = 0 := rfl

/-- C65, the resolver path: every address the resolver answers is stored, with the given port; a failed
lookup is reported and leaves the address alone. -/
theorem C65_domain (old : Address) (port : UInt16) :
    (∀ a b c d, a < 256 → b < 256 → c < 256 → d < 256 →
      (addressInitDomain old port (some ⟨a, b, c, d⟩)).2 = 0 ∧
      (addressInitDomain old port (some ⟨a, b, c, d⟩)).1.ip = ⟨a, b, c, d⟩ ∧
      addressPort (addressInitDomain old port (some ⟨a, b, c, d⟩)).1 = port) ∧
    (addressInitDomain old port none).2 = -1 ∧ (addressInitDomain old port none).1.ip = old.ip := by
  refine ⟨fun a b c d ha hb hc hd => ⟨rfl, ?_, htons_htons port⟩, rfl, rfl⟩
  exact inetAddr_quad (dottedQuad_iff.2 ⟨ha, hb, hc, hd, rfl⟩)

example : DottedQuad b!"192.168.0.1" 192 168 0 1 ∧
    addressToString (addressInit b!"192.168.0.1" 65535).1 = b!"192.168.0.1:65535" := by
  rw [dottedQuad_iff]; decide +kernel

end Cppnet
