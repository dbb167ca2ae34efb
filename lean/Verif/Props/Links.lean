import Verif.Spec.Links
import Verif.Props.File
import Verif.Props.Static

/-!
# C183: a symbolic link stands for what it points to
-/

namespace Cppnet
open Spec
variable {σ : Type}

/-- One step of the walk. -/
theorem walk_eq (t : LTree) (follow : Bool) (L : Nat) (here todo : FsKey) : walk t follow L here todo =
    match todo with
    | [] => match t here with
      | some n => .found here n
      | none => .nothing
    | c :: rest =>
      match t here with
      | some (.node .dir) =>
        match t (here ++ [c]) with
        | none => if rest = [] then .free (here ++ [c]) else .nothing
        | some (.link target) =>
          if rest = [] ∧ follow = false then .found (here ++ [c]) (.link target)
          else match L with
            | 0 => .refused
            | n + 1 => walk t follow n [] (target ++ rest)
        | some _ => walk t follow L (here ++ [c]) rest
      | some .shut => .refused
      | _ => .nothing := by
  cases L <;> cases todo <;> simp only [walk, walkVia] <;> rfl

/-- Where the walk ends when the name leads to `k`. -/
theorem leads_walk {t : LTree} {n : Nat} {h todo k : FsKey} (hl : Leads t n h todo k) : ∀ L, n ≤ L →
    (∃ x, t k = some x ∧ (∀ g, x ≠ .link g) ∧ walk t true L h todo = .found k x) ∨ (t k = none ∧ walk t true L h todo = .free k) := by
  induction hl with
  | here hx hl => exact fun L _ => .inl ⟨_, hx, hl, by rw [walk_eq, hx]⟩
  | new hd hn => exact fun L _ => .inr ⟨hn, by rw [walk_eq, hd]; simp [hn]⟩
  | @step n h rest k c x hd hx hl next ih =>
    intro L hL
    have : walk t true L h (c :: rest) = walk t true L (h ++ [c]) rest := by
      rw [walk_eq, hd]
      cases x with
      | link g => exact absurd rfl (hl g)
      | node y => simp only [hx]
      | shut => simp only [hx]
    rw [this]
    exact ih L hL
  | @link n h rest k target c hd hx next ih =>
    intro L hL
    obtain ⟨L, rfl⟩ : ∃ m, L = m + 1 := ⟨L - 1, by omega⟩
    have : walk t true (L + 1) h (c :: rest) = walk t true L [] (target ++ rest) := by
      rw [walk_eq, hd]
      simp only [hx]
      rw [if_neg (by simp)]
    rw [this]
    exact ih L (by omega)

/-- The directory of a name that leads somewhere is there. -/
theorem leads_parent {t : LTree} {n : Nat} {h todo k : FsKey} (hl : Leads t n h todo k) : ∀ L, n ≤ L → todo ≠ [] →
    ∃ k', walk t true L h todo.dropLast = .found k' (.node .dir) := by
  induction hl with
  | here hx hl => exact fun L _ hne => absurd rfl hne
  | @new h c hd hn => exact fun L _ _ => ⟨h, by simp only [List.dropLast_singleton]; rw [walk_eq, hd]⟩
  | @step n h rest k c x hd hx hl next ih =>
    intro L hL _
    cases rest with
    | nil => exact ⟨h, by simp only [List.dropLast_singleton]; rw [walk_eq, hd]⟩
    | cons d rest =>
      obtain ⟨k', hk'⟩ := ih L hL (by simp)
      refine ⟨k', ?_⟩
      rw [List.dropLast_cons_of_ne_nil (by simp), walk_eq, hd]
      cases x with
      | link g => exact absurd rfl (hl g)
      | node y => simpa only [hx] using hk'
      | shut => simpa only [hx] using hk'
  | @link n h rest k target c hd hx next ih =>
    intro L hL _
    obtain ⟨L, rfl⟩ : ∃ m, L = m + 1 := ⟨L - 1, by omega⟩
    cases rest with
    | nil => exact ⟨h, by simp only [List.dropLast_singleton]; rw [walk_eq, hd]⟩
    | cons d rest =>
      obtain ⟨k', hk'⟩ := ih L (by omega) (by simp)
      refine ⟨k', ?_⟩
      rw [List.dropLast_cons_of_ne_nil (by simp), walk_eq, hd]
      simp only [hx]
      rw [if_neg (by simp)]
      rw [List.dropLast_append_of_ne_nil (by simp)] at hk'
      exact hk'

/-- And conversely: where the walk ends is where the name leads. -/
theorem walk_leads {t : LTree} (L : Nat) (h todo k : FsKey) (hw : walk t true L h todo = .free k ∨
    ∃ x, (∀ g, x ≠ .link g) ∧ walk t true L h todo = .found k x) : ∃ n, n ≤ L ∧ Leads t n h todo k := by
  induction L using Nat.strongRecOn generalizing h todo with
  | _ L ihL =>
    induction todo generalizing h with
    | nil =>
      rw [walk_eq] at hw
      cases hn : t h with
      | none => simp [hn] at hw
      | some x =>
        simp only [hn] at hw
        rcases hw with hw | ⟨y, hy, hw⟩
        · cases hw
        · cases hw; exact ⟨0, by omega, .here hn hy⟩
    | cons c rest ih =>
      rw [walk_eq] at hw
      cases hd : t h with
      | none => simp [hd] at hw
      | some y =>
        cases y with
        | shut => simp [hd] at hw
        | link g => simp [hd] at hw
        | node y =>
          cases y with
          | file d w => simp [hd] at hw
          | other => simp [hd] at hw
          | dir =>
            simp only [hd] at hw
            cases hx : t (h ++ [c]) with
            | none =>
              simp only [hx] at hw
              by_cases h0 : rest = []
              · subst h0
                simp only [if_true] at hw
                rcases hw with hw | ⟨y, hy, hw⟩
                · cases hw; exact ⟨0, by omega, .new hd hx⟩
                · cases hw
              · simp [h0] at hw
            | some z =>
              cases z with
              | link g =>
                simp only [hx] at hw
                rw [if_neg (by simp)] at hw
                cases L with
                | zero => simp at hw
                | succ L =>
                  obtain ⟨n, hn, hl⟩ := ihL L (by omega) _ _ hw
                  exact ⟨n + 1, by omega, .link hd hx hl⟩
              | node z =>
                simp only [hx] at hw
                obtain ⟨n, hn, hl⟩ := ih _ hw
                exact ⟨n, hn, .step hd hx (by simp) hl⟩
              | shut =>
                simp only [hx] at hw
                obtain ⟨n, hn, hl⟩ := ih _ hw
                exact ⟨n, hn, .step hd hx (by simp) hl⟩

/-- **C183** (what holds): if two paths lead to the same place, every function but `Remove` does the same for both.  So a link stands for
what it points to. -/
theorem C183_same_partial (res : Str → FsKey) (t : LTree) (p q data : Str) (k : FsKey) (a : FsAns) (hp : LeadsTo res t p k)
    (hq : LeadsTo res t q k) (hp0 : res (cString p) ≠ []) (hq0 : res (cString q) ≠ []) :
    linkIsFile res t p = linkIsFile res t q ∧ linkIsDir res t p = linkIsDir res t q ∧ linkCanWrite res t p = linkCanWrite res t q ∧
    linkGet res t p data a = linkGet res t q data a ∧ linkLineCount res t p a = linkLineCount res t q a ∧
    linkWrite res t p data a = linkWrite res t q data a ∧ linkAppend res t p data a = linkAppend res t q data a ∧
    linkCreate res t p a = linkCreate res t q a := by
  have hr : reach res t p = reach res t q := by
    obtain ⟨n, hn, h1⟩ := hp
    obtain ⟨m, hm, h2⟩ := hq
    unfold reach
    rcases leads_walk h1 40 hn with ⟨x, hx, _, e⟩ | ⟨hx, e⟩ <;> rcases leads_walk h2 40 hm with ⟨y, hy, _, e'⟩ | ⟨hy, e'⟩
    · rw [e, e']; rw [hx] at hy; cases hy; rfl
    · rw [hx] at hy; cases hy
    · rw [hx] at hy; cases hy
    · rw [e, e']
  have hf : linkIsFile res t p = linkIsFile res t q := by unfold linkIsFile; rw [hr]; rfl
  refine ⟨hf, ?_, ?_, ?_, ?_, ?_, ?_, ?_⟩
  · unfold linkIsDir; rw [hr]; rfl
  · unfold linkCanWrite; rw [hr]; rfl
  · unfold linkGet; rw [hr]; rfl
  · unfold linkLineCount; rw [hr]; rfl
  · unfold linkWrite; rw [hr]
  · unfold linkAppend; rw [hr]
  · obtain ⟨n, hn, h1⟩ := hp
    obtain ⟨m, hm, h2⟩ := hq
    obtain ⟨k1, e1⟩ := leads_parent h1 40 hn hp0
    obtain ⟨k2, e2⟩ := leads_parent h2 40 hm hq0
    unfold linkCreate
    simp only [hf, e1, e2, statusOf, bind, Except.bind, hr]

/-- A tree with links, for the examples: `d` is a directory with a file, `l` leads to the directory, `m` to the file through `l`, `n` to a
name that is free; `x` is closed, `z` leads to itself. -/
def linkTree : LTree := fun k =>
  if k = [] ∨ k = [b!"d"] then some (.node .dir)
  else if k = [b!"d", b!"f"] then some (.node (.file b!"text" true))
  else if k = [b!"l"] then some (.link [b!"d"])
  else if k = [b!"m"] then some (.link [b!"l", b!"f"])
  else if k = [b!"n"] then some (.link [b!"d", b!"g"])
  else if k = [b!"x"] then some .shut
  else if k = [b!"z"] then some (.link [b!"z"])
  else none

/-- `m` and `d/f` lead to the same place, and so do `n` and `d/g`. -/
example : LeadsTo smallRes linkTree b!"m" [b!"d", b!"f"] ∧ LeadsTo smallRes linkTree b!"d/f" [b!"d", b!"f"] ∧
    LeadsTo smallRes linkTree b!"n" [b!"d", b!"g"] ∧ linkGet smallRes linkTree b!"m" [] {} = .ok (kSuccess, b!"text") := by
  refine ⟨?_, ?_, ?_, by decide +kernel⟩
  · exact walk_leads 40 [] _ _ (.inr ⟨.node (.file b!"text" true), by simp, by decide +kernel⟩)
  · exact walk_leads 40 [] _ _ (.inr ⟨.node (.file b!"text" true), by simp, by decide +kernel⟩)
  · exact walk_leads 40 [] _ _ (.inl (by decide +kernel))

/-! ### Without links -/

theorem walk_found_plain {fs : FsTree} (hr : Rooted fs) (b : Bool) (L : Nat) (todo : FsKey) : ∀ (h : FsKey) (n : FsNode),
    fs (h ++ todo) = some n → walk (plain fs) b L h todo = .found (h ++ todo) (.node n) := by
  induction todo with
  | nil =>
    intro h n hn
    rw [List.append_nil] at hn ⊢
    rw [walk_eq]
    simp [plain, hn]
  | cons c rest ih =>
    intro h n hn
    have e : h ++ c :: rest = h ++ [c] ++ rest := by simp
    rw [e] at hn ⊢
    have up : ∀ (r : FsKey) (p : FsKey) (x : FsNode), fs (p ++ r) = some x → fs p ≠ none := by
      intro r
      induction r with
      | nil => intro p x hx; rw [List.append_nil] at hx; rw [hx]; simp
      | cons d r ihr =>
        intro p x hx
        have e : p ++ d :: r = p ++ [d] ++ r := by simp
        rw [e] at hx
        have := ihr (p ++ [d]) x hx
        rw [hr.2 p d this]
        simp
    have h1 := up rest (h ++ [c]) n hn
    have h2 := hr.2 h c h1
    obtain ⟨y, hy⟩ := Option.ne_none_iff_exists'.1 h1
    rw [walk_eq]
    simp only [plain, h2, hy, Option.map_some]
    exact ih (h ++ [c]) n hn

theorem walk_free_plain {fs : FsTree} (hr : Rooted fs) (b : Bool) (L : Nat) (todo : FsKey) : ∀ (h : FsKey), todo ≠ [] →
    fs (h ++ todo) = none →
    walk (plain fs) b L h todo = if fs (h ++ todo).dropLast = some .dir then .free (h ++ todo) else .nothing := by
  induction todo with
  | nil => intro h hne; exact absurd rfl hne
  | cons c rest ih =>
    intro h _ hn
    have e : h ++ c :: rest = h ++ [c] ++ rest := by simp
    by_cases hd : fs h = some .dir
    · cases hx : fs (h ++ [c]) with
      | none =>
        rw [walk_eq]
        simp only [plain, hd, hx, Option.map_some, Option.map_none]
        by_cases h0 : rest = []
        · subst h0
          simp [hd]
        · rw [if_neg h0]
          have : fs (h ++ c :: rest).dropLast ≠ some .dir := by
            intro hc
            rw [e, List.dropLast_append_of_ne_nil h0] at hc
            have up : ∀ (r : FsKey) (p : FsKey), fs (p ++ r) = some .dir → fs p ≠ none := by
              intro r
              induction r with
              | nil => intro p hx; rw [List.append_nil] at hx; rw [hx]; simp
              | cons d r ihr =>
                intro p hx
                have e : p ++ d :: r = p ++ [d] ++ r := by simp
                rw [e] at hx
                rw [hr.2 p d (ihr (p ++ [d]) hx)]
                simp
            exact up _ _ hc hx
          rw [if_neg this]
      | some y =>
        have h0 : rest ≠ [] := by
          rintro rfl
          rw [hn] at hx
          cases hx
        rw [walk_eq]
        simp only [plain, hd, hx, Option.map_some]
        rw [e] at hn ⊢
        exact ih (h ++ [c]) h0 hn
    · have hb : fs (h ++ c :: rest).dropLast ≠ some .dir := by
        intro hc
        cases rest with
        | nil => simp at hc; exact hd hc
        | cons d rest =>
          rw [e, List.dropLast_append_of_ne_nil (by simp)] at hc
          have up : ∀ (r : FsKey) (p : FsKey), fs (p ++ r) ≠ none → fs p ≠ none := by
            intro r
            induction r with
            | nil => intro p hx; rwa [List.append_nil] at hx
            | cons d r ihr =>
              intro p hx
              have e : p ++ d :: r = p ++ [d] ++ r := by simp
              rw [e] at hx
              rw [hr.2 p d (ihr (p ++ [d]) hx)]
              simp
          exact hd (hr.2 h c (up _ _ (by rw [hc]; simp)))
      rw [if_neg hb, walk_eq]
      cases hh : fs h with
      | none => simp [plain, hh]
      | some y =>
        cases y with
        | dir => exact absurd hh hd
        | file d w => simp [plain, hh]
        | other => simp [plain, hh]

theorem rooted_dirs {fs : FsTree} (hr : Rooted fs) (k : FsKey) : Rooted fun p => if p <+: k then some .dir else fs p := by
  refine ⟨by simp, ?_⟩
  intro p c h
  by_cases hp : p <+: k
  · simp [hp]
  · have : ¬ p ++ [c] <+: k := fun hc => hp ((List.prefix_append p [c]).trans hc)
    simp only [if_neg this] at h
    simp only [if_neg hp]
    exact hr.2 p c h

theorem status_plain {fs : FsTree} (hr : Rooted fs) (b : Bool) (k : FsKey) : statusOf (walk (plain fs) b 40 [] k) = .ok (fs k) := by
  cases hk : fs k with
  | some n => rw [walk_found_plain hr b 40 k [] n (by simpa using hk)]; rfl
  | none =>
    have h0 : k ≠ [] := by rintro rfl; rw [hr.1] at hk; cases hk
    rw [walk_free_plain hr b 40 k [] h0 (by simpa using hk)]
    split <;> rfl

theorem seen_plain {fs : FsTree} (hr : Rooted fs) (k : FsKey) : seen (walk (plain fs) true 40 [] k) = fs k := by
  cases hk : fs k with
  | some n => rw [walk_found_plain hr true 40 k [] n (by simpa using hk)]; rfl
  | none =>
    have h0 : k ≠ [] := by rintro rfl; rw [hr.1] at hk; cases hk
    rw [walk_free_plain hr true 40 k [] h0 (by simpa using hk)]
    split <;> rfl

theorem plain_put (fs : FsTree) (k : FsKey) (v : Option FsNode) : (plain fs).put k (v.map .node) = plain (fs.put k v) := by
  funext k'
  simp only [LTree.put, plain, FsTree.put]
  split <;> rfl

theorem openOut_plain {fs : FsTree} (hr : Rooted fs) (k : FsKey) (a : FsAns) (f : Str → Str) :
    openOut (plain fs) (walk (plain fs) true 40 [] k) a.grant f =
      if !canOpenOut fs k a then none
      else match fs k with
        | some (.file d w) => some (plain (fs.put k (some (.file (f d) w))))
        | none => some (plain (fs.put k (some (.file (f []) true))))
        | some _ => some (plain fs) := by
  unfold openOut canOpenOut
  cases hk : fs k with
  | some n =>
    rw [walk_found_plain hr true 40 k [] n (by simpa using hk)]
    cases n with
    | file d w => cases a.grant <;> simp [← plain_put]
    | dir => cases a.grant <;> simp
    | other => cases a.grant <;> simp
  | none =>
    have h0 : k ≠ [] := by rintro rfl; rw [hr.1] at hk; cases hk
    rw [walk_free_plain hr true 40 k [] h0 (by simpa using hk)]
    by_cases hd : fs k.dropLast = some .dir
    · cases a.grant <;> simp [hd, ← plain_put]
    · cases a.grant <;> simp [hd]

theorem makeDir_plain {fs : FsTree} (hr : Rooted fs) (a : FsAns) (k : FsKey) (hp : k ≠ [] → fs k.dropLast = some .dir) :
    makeDir a (plain fs) k = match fs k with
      | some .dir => .ok (plain fs)
      | some _ => .error .fsError
      | none => if a.mkdirs then .ok (plain (fs.put k (some .dir))) else .error .fsError := by
  unfold makeDir
  rw [status_plain hr]
  cases hk : fs k with
  | some n => cases n <;> rfl
  | none =>
    have h0 : k ≠ [] := by rintro rfl; rw [hr.1] at hk; cases hk
    rw [walk_free_plain hr false 40 k [] h0 (by simpa using hk)]
    simp only [List.nil_append, hp h0, if_true, bind, Except.bind]
    rw [← plain_put]
    rfl

/-- The tree with all directories down to `k`. -/
def withDirs (fs : FsTree) (k : FsKey) : FsTree := fun p => if p <+: k then some .dir else fs p

theorem take_prefix_succ (k p : FsKey) (i : Nat) : p <+: k.take (i + 1) ↔ p <+: k.take i ∨ p = k.take (i + 1) := by
  constructor
  · intro h
    by_cases hl : p.length ≤ i
    · left
      have hk : p <+: k := h.trans (List.take_prefix _ _)
      have := List.prefix_take_iff.2 ⟨hk, hl⟩
      exact this
    · right
      have h1 := h.length_le
      have h2 : (k.take (i + 1)).length ≤ i + 1 := by simp; omega
      exact h.eq_of_length (by omega)
  · rintro (h | rfl)
    · exact h.trans (by
        rw [show k.take i = (k.take (i + 1)).take i by rw [List.take_take]; congr 1; omega]
        exact List.take_prefix _ _)
    · exact List.prefix_refl _

theorem makeAll_steps {fs : FsTree} (hr : Rooted fs) (a : FsAns) (k : FsKey) (i : Nat) (hi : i ≤ k.length) :
    (List.range (i + 1)).foldlM (fun t j => makeDir a t (k.take j)) (plain fs) =
      if (List.range (i + 1)).any (fun j => match fs (k.take j) with
        | none => !a.mkdirs
        | some .dir => false
        | some _ => true) then (.error .fsError : Out LTree) else .ok (plain (withDirs fs (k.take i))) := by
  induction i with
  | zero =>
    have hD : withDirs fs [] = fs := by
      funext p
      unfold withDirs
      by_cases hp : p = []
      · subst hp; simp [hr.1]
      · simp [hp]
    have h1 : makeDir a (plain fs) [] = .ok (plain fs) := by
      rw [makeDir_plain hr a [] (fun h => absurd rfl h), hr.1]
    simp only [Nat.zero_add, List.range_one, List.foldlM_cons, List.foldlM_nil, List.take_zero, h1, bind, Except.bind, List.any_cons,
      List.any_nil, hr.1, hD]
    rfl
  | succ i ih =>
    have ih := ih (by omega)
    rw [List.range_succ, List.foldlM_append, ih, List.any_append]
    by_cases hb : (List.range (i + 1)).any (fun j => match fs (k.take j) with
        | none => !a.mkdirs
        | some .dir => false
        | some _ => true) = true
    · rw [if_pos hb, if_pos (by simp only [hb, Bool.true_or])]
      rfl
    · rw [if_neg hb]
      have hb' := Bool.eq_false_iff.2 hb
      simp only [hb', Bool.false_or, bind, Except.bind, List.foldlM_cons, List.foldlM_nil, List.any_cons, List.any_nil, Bool.or_false]
      have hrD : Rooted (withDirs fs (k.take i)) := rooted_dirs hr _
      have hpar : (k.take (i + 1)).dropLast = k.take i := by
        rw [List.dropLast_eq_take, List.take_take, List.length_take]
        congr 1
        omega
      have hnot : ¬ k.take (i + 1) <+: k.take i := by
        intro h
        have := h.length_le
        simp only [List.length_take] at this
        omega
      have hat : withDirs fs (k.take i) (k.take (i + 1)) = fs (k.take (i + 1)) := by simp only [withDirs, if_neg hnot]
      rw [makeDir_plain hrD a _ (by intro _; rw [hpar]; simp [withDirs]), hat]
      have hput : ∀ (v : Option FsNode), v = some .dir → (withDirs fs (k.take i)).put (k.take (i + 1)) v = withDirs fs (k.take (i + 1)) := by
        rintro v rfl
        funext p
        simp only [FsTree.put, withDirs, take_prefix_succ]
        by_cases h1 : p = k.take (i + 1)
        · simp [h1]
        · simp [h1]
      cases hk : fs (k.take (i + 1)) with
      | none =>
        cases hm : a.mkdirs with
        | false => simp
        | true => simp [hput _ rfl, pure, Except.pure]
      | some n =>
        cases n with
        | dir =>
          have : withDirs fs (k.take i) = withDirs fs (k.take (i + 1)) := by
            rw [← hput _ rfl]
            funext p
            simp only [FsTree.put]
            split
            · rename_i h; rw [h, hat, hk]
            · rfl
          simp [this, pure, Except.pure]
        | file d w => simp
        | other => simp

theorem makeAll_plain {fs : FsTree} (hr : Rooted fs) (a : FsAns) (k : FsKey) (hk : fs k = none) :
    makeAll a (plain fs) k = (makeDirs fs k a).map plain := by
  unfold makeAll makeDirs
  rw [makeAll_steps hr a k k.length (Nat.le_refl _), List.take_length]
  cases hm : a.mkdirs with
  | true =>
    simp only [Bool.not_true, Bool.false_or]
    have key : ∀ (f g : Nat → Bool), (∀ j, f j = g j) →
        (if (List.range (k.length + 1)).any f = true then (.error .fsError : Out LTree) else .ok (plain (withDirs fs k))) =
        Except.map plain (if (List.range (k.length + 1)).any g = true then .error .fsError
          else .ok fun p => if p <+: k then some .dir else fs p) := by
      intro f g hfg
      rw [funext hfg]
      split <;> rfl
    apply key
    intro j
    cases fs (k.take j) with
    | none => rfl
    | some n => cases n <;> rfl
  | false =>
    rw [if_pos, if_pos (by simp)]
    · rfl
    · rw [List.any_eq_true]
      exact ⟨k.length, by simp, by simp [hk]⟩

/-- **C183** (what holds): in a tree without links and closed directories all functions are those of `Model/File`, for which C97 to C101
and C143 are proved. -/
theorem C183_plain_partial (res : Str → FsKey) (fs : FsTree) (hr : Rooted fs) (path data : Str) (a : FsAns) :
    linkIsFile res (plain fs) path = .ok (fileIsFile res fs path) ∧ linkIsDir res (plain fs) path = .ok (fileIsDir res fs path) ∧
    linkCanWrite res (plain fs) path = .ok (fileCanWrite res fs path) ∧ linkGet res (plain fs) path data a = fileGet res fs path data a ∧
    linkLineCount res (plain fs) path a = fileLineCount res fs path a ∧
    linkWrite res (plain fs) path data a = ((plain (fileWrite res fs path data a).1), (fileWrite res fs path data a).2) ∧
    linkAppend res (plain fs) path data a = ((plain (fileAppend res fs path data a).1), (fileAppend res fs path data a).2) ∧
    linkCreate res (plain fs) path a = (fileCreate res fs path a).map (fun r => (plain r.1, r.2)) ∧
    linkRemove res (plain fs) path a = (fileRemove res fs path a).map (fun r => (plain r.1, r.2)) := by
  have hf : linkIsFile res (plain fs) path = .ok (fileIsFile res fs path) := by
    simp only [linkIsFile, reach, status_plain hr, bind, Except.bind, fileIsFile]
  refine ⟨hf, ?_, ?_, ?_, ?_, ?_, ?_, ?_, ?_⟩
  · simp only [linkIsDir, reach, status_plain hr, bind, Except.bind, fileIsDir]
  · simp only [linkCanWrite, reach, status_plain hr, bind, Except.bind, fileCanWrite]
  · simp only [linkGet, reach, seen_plain hr, fileGet]
  · simp only [linkLineCount, reach, seen_plain hr, fileLineCount]
  · unfold linkWrite fileWrite reach
    rw [openOut_plain hr]
    by_cases hc : (!canOpenOut fs (res (cString path)) a) = true
    · simp [hc]
    · simp only [hc, if_false, Bool.false_eq_true]
      cases hk : fs (res (cString path)) with
      | none => rfl
      | some n => cases n <;> rfl
  · unfold linkAppend fileAppend reach
    rw [openOut_plain hr]
    by_cases hc : (!canOpenOut fs (res (cString path)) a) = true
    · simp [hc]
    · simp only [hc, if_false, Bool.false_eq_true]
      cases hk : fs (res (cString path)) with
      | none => rfl
      | some n => cases n <;> rfl
  · have fin : ∀ fs1, Rooted fs1 → (match openOut (plain fs1) (walk (plain fs1) true 40 [] (res (cString path))) a.grant (fun _ => []) with
        | none => (.ok (plain fs1, kSysErr) : Out (LTree × Int))
        | some t => .ok (t, kSuccess)) = (createOpen (res (cString path)) a fs1).map (fun r => (plain r.1, r.2)) := by
      intro fs1 hr1
      unfold createOpen
      rw [openOut_plain hr1]
      by_cases hc : (!canOpenOut fs1 (res (cString path)) a) = true
      · simp [hc, Except.map]
      · simp only [hc, if_false, Bool.false_eq_true]
        cases hk : fs1 (res (cString path)) with
        | none => rfl
        | some n => cases n <;> rfl
    unfold linkCreate fileCreate
    simp only [hf, bind, Except.bind, status_plain hr, reach]
    cases hc : fileIsFile res fs path with
    | true => rfl
    | false =>
      simp only [Bool.false_eq_true, if_false]
      unfold createDirs
      cases hk : fs (res (cString path)).dropLast with
      | some n =>
        simp only [Option.isSome_some, if_true]
        exact fin fs hr
      | none =>
        simp only [Option.isSome_none, Bool.false_eq_true, if_false]
        rw [makeAll_plain hr a _ hk]
        cases hm : makeDirs fs (res (cString path)).dropLast a with
        | error e => rfl
        | ok fs1 =>
          have : Rooted fs1 := by
            unfold makeDirs at hm
            split at hm
            · cases hm
            · cases hm; exact rooted_dirs hr _
          exact fin fs1 this
  · unfold linkRemove fileRemove
    simp only [hf, bind, Except.bind]
    cases hc : fileIsFile res fs path with
    | false => rfl
    | true =>
      simp only [Bool.not_true, Bool.false_eq_true, if_false]
      unfold fileIsFile at hc
      cases hk : fs (res (cString path)) with
      | none => rw [hk] at hc; cases hc
      | some n =>
        rw [walk_found_plain hr false 40 _ [] n (by simpa using hk)]
        cases hg : a.grant with
        | false => simp [Except.map]
        | true =>
          simp only [List.nil_append, if_true, Bool.not_true, Bool.false_eq_true, if_false, Except.map, ← plain_put]
          rfl

example : Rooted smallTree ∧ ∃ r, fileCreate smallRes smallTree b!"d/g" {} = .ok r ∧ r.2 = kSuccess := by
  refine ⟨⟨by decide +kernel, fun k c h => ?_⟩, _, rfl, by decide +kernel⟩
  cases k with
  | nil => decide +kernel
  | cons d k => simp [smallTree] at h

/-! ### Removing -/

/-- The walk that does not follow the last link ends at the last name in the directory where the others lead. -/
theorem leads_last {t : LTree} {n : Nat} {h todo up : FsKey} (hl : Leads t n h todo up) (c : Str) (x : LNode)
    (hd : t up = some (.node .dir)) (hx : t (up ++ [c]) = some x) : ∀ L, n ≤ L →
    walk t false L h (todo ++ [c]) = .found (up ++ [c]) x := by
  induction hl with
  | here hx' hl =>
    intro L _
    simp only [List.nil_append]
    rw [walk_eq, hd]
    cases x with
    | link g => simp [hx]
    | node y => simp only [hx]; rw [walk_eq, hx]
    | shut => simp only [hx]; rw [walk_eq, hx]
  | new hd' hn => rw [hn] at hd; cases hd
  | @step n h rest k c' y hd' hx' hl' next ih =>
    intro L hL
    rw [List.cons_append, walk_eq, hd']
    cases y with
    | link g => exact absurd rfl (hl' g)
    | node y => simp only [hx']; exact ih hd hx L hL
    | shut => simp only [hx']; exact ih hd hx L hL
  | @link n h rest k target c' hd' hx' next ih =>
    intro L hL
    obtain ⟨L, rfl⟩ : ∃ m, L = m + 1 := ⟨L - 1, by omega⟩
    rw [List.cons_append, walk_eq, hd']
    simp only [hx']
    rw [if_neg (by simp), ← List.append_assoc]
    exact ih hd hx L (by omega)

/-- **C183** (what holds): `Remove` of a path that leads to a file removes the last name of the path in the directory where the others
lead, and nothing else; if this name is a link, the file it leads to keeps its content. -/
theorem C183_remove_partial (res : Str → FsKey) (t : LTree) (path : Str) (dir up k : FsKey) (n : Nat) (c : Str) (x : LNode) (d : Str)
    (w : Bool) (a : FsAns) (hg : a.grant = true) (hres : res (cString path) = dir ++ [c]) (hl : LeadsTo res t path k)
    (hk : t k = some (.node (.file d w))) (hdir : Leads t n [] dir up) (hn : n ≤ 40) (hd : t up = some (.node .dir))
    (hx : t (up ++ [c]) = some x) :
    ∃ t', linkRemove res t path a = .ok (t', kSuccess) ∧ t' (up ++ [c]) = none ∧ (∀ k', k' ≠ up ++ [c] → t' k' = t k') ∧
      (∀ target, x = .link target → t' k = some (.node (.file d w))) := by
  obtain ⟨m, hm, hl⟩ := hl
  have hw : reach res t path = .found k (.node (.file d w)) := by
    unfold reach
    rcases leads_walk hl 40 hm with ⟨x, hx', _, e⟩ | ⟨hx', _⟩
    · rw [hk] at hx'; cases hx'; exact e
    · rw [hk] at hx'; cases hx'
  refine ⟨t.put (up ++ [c]) none, ?_, by simp [LTree.put], fun k' hk' => by simp [LTree.put, hk'], ?_⟩
  · unfold linkRemove linkIsFile
    rw [hw, hres, leads_last hdir c x hd hx 40 hn]
    simp [statusOf, fileIsFile, bind, Except.bind, hg]
  · rintro target rfl
    have hne : k ≠ up ++ [c] := by rintro rfl; rw [hk] at hx; cases hx
    simp [LTree.put, hne, hk]

/-- Over a link to the directory, `l/f` is removed from `d`. -/
example : (linkRemove smallRes linkTree b!"l/f" {}).map (fun r => (r.2, r.1 [b!"l"], r.1 [b!"d", b!"f"])) =
    .ok (kSuccess, some (.link [b!"d"]), none) := by decide +kernel

example : (linkRemove smallRes linkTree b!"m" {}).map (fun r => (r.2, r.1 [b!"m"], r.1 [b!"d", b!"f"])) =
    .ok (kSuccess, none, some (.node (.file b!"text" true))) := by decide +kernel

/-- **C183 is false** for links to names that are free: `Exist` says no and `Remove` reports success, but the link is still there; after
`Create` the file is somewhere else. -/
theorem C183_dangling_refuted (res : Str → FsKey) (t : LTree) (path : Str) (k target : FsKey) (a : FsAns) (hl : LeadsTo res t path k)
    (hk : t k = none) (hx : t (res (cString path)) = some (.link target)) :
    linkIsFile res t path = .ok false ∧ linkRemove res t path a = .ok (t, kSuccess) ∧
    (res (cString path) ≠ [] → ∃ t', linkCreate res t path {} = .ok (t', kSuccess) ∧ t' k = some (.node (.file [] true)) ∧
      t' (res (cString path)) = some (.link target) ∧ ∀ k', k' ≠ k → t' k' = t k') := by
  obtain ⟨n, hn, hl⟩ := hl
  have hw : reach res t path = .free k := by
    unfold reach
    rcases leads_walk hl 40 hn with ⟨x, hx', _, e⟩ | ⟨_, e⟩
    · rw [hk] at hx'; cases hx'
    · exact e
  have hf : linkIsFile res t path = .ok false := by simp [linkIsFile, hw, statusOf, fileIsFile, bind, Except.bind]
  refine ⟨hf, by simp [linkRemove, hf, bind, Except.bind], fun h0 => ?_⟩
  obtain ⟨k1, e1⟩ := leads_parent hl 40 hn h0
  have hne : res (cString path) ≠ k := by intro h; rw [h, hk] at hx; cases hx
  refine ⟨t.put k (some (.node (.file [] true))), ?_, by simp [LTree.put], by simp [LTree.put, hne, hx], fun k' hk' => by simp [LTree.put, hk']⟩
  unfold linkCreate
  simp [hf, e1, statusOf, bind, Except.bind, hw, openOut]

example : (linkCreate smallRes linkTree b!"n" {}).map (fun r => (r.2, r.1 [b!"n"], r.1 [b!"d", b!"g"])) =
    .ok (kSuccess, some (.link [b!"d", b!"g"]), some (.node (.file [] true))) := by decide +kernel

/-! ### Names the system does not resolve -/

/-- **C183 is false** for names that lead through a closed directory or in a circle: `Exist`, `IsFile`, `IsDir`, `CanWrite`, `Create` and
`Remove` throw, and so does the start of a `FileLogger`; `Read`, `Write` and `Append` report an error, and `LineCount` is 0. -/
theorem C183_refused_refuted (res : Str → FsKey) (t : LTree) (path data : Str) (a : FsAns) (h : reach res t path = .refused) :
    linkIsFile res t path = .error .fsError ∧ linkIsDir res t path = .error .fsError ∧ linkCanWrite res t path = .error .fsError ∧
    linkCreate res t path a = .error .fsError ∧ linkRemove res t path a = .error .fsError ∧
    linkLoggerInit res t path a = .error .fsError ∧
    linkGet res t path data a = .ok (kLogicErr, data) ∧ linkWrite res t path data a = (t, kLogicErr) ∧
    linkAppend res t path data a = (t, kLogicErr) ∧ linkLineCount res t path a = .ok 0 := by
  have hf : linkIsFile res t path = .error .fsError := by simp [linkIsFile, h, statusOf, bind, Except.bind]
  have hc : linkCreate res t path a = .error .fsError := by simp [linkCreate, hf, bind, Except.bind]
  refine ⟨hf, ?_, ?_, hc, ?_, ?_, ?_, ?_, ?_, ?_⟩
  · simp [linkIsDir, h, statusOf, bind, Except.bind]
  · simp [linkCanWrite, h, statusOf, bind, Except.bind]
  · simp [linkRemove, hf, bind, Except.bind]
  · simp [linkLoggerInit, hc]
  · simp [linkGet, h, seen, fileGet]
  · simp only [linkWrite, h, openOut]; cases a.grant <;> rfl
  · simp only [linkAppend, h, openOut]; cases a.grant <;> rfl
  · simp [linkLineCount, h, seen, fileLineCount]

/-- **C183**: a link that leads to itself, and a name in a closed directory, are such names, in every tree. -/
theorem C183_circle_refuted (res : Str → FsKey) (t : LTree) (path : Str) (c : Str) (rest : FsKey) (hroot : t [] = some (.node .dir)) :
    (t [c] = some (.link [c]) → res (cString path) = c :: rest → reach res t path = .refused) ∧
    (t [c] = some .shut → rest ≠ [] → res (cString path) = c :: rest → reach res t path = .refused) := by
  refine ⟨fun hx hr => ?_, fun hx h0 hr => ?_⟩
  · unfold reach
    rw [hr]
    have : ∀ L, walk t true L [] (c :: rest) = .refused := by
      intro L
      induction L with
      | zero =>
        rw [walk_eq]
        simp [hroot, hx]
      | succ L ih =>
        rw [walk_eq]
        simp [hroot, hx, ih]
    exact this 40
  · unfold reach
    obtain ⟨d, r, rfl⟩ := List.exists_cons_of_ne_nil h0
    rw [hr, walk_eq]
    simp only [hroot, List.nil_append, hx]
    rw [walk_eq]
    simp [hx]

example : reach smallRes linkTree b!"z" = .refused ∧ reach smallRes linkTree b!"x/f" = .refused := by decide +kernel

theorem linkOkBind {α β : Type} (x : α) (f : α → Out β) : (Except.ok x >>= f) = f x := rfl

theorem walk_jump (t : LTree) (follow : Bool) (n : Nat) (c d : Str) (rest : FsKey) (h0 : t [] = some (.node .dir))
    (h1 : t [c] = some (.link [d])) (hr : rest ≠ [] ∨ follow = true) : walk t follow (n + 1) [] (c :: rest) = walk t follow n [] (d :: rest) := by
  have : ¬ (rest = [] ∧ follow = false) := by
    rintro ⟨rfl, rfl⟩
    simp at hr
  simp only [walk, walkVia, h0, List.nil_append, h1, if_neg this]
  rfl

theorem walk_in (t : LTree) (follow : Bool) (n : Nat) (d : Str) (rest : FsKey) (h0 : t [] = some (.node .dir))
    (h1 : t [d] = some (.node .dir)) : walk t follow (n + 1) [] (d :: rest) = walkVia t follow (walk t follow n []) [d] rest := by
  simp only [walk, walkVia, h0, List.nil_append, h1]

/-- **C183** (what holds) for `Create` below a link to a directory: the missing directory is made where the link leads, and the file in
it; nothing else changes. -/
theorem C183_create_partial (res : Str → FsKey) (t : LTree) (path c d e f : Str) (a : FsAns) (hres : res (cString path) = [c, e, f])
    (h0 : t [] = some (.node .dir)) (hc : t [c] = some (.link [d])) (hd : t [d] = some (.node .dir)) (he : t [d, e] = none)
    (hf : t [d, e, f] = none) (hg : a.grant = true) (hm : a.mkdirs = true) :
    linkCreate res t path a = .ok ((t.put [d, e] (some (.node .dir))).put [d, e, f] (some (.node (.file [] true))), kSuccess) := by
  have p0 : (t.put [d, e] (some (.node .dir))) [] = some (.node .dir) := by simp [LTree.put, h0]
  have pc : (t.put [d, e] (some (.node .dir))) [c] = some (.link [d]) := by simp [LTree.put, hc]
  have pd : (t.put [d, e] (some (.node .dir))) [d] = some (.node .dir) := by simp [LTree.put, hd]
  have pe : (t.put [d, e] (some (.node .dir))) [d, e] = some (.node .dir) := by simp [LTree.put]
  have pf : (t.put [d, e] (some (.node .dir))) [d, e, f] = none := by simp [LTree.put, hf]
  have w1 : walk t true 40 [] [c, e, f] = .nothing := by
    rw [walk_jump t true 39 c d _ h0 hc (.inr rfl), walk_in t true 38 d _ h0 hd]
    simp [walkVia, hd, he]
  have w2 : ∀ fo, walk t fo 40 [] [c, e] = .free [d, e] := by
    intro fo
    rw [walk_jump t fo 39 c d _ h0 hc (.inl (by simp)), walk_in t fo 38 d _ h0 hd]
    simp [walkVia, hd, he]
  have w3 : walk t true 40 [] [c] = .found [d] (.node .dir) := by
    rw [walk_jump t true 39 c d _ h0 hc (.inr rfl), walk_in t true 38 d _ h0 hd]
    simp [walkVia, hd]
  have w4 : walk t true 40 [] [] = .found [] (.node .dir) := by simp [walk, walkVia, h0]
  have w5 : walk (t.put [d, e] (some (.node .dir))) true 40 [] [c, e, f] = .free [d, e, f] := by
    rw [walk_jump _ true 39 c d _ p0 pc (.inr rfl), walk_in _ true 38 d _ p0 pd]
    simp [walkVia, pd, pe, pf]
  have m : makeAll a t [c, e] = .ok (t.put [d, e] (some (.node .dir))) := by
    simp only [makeAll, List.length_cons, List.length_nil, List.range_succ, List.range_zero, List.nil_append, List.cons_append,
      List.foldlM_cons, List.foldlM_nil, List.take_zero, List.take_succ_cons, makeDir, w4, w3, w2, statusOf, hm, if_true, linkOkBind]
    rfl
  unfold linkCreate
  simp [linkIsFile, reach, hres, w1, statusOf, List.dropLast, w2, m, w5, openOut, hg, linkOkBind, fileIsFile]

example : linkTree [] = some (.node .dir) ∧ linkTree [b!"l"] = some (.link [b!"d"]) ∧ linkTree [b!"d"] = some (.node .dir) ∧
    linkTree [b!"d", b!"new"] = none ∧ linkTree [b!"d", b!"new", b!"f"] = none ∧
    (linkCreate (fun _ => [b!"l", b!"new", b!"f"]) linkTree b!"l/new/f" {}).map (fun r => (r.2, r.1 [b!"d", b!"new", b!"f"])) =
      .ok (kSuccess, some (.node (.file [] true))) := by decide +kernel

/-! ### The static handlers -/

/-- **C183** (what holds) for `StaticFile`: it serves what the link leads to. -/
theorem C183_static_partial (res : Str → FsKey) (t : LTree) (g : Nat) (file : Str) (k : FsKey) (d : Str) (w : Bool) (ctx : Ctx σ)
    (hl : LeadsTo res t file k) (hk : t k = some (.node (.file d w))) (hlive : ctx.live g = true) (hfs : ctx.fs = linkFiles res t) :
    ∃ ctx', staticFileHandler g file ctx = .ok ctx' ∧ ctx'.resp.status = .OK ∧ ctx'.resp.body = d := by
  obtain ⟨n, hn, hl⟩ := hl
  have hw : ctx.fs (cString file) = .file (some d) := by
    rw [hfs]
    unfold linkFiles
    rcases leads_walk hl 40 hn with ⟨x, hx', _, e⟩ | ⟨hx', _⟩
    · rw [hk] at hx'; cases hx'; rw [e]
    · rw [hk] at hx'; cases hx'
  obtain ⟨base, ext, hsuf, _⟩ := C07_suffix file
  exact ⟨_, by simp only [staticFileHandler, hlive, fileExist, fileRead, hw, hsuf, bind, Except.bind, Bool.not_true,
      Bool.false_eq_true, if_false, ne_eq, not_true_eq_false]; rfl, rfl, rfl⟩

end Cppnet
