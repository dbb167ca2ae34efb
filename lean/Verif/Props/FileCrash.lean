import Verif.Model.FileCrash

/-!
# C191: a crash leaves a file as it was before or as it was to be
-/

namespace Cppnet

theorem fsCall_put_put (fs : FsTree) (k : FsKey) (a b : Option FsNode) : (fs.put k a).put k b = fs.put k b := by
  funext p; unfold FsTree.put; by_cases h : p = k <;> simp [h]

theorem put_at (fs : FsTree) (k : FsKey) (a : Option FsNode) : fs.put k a k = a := by simp [FsTree.put]

/-- Pieces written one after the other. -/
theorem pieces_written (k : FsKey) (pieces : List Str) : ∀ (fs : FsTree) (old : Str) (w : Bool), fs k = some (.file old w) →
    (pieces.map (FsCall.write k)).foldl fsCall fs = fs.put k (some (.file (old ++ pieces.flatten) w)) := by
  induction pieces with
  | nil =>
    intro fs old w h
    funext p
    by_cases hp : p = k
    · subst hp; simp [FsTree.put, h]
    · simp [FsTree.put, hp]
  | cons d ds ih =>
    intro fs old w h
    have e : fsCall fs (.write k d) = fs.put k (some (.file (old ++ d) w)) := by simp only [fsCall, h]
    rw [List.map_cons, List.foldl_cons, e, ih _ (old ++ d) w (put_at _ _ _), fsCall_put_put]
    simp

theorem flatten_take_prefix (n : Nat) (pieces : List Str) : (pieces.take n).flatten <+: pieces.flatten :=
  ⟨(pieces.drop n).flatten, by rw [← List.flatten_append, List.take_append_drop]⟩

/-- The state of the tree at every crash point of `Write` and `Append`. -/
theorem died_open (k : FsKey) (trunc : Bool) (pieces : List Str) (fs : FsTree) (n : Nat) (old : Str) (w : Bool)
    (hk : fs k = some (.file old w) ∨ (fs k = none ∧ old = [] ∧ w = true)) :
    diedAfter (n + 1) (.openOut k trunc :: pieces.map (.write k)) fs =
      fs.put k (some (.file ((if trunc then [] else old) ++ (pieces.take n).flatten) w)) := by
  unfold diedAfter
  rw [List.take_succ_cons, List.foldl_cons, ← List.map_take]
  have e : fsCall fs (.openOut k trunc) = fs.put k (some (.file (if trunc then [] else old) w)) := by
    rcases hk with h | ⟨h, rfl, rfl⟩
    · simp only [fsCall, h]
    · simp only [fsCall, h, ite_self]
  rw [e, pieces_written k _ _ _ _ (put_at _ _ _), fsCall_put_put]

/-- **C191**, the calls of this model, when nobody dies, are the functions of C97 to C100. -/
theorem C191_same_partial (res : Str → FsKey) (fs : FsTree) (path : Str) (pieces : List Str) (a : FsAns) (ht : a.taken = none) (n : Nat)
    (hn : pieces.length < n) :
    diedAfter n (writeCalls res fs path pieces a) fs = (fileWrite res fs path pieces.flatten a).1 ∧
    diedAfter n (appendCalls res fs path pieces a) fs = (fileAppend res fs path pieces.flatten a).1 := by
  obtain ⟨m, rfl⟩ : ∃ m, n = m + 1 := ⟨n - 1, by omega⟩
  have htk : pieces.take m = pieces := List.take_of_length_le (by omega)
  unfold writeCalls appendCalls fileWrite fileAppend
  simp only
  cases hc : canOpenOut fs (res (cString path)) a with
  | false => simp [diedAfter]
  | true =>
    simp only [Bool.not_true, Bool.false_eq_true, if_false]
    cases hk : fs (res (cString path)) with
    | none =>
      rw [died_open _ _ _ _ _ [] true (.inr ⟨hk, rfl, rfl⟩), died_open _ _ _ _ _ [] true (.inr ⟨hk, rfl, rfl⟩), htk]
      simp [FsAns.cut, ht]
    | some x =>
      cases x with
      | file old w =>
        rw [died_open _ _ _ _ _ old w (.inl hk), died_open _ _ _ _ _ old w (.inl hk), htk]
        simp [FsAns.cut, ht]
      | dir => simp [canOpenOut, hk] at hc
      | other =>
        have e : ∀ (ps : List Str) (fs : FsTree), fs (res (cString path)) = some .other →
            (ps.map (FsCall.write (res (cString path)))).foldl fsCall fs = fs := by
          intro ps
          induction ps with
          | nil => intro _ _; rfl
          | cons p ps ih => intro fs h; rw [List.map_cons, List.foldl_cons]; simp only [fsCall, h]; exact ih fs h
        unfold diedAfter
        rw [List.take_succ_cons, List.take_succ_cons, List.foldl_cons, List.foldl_cons, ← List.map_take, htk]
        simp only [fsCall, hk, e pieces fs hk, and_self]

/-- All crash points of `Write`. -/
theorem write_died (res : Str → FsKey) (fs : FsTree) (path : Str) (pieces : List Str) (a : FsAns) (n : Nat) :
    diedAfter n (writeCalls res fs path pieces a) fs = fs ∨
    ∃ p w, p <+: pieces.flatten ∧ a.grant = true ∧
      ((∃ old, fs (res (cString path)) = some (.file old w)) ∨ (fs (res (cString path)) = none ∧ w = true ∧
        fs (res (cString path)).dropLast = some .dir)) ∧
      diedAfter n (writeCalls res fs path pieces a) fs = fs.put (res (cString path)) (some (.file p w)) := by
  unfold writeCalls
  simp only
  cases hc : canOpenOut fs (res (cString path)) a with
  | false => left; simp [diedAfter]
  | true =>
    simp only [Bool.not_true, Bool.false_eq_true, if_false]
    cases n with
    | zero => left; simp [diedAfter]
    | succ m =>
      cases hk : fs (res (cString path)) with
      | none =>
        right
        rw [died_open _ true pieces fs m [] true (.inr ⟨hk, rfl, rfl⟩)]
        simp only [canOpenOut, hk, Bool.and_eq_true, decide_eq_true_eq] at hc
        exact ⟨_, true, flatten_take_prefix m pieces, hc.1, .inr ⟨rfl, rfl, hc.2⟩, by simp⟩
      | some x =>
        cases x with
        | file old w =>
          right
          rw [died_open _ true pieces fs m old w (.inl hk)]
          simp only [canOpenOut, hk] at hc
          exact ⟨_, w, flatten_take_prefix m pieces, hc, .inl ⟨old, rfl⟩, by simp⟩
        | dir => simp [canOpenOut, hk] at hc
        | other =>
          left
          have e : ∀ (cs : List FsCall) (fs : FsTree), fs (res (cString path)) = some .other →
              (∀ c ∈ cs, (∃ t, c = .openOut (res (cString path)) t) ∨ ∃ d, c = .write (res (cString path)) d) → cs.foldl fsCall fs = fs := by
            intro cs
            induction cs with
            | nil => intro _ _ _; rfl
            | cons c cs ih =>
              intro fs h hcs
              have e1 : fsCall fs c = fs := by
                rcases hcs c (List.mem_cons_self ..) with ⟨t, rfl⟩ | ⟨d, rfl⟩ <;> simp only [fsCall, h]
              rw [List.foldl_cons, e1]
              exact ih fs h fun x hx => hcs x (List.mem_cons_of_mem _ hx)
          refine e _ fs hk fun c hc => ?_
          rcases List.mem_cons.1 (List.mem_of_mem_take hc) with rfl | hc
          · exact .inl ⟨_, rfl⟩
          · obtain ⟨d, _, rfl⟩ := List.mem_map.1 hc
            exact .inr ⟨d, rfl⟩

/-- **C191**, what holds of `Write`: whenever the program dies, the file is as it was before or holds a beginning of the new data, and
all other files are as before.  Missing: that it holds all of it, see the refutation. -/
theorem C191_write_partial (res : Str → FsKey) (fs : FsTree) (path : Str) (pieces : List Str) (a : FsAns) (n : Nat) (fs' : FsTree)
    (h : fs' = diedAfter n (writeCalls res fs path pieces a) fs) :
    (fileGet res fs' path [] {} = fileGet res fs path [] {} ∨
      ∃ p, p <+: pieces.flatten ∧ fileGet res fs' path [] {} = .ok (kSuccess, p)) ∧
    ∀ k, k ≠ res (cString path) → fs' k = fs k := by
  subst h
  rcases write_died res fs path pieces a n with e | ⟨p, w, hp, _, _, e⟩
  · rw [e]; exact ⟨.inl rfl, fun _ _ => rfl⟩
  · rw [e]
    refine ⟨.inr ⟨p, hp, ?_⟩, fun k hk => by simp [FsTree.put, hk]⟩
    simp [fileGet, FsTree.put, FsAns.cut]

/-- **C191**, refuted for `Write`: for every file that is not empty there is a moment at which a crash leaves nothing of it, neither the
old content nor the new. -/
theorem C191_write_refuted (res : Str → FsKey) (fs : FsTree) (path old : Str) (w : Bool) (pieces : List Str)
    (hk : fs (res (cString path)) = some (.file old w)) (ho : old ≠ []) (hd : pieces.flatten ≠ []) :
    ∃ n, fileGet res (diedAfter n (writeCalls res fs path pieces {}) fs) path [] {} = .ok (kSuccess, []) ∧
      fileGet res fs path [] {} ≠ .ok (kSuccess, []) ∧
      fileGet res (fileWrite res fs path pieces.flatten {}).1 path [] {} ≠ .ok (kSuccess, []) := by
  have hc : canOpenOut fs (res (cString path)) {} = true := by simp [canOpenOut, hk]
  refine ⟨1, ?_, ?_, ?_⟩
  · have e := died_open (res (cString path)) true pieces fs 0 old w (.inl hk)
    simp only [writeCalls, hc, Bool.not_true, Bool.false_eq_true, if_false]
    rw [e]
    simp [fileGet, FsTree.put, FsAns.cut]
  · simp only [fileGet, hk, FsAns.cut]
    simpa using ho
  · have e : (fileWrite res fs path pieces.flatten {}).1 = fs.put (res (cString path)) (some (.file pieces.flatten w)) := by
      simp [fileWrite, hc, hk, FsAns.cut]
    rw [e]
    simp only [fileGet, put_at, FsAns.cut]
    simpa using hd

/-- **C191**, what holds of `Append` to a file: whenever the program dies, the file holds all that it held before, and behind it a
beginning of the new data; all other files are as before.  Missing: that it is all of it or nothing, see the refutation. -/
theorem C191_append_partial (res : Str → FsKey) (fs : FsTree) (path old : Str) (w : Bool) (pieces : List Str) (a : FsAns) (n : Nat)
    (hk : fs (res (cString path)) = some (.file old w)) :
    (∃ p, p <+: pieces.flatten ∧ fileGet res (diedAfter n (appendCalls res fs path pieces a) fs) path [] {} = .ok (kSuccess, old ++ p)) ∧
    ∀ k, k ≠ res (cString path) → diedAfter n (appendCalls res fs path pieces a) fs k = fs k := by
  unfold appendCalls
  simp only
  cases hc : canOpenOut fs (res (cString path)) a with
  | false =>
    refine ⟨⟨[], List.nil_prefix, ?_⟩, ?_⟩ <;> simp [diedAfter, fileGet, hk, FsAns.cut]
  | true =>
    simp only [Bool.not_true, Bool.false_eq_true, if_false]
    cases n with
    | zero => refine ⟨⟨[], List.nil_prefix, ?_⟩, ?_⟩ <;> simp [diedAfter, fileGet, hk, FsAns.cut]
    | succ m =>
      rw [died_open (res (cString path)) false pieces fs m old w (.inl hk)]
      refine ⟨⟨_, flatten_take_prefix m pieces, ?_⟩, fun k hk' => by simp [FsTree.put, hk']⟩
      simp [fileGet, FsTree.put, FsAns.cut]

/-- **C191** holds of `Append` to a file if the stream hands over the data in one piece (libstdc++ does, and so a line of the logs is
not torn if the system takes it as a whole). -/
theorem C191_append_single_partial (res : Str → FsKey) (fs : FsTree) (path old : Str) (w : Bool) (data : Str) (a : FsAns) (ht : a.taken = none)
    (n : Nat) (hk : fs (res (cString path)) = some (.file old w)) (fs' : FsTree) (h : fs' = diedAfter n (appendCalls res fs path [data] a) fs) :
    fileGet res fs' path [] {} = fileGet res fs path [] {} ∨
    fileGet res fs' path [] {} = fileGet res (fileAppend res fs path data a).1 path [] {} := by
  subst h
  by_cases hn : 1 < n
  · right
    rw [(C191_same_partial res fs path [data] a ht n hn).2]
    simp
  · left
    unfold appendCalls
    simp only
    cases hc : canOpenOut fs (res (cString path)) a with
    | false => simp [diedAfter]
    | true =>
      simp only [Bool.not_true, Bool.false_eq_true, if_false]
      have : n = 0 ∨ n = 1 := by omega
      rcases this with rfl | rfl
      · simp [diedAfter]
      · rw [died_open (res (cString path)) false [data] fs 0 old w (.inl hk)]
        simp [fileGet, FsTree.put, FsAns.cut, hk]

/-- **C191**, refuted for `Append` if the data is handed over in several pieces: a crash between them leaves a part. -/
theorem C191_append_refuted (res : Str → FsKey) (fs : FsTree) (path old : Str) (w : Bool) (d e : Str) (rest : List Str)
    (hk : fs (res (cString path)) = some (.file old w)) (hd : d ≠ []) (he : e ≠ []) :
    ∃ n, fileGet res (diedAfter n (appendCalls res fs path (d :: e :: rest) {}) fs) path [] {} = .ok (kSuccess, old ++ d) ∧
      fileGet res fs path [] {} ≠ .ok (kSuccess, old ++ d) ∧
      fileGet res (fileAppend res fs path (d :: e :: rest).flatten {}).1 path [] {} ≠ .ok (kSuccess, old ++ d) := by
  have hc : canOpenOut fs (res (cString path)) {} = true := by simp [canOpenOut, hk]
  refine ⟨2, ?_, ?_, ?_⟩
  · simp only [appendCalls, hc, Bool.not_true, Bool.false_eq_true, if_false]
    rw [died_open (res (cString path)) false (d :: e :: rest) fs 1 old w (.inl hk)]
    simp [fileGet, FsTree.put, FsAns.cut]
  · simp only [fileGet, hk, FsAns.cut]
    simpa using hd
  · have e' : (fileAppend res fs path (d :: e :: rest).flatten {}).1 =
        fs.put (res (cString path)) (some (.file (old ++ (d :: e :: rest).flatten) w)) := by
      simp [fileAppend, hc, hk, FsAns.cut]
    rw [e']
    simp only [fileGet, put_at, FsAns.cut]
    simp [he]

/-- **C191**, what holds of `Write` after a restart: writing again gives the same as if the program had not died. -/
theorem C191_write_again_partial (res : Str → FsKey) (fs : FsTree) (path data : Str) (pieces : List Str) (a : FsAns) (n : Nat) :
    fileWrite res (diedAfter n (writeCalls res fs path pieces a) fs) path data a = fileWrite res fs path data a := by
  rcases write_died res fs path pieces a n with e | ⟨p, w, hp, hg, hk, e⟩
  · rw [e]
  · rw [e]
    rcases hk with ⟨old, hk⟩ | ⟨hk, rfl, hd⟩
    · simp [fileWrite, canOpenOut, put_at, hk, hg, fsCall_put_put]
    · simp [fileWrite, canOpenOut, put_at, hk, hg, hd, fsCall_put_put]

/-- **C191** holds of `Remove`: the file is there as before, or gone. -/
theorem C191_remove (res : Str → FsKey) (fs fs' : FsTree) (path : Str) (a : FsAns) (rc : Int) (n : Nat)
    (h : fileRemove res fs path a = .ok (fs', rc)) :
    diedAfter n (removeCalls res fs path) fs = fs ∨ diedAfter n (removeCalls res fs path) fs = fs' := by
  unfold fileRemove at h
  unfold removeCalls
  cases hf : fileIsFile res fs path with
  | false => left; simp [diedAfter]
  | true =>
    rw [hf] at h
    cases n with
    | zero => left; simp [diedAfter]
    | succ m =>
      right
      cases hg : a.grant with
      | false => rw [hg] at h; cases h
      | true =>
        rw [hg] at h
        cases h
        simp [diedAfter, fsCall]

/-! ### Create -/

/-- Directories made one after the other. -/
theorem mkdirs_fold (ks : List FsKey) : ∀ (fs : FsTree) (p : FsKey),
    (ks.map FsCall.mkdir).foldl fsCall fs p = if p ∈ ks ∧ fs p = none then some .dir else fs p := by
  induction ks with
  | nil => intro fs p; simp
  | cons k ks ih =>
    intro fs p
    rw [List.map_cons, List.foldl_cons, ih]
    have e : fsCall fs (.mkdir k) p = if p = k ∧ fs p = none then some .dir else fs p := by
      simp only [fsCall]
      by_cases hk : fs k = none
      · simp only [hk, Option.isNone_none, if_true, FsTree.put]
        by_cases hp : p = k
        · subst hp; simp [hk]
        · simp [hp]
      · have : (fs k).isNone = false := by cases h : fs k with
          | none => exact absurd h hk
          | some _ => rfl
        simp only [this, Bool.false_eq_true, if_false]
        by_cases hp : p = k
        · subst hp; simp [hk]
        · simp [hp]
    rw [e]
    by_cases hp : p = k
    · subst hp
      by_cases hn : fs p = none <;> simp [hn]
    · simp [hp]

theorem mem_takes (k p : FsKey) : p ∈ (List.range (k.length + 1)).map (fun i => k.take i) ↔ p <+: k := by
  simp only [List.mem_map, List.mem_range]
  constructor
  · rintro ⟨i, _, rfl⟩; exact List.take_prefix _ _
  · intro h
    exact ⟨p.length, by have := h.length_le; omega, (List.prefix_iff_eq_take.1 h).symm⟩

/-- `Create` once its directories are there. -/
theorem create_opened {res : Str → FsKey} {fs1 fs' : FsTree} {path : Str} {a : FsAns} (hf : fileIsFile res fs1 path = false)
    (hp : (fs1 (res (cString path)).dropLast).isSome = true) (h : createOpen (res (cString path)) a fs1 = .ok (fs', kSuccess)) :
    fsCall fs1 (.openOut (res (cString path)) true) = fs' ∧ fileCreate res fs1 path a = .ok (fs', kSuccess) ∧
    fileCreate res fs' path a = .ok (fs', kSuccess) := by
  have h1 : fileCreate res fs1 path a = .ok (fs', kSuccess) := by
    unfold fileCreate createDirs
    rw [hf, if_pos hp]
    exact h
  refine ⟨?_, h1, ?_⟩
  · unfold createOpen at h
    cases hc : canOpenOut fs1 (res (cString path)) a with
    | false => rw [hc] at h; cases h
    | true =>
      rw [hc] at h
      simp only [fsCall]
      cases hk : fs1 (res (cString path)) with
      | none => rw [hk] at h; cases h; rfl
      | some x =>
        rw [hk] at h
        cases x <;> cases h <;> rfl
  · unfold createOpen at h
    cases hc : canOpenOut fs1 (res (cString path)) a with
    | false => rw [hc] at h; cases h
    | true =>
      rw [hc] at h
      cases hk : fs1 (res (cString path)) with
      | none =>
        rw [hk] at h
        cases h
        unfold fileCreate
        rw [if_pos (by simp [fileIsFile, put_at])]
      | some x =>
        rw [hk] at h
        cases x with
        | file d w => simp [fileIsFile, hk] at hf
        | dir => cases h; exact h1
        | other => cases h; exact h1

/-- **C191**, what holds of `Create`: whenever the program dies, calling `Create` again gives what `Create` would have given, and
nothing but the file and the directories that lead to it has changed meanwhile. -/
theorem C191_create_partial (res : Str → FsKey) (fs fs' : FsTree) (path : Str) (a : FsAns) (h : fileCreate res fs path a = .ok (fs', kSuccess))
    (n : Nat) :
    ((createCalls res fs path).length ≤ n → diedAfter n (createCalls res fs path) fs = fs') ∧
    fileCreate res (diedAfter n (createCalls res fs path) fs) path a = .ok (fs', kSuccess) ∧
    ∀ k, ¬ k <+: res (cString path) → diedAfter n (createCalls res fs path) fs k = fs k := by
  have hopen : ∀ (g : FsTree) (k : FsKey), k ≠ res (cString path) → fsCall g (.openOut (res (cString path)) true) k = g k := by
    intro g k hk
    simp only [fsCall]
    cases g (res (cString path)) with
    | none => simp [FsTree.put, hk]
    | some x => cases x <;> simp [FsTree.put, hk]
  unfold createCalls
  simp only
  cases hf : fileIsFile res fs path with
  | true =>
    have e : fs' = fs := by
      unfold fileCreate at h; rw [hf] at h; cases h; rfl
    subst e
    have e : diedAfter n [] fs' = fs' := by simp [diedAfter]
    rw [if_pos rfl, e]
    exact ⟨fun _ => rfl, h, fun _ _ => rfl⟩
  | false =>
    simp only [Bool.false_eq_true, if_false]
    by_cases hp : (fs (res (cString path)).dropLast).isSome = true
    · rw [if_pos hp]
      have h' : createOpen (res (cString path)) a fs = .ok (fs', kSuccess) := by
        unfold fileCreate createDirs at h
        rw [hf, if_pos hp] at h
        exact h
      obtain ⟨h1, h2, h3⟩ := create_opened hf hp h'
      cases n with
      | zero => exact ⟨fun h => by simp at h, h, fun _ _ => rfl⟩
      | succ m =>
        have e : diedAfter (m + 1) ([] ++ [FsCall.openOut (res (cString path)) true]) fs = fs' := by
          simp only [diedAfter, List.nil_append, List.take_succ_cons, List.take_nil, List.foldl_cons, List.foldl_nil, h1]
        rw [e]
        refine ⟨fun _ => rfl, h3, fun k hk => ?_⟩
        rw [← h1]
        exact hopen fs k fun he => hk (he ▸ List.prefix_refl _)
    · rw [if_neg hp]
      have hpn : fs (res (cString path)).dropLast = none := by
        cases hx : fs (res (cString path)).dropLast with
        | none => rfl
        | some _ => rw [hx] at hp; exact absurd rfl hp
      generalize hkk : res (cString path) = k at *
      generalize hq : k.dropLast = q at *
      have hqk : q <+: k := by rw [← hq]; exact List.dropLast_prefix k
      -- what `create_directories` gives
      have h0 : (makeDirs fs q a).bind (createOpen k a) = .ok (fs', kSuccess) := by
        unfold fileCreate createDirs at h
        rw [hf, hkk, hq, if_neg hp] at h
        exact h
      have hsome : ∃ fs1, makeDirs fs q a = .ok fs1 ∧ createOpen k a fs1 = .ok (fs', kSuccess) := by
        cases hx : makeDirs fs q a with
        | error e => rw [hx] at h0; cases h0
        | ok fs1 => rw [hx] at h0; exact ⟨fs1, rfl, h0⟩
      obtain ⟨fs1, hm, ho⟩ := hsome
      unfold makeDirs at hm
      split at hm
      · cases hm
      rename_i hbad
      injection hm with hm
      have hbad' : a.mkdirs = true ∧ ∀ p, p <+: q → fs p = none ∨ fs p = some .dir := by
        simp only [Bool.or_eq_true, not_or, Bool.not_eq_true, Bool.not_eq_false', Bool.not_eq_eq_eq_not, Bool.not_true] at hbad
        refine ⟨by simpa using hbad.1, fun p hpq => ?_⟩
        have := List.any_eq_false.1 hbad.2 p.length (List.mem_range.2 (by have := hpq.length_le; omega))
        rw [← List.prefix_iff_eq_take.1 hpq] at this
        cases hx : fs p with
        | none => exact .inl rfl
        | some x =>
          rw [hx] at this
          cases x with
          | dir => exact .inr rfl
          | file d w => simp at this
          | other => simp at this
      have hf1 : ∀ g : FsTree, (g k = fs k ∨ g k = some .dir) → fileIsFile res g path = false := by
        intro g hg
        unfold fileIsFile at hf ⊢
        rw [hkk] at hf ⊢
        rcases hg with hg | hg
        · rw [hg]; exact hf
        · rw [hg]
      have h1q : fs1 q = some .dir := by rw [← hm]; simp
      have h1k : fs1 k = fs k ∨ fs1 k = some .dir := by
        rw [← hm]
        by_cases hx : k <+: q
        · right; simp [hx]
        · left; simp [hx]
      obtain ⟨c1, c2, c3⟩ := create_opened (res := res) (path := path) (hf1 fs1 h1k) (by rw [hkk, hq, h1q]; rfl) (by rw [hkk]; exact ho)
      rw [hkk] at c1
      -- the calls
      have hmap : ((List.range (q.length + 1)).map fun i => FsCall.mkdir (q.take i)) =
          ((List.range (q.length + 1)).map fun i => q.take i).map FsCall.mkdir := by rw [List.map_map]; rfl
      rw [hmap]
      generalize hks : (List.range (q.length + 1)).map (fun i => q.take i) = ks
      have hksl : ks.length = q.length + 1 := by rw [← hks]; simp
      have hmem : ∀ p, p ∈ ks ↔ p <+: q := by intro p; rw [← hks]; exact mem_takes q p
      have hfull : (ks.map FsCall.mkdir).foldl fsCall fs = fs1 := by
        funext p
        rw [mkdirs_fold, ← hm]
        by_cases hx : p <+: q
        · rcases hbad'.2 p hx with hy | hy <;> simp [hmem, hx, hy]
        · simp [hmem, hx]
      by_cases hn : n ≤ ks.length
      · -- in the middle of the directories
        have e : diedAfter n (ks.map FsCall.mkdir ++ [.openOut k true]) fs = ((ks.take n).map FsCall.mkdir).foldl fsCall fs := by
          unfold diedAfter
          rw [List.take_append_of_le_length (by simpa using hn), List.map_take]
        rw [e]
        have hmid : ∀ p, ((ks.take n).map FsCall.mkdir).foldl fsCall fs p = if p ∈ ks.take n ∧ fs p = none then some .dir else fs p :=
          mkdirs_fold _ _
        generalize ((ks.take n).map FsCall.mkdir).foldl fsCall fs = g at hmid ⊢
        refine ⟨fun hl => by simp at hl; omega, ?_, fun p hpk => ?_⟩
        · have hgk : fileIsFile res g path = false := by
            refine hf1 g ?_
            rw [hmid]
            by_cases hx : k ∈ ks.take n ∧ fs k = none
            · right; simp [hx]
            · left; rw [if_neg hx]
          have hgd : createDirs k a g = .ok fs1 := by
            unfold createDirs
            rw [hq]
            by_cases hn' : n = ks.length
            · have hg1 : g = fs1 := by
                rw [← hfull]; funext p; rw [hmid, mkdirs_fold, hn', List.take_length]
              rw [hg1, h1q]
              rfl
            · have hqn : q ∉ ks.take n := by
                intro hx
                rw [← hks, ← List.map_take, List.mem_map] at hx
                obtain ⟨i, hi, he⟩ := hx
                have h3 : i < n := by
                  rw [List.take_range] at hi
                  have := List.mem_range.1 hi
                  omega
                have h4 := congrArg List.length he
                rw [List.length_take] at h4
                omega
              have hgq : g q = none := by rw [hmid, if_neg (fun hx => hqn hx.1), hpn]
              rw [hgq]
              simp only [Option.isSome_none, Bool.false_eq_true, if_false]
              unfold makeDirs
              rw [if_neg ?_]
              · rw [← hm]
                congr 1
                funext p
                by_cases hx : p <+: q
                · simp [hx]
                · have : p ∉ ks.take n := fun hy => hx ((hmem p).1 (List.mem_of_mem_take hy))
                  simp [hx, hmid, this]
              · simp only [hbad'.1, Bool.not_true, Bool.false_or, Bool.not_eq_true, List.any_eq_false]
                intro i _
                rw [hmid]
                rcases hbad'.2 (q.take i) (List.take_prefix _ _) with hy | hy
                · by_cases hx : q.take i ∈ ks.take n <;> simp [hx, hy]
                · simp [hy]
          unfold fileCreate
          rw [hgk, hkk, hgd]
          exact ho
        · rw [hmid, if_neg]
          rintro ⟨hx, _⟩
          exact hpk (((hmem p).1 (List.mem_of_mem_take hx)).trans hqk)
      · have e : diedAfter n (ks.map FsCall.mkdir ++ [.openOut k true]) fs = fs' := by
          unfold diedAfter
          rw [List.take_of_length_le (by simp; omega), List.foldl_append, hfull]
          exact c1
        rw [e]
        refine ⟨fun _ => rfl, c3, fun p hpk => ?_⟩
        rw [← c1, hopen fs1 p (fun he => hpk (he ▸ List.prefix_refl _)), ← hm]
        have : ¬ p <+: q := fun hx => hpk (hx.trans hqk)
        simp [this]

/-- A tree with a root, one directory and one file. -/
def crashTree : FsTree := fun k => if k = [] then some .dir else if k = [b!"d"] then some .dir else if k = [b!"d", b!"f"] then some (.file b!"old" true) else none

/-- Names without slashes are files in `d`, others are in a directory that does not exist. -/
def crashNames (p : Str) : FsKey := if p = b!"f" then [b!"d", b!"f"] else [b!"x", b!"y", p]

/-- `Write` dies after its first call, `Append` after its second, `Create` after its first, when one of two directories is there. -/
example : fileGet crashNames (diedAfter 1 (writeCalls crashNames crashTree b!"f" [b!"new"] {}) crashTree) b!"f" [] {} = .ok (kSuccess, []) ∧
    fileGet crashNames (diedAfter 2 (appendCalls crashNames crashTree b!"f" [b!"ne", b!"w"] {}) crashTree) b!"f" [] {} = .ok (kSuccess, b!"oldne") ∧
    (fileCreate crashNames crashTree b!"g" {}).map (·.2) = .ok kSuccess ∧
    diedAfter 2 (createCalls crashNames crashTree b!"g") crashTree [b!"x"] = some .dir ∧
    diedAfter 2 (createCalls crashNames crashTree b!"g") crashTree [b!"x", b!"y"] = none := by
  decide +kernel

end Cppnet
