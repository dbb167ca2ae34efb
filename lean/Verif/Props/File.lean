import Verif.Model.File

/-!
# C97–C101: files
-/

namespace Cppnet

namespace Spec

/-- The data of the `Append` calls for the file `k` that returned success, in order. -/
def appended (res : Str → FsKey) (k : FsKey) : List (FileOp × Option Int) → Str
  | [] => []
  | (.append p d _, some rc) :: rs => (if res (cString p) = k ∧ rc = kSuccess then d else []) ++ appended res k rs
  | _ :: rs => appended res k rs

/-- The call neither rewrites nor removes the file `k`, and the system takes all bytes that are appended to it. -/
def LeavesFile (res : Str → FsKey) (k : FsKey) : FileOp → Prop
  | .write p _ _ => res (cString p) ≠ k
  | .append p d a => res (cString p) = k → a.cut d = d
  | .create _ _ => True
  | .remove p _ => res (cString p) ≠ k

/-- The number of lines of a text: one per newline, and one more for text after the last newline. -/
def lineTotal (s : Str) : Nat := s.count 10 + (if s = [] ∨ s.getLast? = some 10 then 0 else 1)

end Spec

open Spec

theorem tree_put_ne (fs : FsTree) {k k' : FsKey} (v : Option FsNode) (h : k' ≠ k) : fs.put k v k' = fs k' := by
  simp [FsTree.put, h]

theorem tree_put_eq (fs : FsTree) (k : FsKey) (v : Option FsNode) : fs.put k v k = v := by
  simp [FsTree.put]

theorem makeDirs_keeps {fs fs' : FsTree} {k : FsKey} {a : FsAns} (h : makeDirs fs k a = .ok fs') (k' : FsKey) :
    fs' k' = fs k' ∨ (fs k' = none ∧ fs' k' = some .dir) := by
  unfold makeDirs at h
  split at h
  · cases h
  · rename_i hn
    cases h
    by_cases hp : k' <+: k
    · simp only [if_pos hp]
      simp only [Bool.or_eq_true, not_or, Bool.not_eq_true, List.any_eq_false, List.mem_range] at hn
      have hl := hp.length_le
      have := hn.2 k'.length (by omega)
      have ht : k.take k'.length = k' := by
        obtain ⟨t, rfl⟩ := hp
        simp
      rw [ht] at this
      cases hk : fs k' with
      | none => right; simp
      | some x =>
        cases x with
        | dir => left; rfl
        | file d w => rw [hk] at this; cases this
        | other => rw [hk] at this; cases this
    · left; simp only [if_neg hp]

theorem createDirs_keeps {fs fs' : FsTree} {k : FsKey} {a : FsAns} (h : createDirs k a fs = .ok fs') (k' : FsKey) :
    fs' k' = fs k' ∨ (fs k' = none ∧ fs' k' = some .dir) := by
  unfold createDirs at h
  split at h
  · cases h; left; rfl
  · exact makeDirs_keeps h k'

/-- The steps of `Create`. -/
theorem create_steps {res : Str → FsKey} {fs fs' : FsTree} {path : Str} {a : FsAns} {rc : Int}
    (h : fileCreate res fs path a = .ok (fs', rc)) (h0 : fileIsFile res fs path = false) :
    ∃ fs1, createDirs (res (cString path)) a fs = .ok fs1 ∧ createOpen (res (cString path)) a fs1 = .ok (fs', rc) := by
  unfold fileCreate at h
  rw [if_neg (by simp [h0])] at h
  cases hd : createDirs (res (cString path)) a fs with
  | error e => rw [hd] at h; cases h
  | ok fs1 => rw [hd] at h; exact ⟨fs1, rfl, h⟩

theorem createOpen_keeps {fs fs' : FsTree} {k k' : FsKey} {a : FsAns} {rc : Int} (h : createOpen k a fs = .ok (fs', rc))
    (hk : ∀ d w, fs k ≠ some (.file d w)) (hk' : fs k' ≠ none) : fs' k' = fs k' := by
  unfold createOpen at h
  split at h
  · cases h; rfl
  · split at h
    · rename_i hx
      cases h
      have : k' ≠ k := by rintro rfl; exact hk' hx
      rw [tree_put_ne _ _ this]
    · rename_i hx; exact absurd hx (hk _ _)
    · cases h; rfl

theorem create_keeps {res : Str → FsKey} {fs fs' : FsTree} {path : Str} {a : FsAns} {rc : Int}
    (h : fileCreate res fs path a = .ok (fs', rc)) (k : FsKey) (hk : fs k ≠ none) : fs' k = fs k := by
  cases h0 : fileIsFile res fs path with
  | true =>
    unfold fileCreate at h
    rw [if_pos h0] at h
    cases h; rfl
  | false =>
    obtain ⟨fs1, h1, h2⟩ := create_steps h h0
    have e : fs1 k = fs k := by
      rcases createDirs_keeps h1 k with h3 | h3
      · exact h3
      · exact absurd h3.1 hk
    rw [createOpen_keeps h2 ?_ (by rw [e]; exact hk), e]
    intro d w hd
    rcases createDirs_keeps h1 (res (cString path)) with h3 | h3
    · rw [h3] at hd
      simp [fileIsFile, hd] at h0
    · rw [h3.2] at hd; cases hd

/-! ### C97 -/

theorem fileApply_keeps {res : Str → FsKey} {fs : FsTree} {k : FsKey} {d : Str} {w : Bool} (hk : fs k = some (.file d w))
    (op : FileOp) (hop : LeavesFile res k op) :
    (fileApply res fs op).1 k = some (.file (d ++ appended res k [(op, (fileApply res fs op).2)]) w) := by
  have hne : fs k ≠ none := by rw [hk]; simp
  cases op with
  | write p x a =>
    have hne : k ≠ res (cString p) := fun h => hop h.symm
    simp only [fileApply, appended, List.append_nil, fileWrite]
    split
    · exact hk
    · split <;> simp [tree_put_ne _ _ hne, hk]
  | append p x a =>
    simp only [fileApply, appended, List.append_nil, fileAppend]
    by_cases he : res (cString p) = k
    · have hx := hop he
      rw [he]
      split
      · simp [hk, kLogicErr, kSuccess]
      · rw [hk]
        simp [tree_put_eq, hx]
    · have hne : k ≠ res (cString p) := fun h => he h.symm
      simp only [he, false_and, if_false, List.append_nil]
      split
      · exact hk
      · split <;> simp [tree_put_ne _ _ hne, hk]
  | create p a =>
    simp only [fileApply]
    cases hc : fileCreate res fs p a with
    | error e => simpa [appended] using hk
    | ok r =>
      have := create_keeps (fs' := r.1) (rc := r.2) hc k hne
      simp only [appended, List.append_nil, this, hk]
  | remove p a =>
    have hne : k ≠ res (cString p) := fun h => hop h.symm
    simp only [fileApply]
    cases hc : fileRemove res fs p a with
    | error e => simpa [appended] using hk
    | ok r =>
      unfold fileRemove at hc
      split at hc
      · cases hc; simpa [appended] using hk
      · split at hc
        · cases hc
        · cases hc
          simp [appended, tree_put_ne _ _ hne, hk]

theorem fileRun_keeps {res : Str → FsKey} {k : FsKey} (ops : List FileOp) (hops : ∀ op ∈ ops, LeavesFile res k op) :
    ∀ {fs : FsTree} {d : Str} {w : Bool}, fs k = some (.file d w) →
      (fileRun res fs ops).1 k = some (.file (d ++ appended res k (fileRun res fs ops).2) w) := by
  induction ops with
  | nil => intro fs d w h; simpa [fileRun, appended] using h
  | cons op ops ih =>
    intro fs d w h
    have h1 := fileApply_keeps h op (hops op (by simp))
    have h2 := ih (fun o ho => hops o (by simp [ho])) h1
    simp only [fileRun]
    rw [h2]
    have : ∀ (x : FileOp × Option Int) (rs : List (FileOp × Option Int)), appended res k (x :: rs) = appended res k [x] ++ appended res k rs := by
      intro x rs
      obtain ⟨o, r⟩ := x
      cases o <;> cases r <;> simp [appended]
    rw [this _ (fileRun res (fileApply res fs op).1 ops).2, List.append_assoc]

/-- C97, if the system takes all bytes it is given: when `Write` has returned success for a path that is a file or
missing, then after any calls for any paths that do not rewrite or remove this file, `Read` gives the written data
followed by all data appended since, every byte of it. -/
theorem C97_written_partial (res : Str → FsKey) (fs : FsTree) (path data : Str) (a : FsAns) (ha : a.cut data = data)
    (hnode : fs (res (cString path)) ≠ some .other) (hrc : (fileWrite res fs path data a).2 = kSuccess)
    (ops : List FileOp) (hops : ∀ op ∈ ops, LeavesFile res (res (cString path)) op) (buf : Str) :
    let end_ := fileRun res (fileWrite res fs path data a).1 ops
    fileGet res end_.1 path buf {} = .ok (kSuccess, data ++ appended res (res (cString path)) end_.2) := by
  have h : ∃ w, (fileWrite res fs path data a).1 (res (cString path)) = some (.file data w) := by
    unfold fileWrite at hrc ⊢
    simp only at hrc ⊢
    split at hrc
    · exact absurd hrc (by simp [kLogicErr, kSuccess])
    · rename_i hc
      rw [if_neg hc]
      cases hk : fs (res (cString path)) with
      | none => exact ⟨true, by simp [tree_put_eq, ha]⟩
      | some x =>
        cases x with
        | file d w => exact ⟨w, by simp [tree_put_eq, ha]⟩
        | dir => simp [canOpenOut, hk] at hc
        | other => exact absurd hk hnode
  obtain ⟨w, hw⟩ := h
  have := fileRun_keeps ops hops hw
  simp only [fileGet, this]
  rfl

/-- C97, if the system refuses: nothing is changed and the caller is told. -/
theorem C97_refused_partial (res : Str → FsKey) (fs : FsTree) (path data : Str) (a : FsAns)
    (h : canOpenOut fs (res (cString path)) a = false) :
    fileWrite res fs path data a = (fs, kLogicErr) ∧ fileAppend res fs path data a = (fs, kLogicErr) := by
  simp [fileWrite, fileAppend, h]

/-- A small tree: the root and a file in it. -/
def smallTree : FsTree := fun k => if k = [] then some .dir else if k = [b!"f"] then some (.file b!"old" true) else none

/-- Paths relative to the root, of one or two components. -/
def smallRes (p : Str) : FsKey :=
  match p.span (· ≠ 47) with
  | (a, []) => [a]
  | (a, _ :: b) => [a, b]

example : let end_ := (fileRun smallRes (fileWrite smallRes smallTree b!"f" [1, 0, 2] {}).1
      [.append b!"f" [0, 3] {}, .create b!"d/g" {}, .append b!"d/g" b!"x" {}, .append b!"f" b!"no" { grant := false }, .remove b!"d/g" {}])
    (end_.2.map (·.2) = [some 0, some 0, some 0, some kLogicErr, some 0]) ∧ fileGet smallRes end_.1 b!"f" [] {} = .ok (0, [1, 0, 2, 0, 3]) := by
  decide +kernel

/-- C97 is false: when the disk is full, `Write` returns success and the file does not hold the data. -/
theorem C97_short_refuted :
    let r := fileWrite smallRes smallTree b!"f" b!"data" { taken := some 1 }
    r.2 = kSuccess ∧ fileGet smallRes r.1 b!"f" [] {} = .ok (kSuccess, b!"d") := by
  decide +kernel

/-- C97 is false: `Read` of a directory neither gives data nor reports an error, it throws where the buffers of the
library throw, whatever is in the tree; and so does the `Read` of a file that the system fails to deliver. -/
theorem C97_read_refuted (res : Str → FsKey) (fs : FsTree) (path buf : Str) (a : FsAns) (hg : a.grant = true)
    (ht : a.libThrows = true)
    (h : fs (res (cString path)) = some .dir ∨ (∃ d w, fs (res (cString path)) = some (.file d w)) ∧ a.readFails = true) :
    fileGet res fs path buf a = .error .fsError := by
  rcases h with h | ⟨⟨d, w, h⟩, hr⟩
  · simp [fileGet, h, hg, ht]
  · simp [fileGet, h, hg, hr, ht]

example : fileGet (fun _ => []) smallTree b!"/" b!"x" {} = .error .fsError ∧
    fileGet smallRes smallTree b!"f" b!"x" { readFails := true } = .error .fsError := by decide +kernel

/-- C97, what holds for every `Read`: it returns an error exactly if there is nothing or the system refuses to open it,
and then the caller's text is as it was; it returns success exactly with what the system delivered of the file; and it
throws in no other case than those of `C97_read_refuted`. -/
theorem C97_read_partial (res : Str → FsKey) (fs : FsTree) (path buf : Str) (a : FsAns) :
    (∀ rc text, fileGet res fs path buf a = .ok (rc, text) →
      (rc = kSuccess ∨ rc = kLogicErr) ∧
      (rc = kLogicErr ↔ fs (res (cString path)) = none ∨ a.grant = false) ∧ (rc = kLogicErr → text = buf) ∧
      (∀ d w, fs (res (cString path)) = some (.file d w) → rc = kSuccess → text = a.cut d)) ∧
    (∀ e, fileGet res fs path buf a = .error e → e = .fsError ∧ a.grant = true ∧ a.libThrows = true ∧
      (fs (res (cString path)) = some .dir ∨ (∃ d w, fs (res (cString path)) = some (.file d w)) ∧ a.readFails = true)) := by
  unfold fileGet
  cases hk : fs (res (cString path)) with
  | none => simp [kLogicErr, kSuccess]
  | some x =>
    cases hg : a.grant <;> cases hr : a.readFails <;> cases ht : a.libThrows <;> cases x <;>
      simp [kLogicErr, kSuccess] <;> (try (rintro rc text rfl rfl)) <;> simp

/-! ### C98 -/

theorem lineLoop_eq (s : Str) : ∀ count, lineLoop count s =
    if lineTotal s = 0 ∨ count + lineTotal s < 2 ^ 31 then .ok (count + lineTotal s) else .error .ub := by
  induction hn : s.length using Nat.strongRecOn generalizing s with
  | _ n ih =>
    intro count
    rw [lineLoop]
    cases s with
    | nil => simp [getLine, lineTotal]
    | cons c s =>
      have hg : getLine (c :: s) = some ((c :: s).takeWhile (· ≠ 10), ((c :: s).dropWhile (· ≠ 10)).drop 1) := rfl
      have hlt := getLine_shorter hg
      have htot : lineTotal (c :: s) = 1 + lineTotal (((c :: s).dropWhile (· ≠ 10)).drop 1) := by
        have hsplit : (c :: s).takeWhile (· ≠ 10) ++ (c :: s).dropWhile (· ≠ 10) = c :: s := List.takeWhile_append_dropWhile
        have hno : ((c :: s).takeWhile (· ≠ 10)).count 10 = 0 := by
          apply List.count_eq_zero.2
          intro h
          have := List.all_takeWhile (p := fun x : UInt8 => x ≠ 10) (l := c :: s)
          rw [List.all_eq_true] at this
          have := this 10 h
          simp at this
        cases hd : (c :: s).dropWhile (· ≠ 10) with
        | nil =>
          rw [hd, List.append_nil] at hsplit
          rw [hsplit] at hno
          have hl : (c :: s).getLast? ≠ some 10 := by
            intro h
            have := List.mem_of_getLast? h
            exact (List.count_eq_zero.1 hno) this
          simp only [lineTotal, hno, hl, List.drop_nil]
          simp
        | cons x t =>
          have hx : x = 10 := by
            have := List.head?_dropWhile_not (p := fun x : UInt8 => decide (x ≠ 10)) (l := c :: s)
            rw [hd] at this
            simpa using this
          subst hx
          rw [hd] at hsplit
          have e : lineTotal (c :: s) = lineTotal ((c :: s).takeWhile (· ≠ 10) ++ 10 :: t) := by rw [hsplit]
          rw [e]
          simp only [lineTotal, List.count_append, hno, List.count_cons, List.drop_succ_cons, List.drop_zero]
          have hl : ((c :: s).takeWhile (· ≠ 10) ++ 10 :: t).getLast? = some (t.getLast?.getD 10) := by
            cases t with
            | nil => simp
            | cons y t => simp [List.getLast?_append, List.getLast?_cons]
          rw [hl]
          cases t with
          | nil => simp
          | cons y t =>
            simp [List.getLast?_cons]
            omega
      split
      · rename_i h; rw [hg] at h; cases h
      · rename_i a b h
        rw [hg] at h
        cases h
        rw [htot]
        by_cases hc : count + 1 < 2 ^ 31
        · rw [if_pos hc, ih _ (hn ▸ hlt) _ rfl]
          simp only [show count + (1 + lineTotal (((c :: s).dropWhile (· ≠ 10)).drop 1)) = count + 1 + lineTotal (((c :: s).dropWhile (· ≠ 10)).drop 1) by omega]
          have : ¬ (1 + lineTotal (((c :: s).dropWhile (· ≠ 10)).drop 1) = 0) := by omega
          simp only [this, false_or]
          by_cases h0 : lineTotal (((c :: s).dropWhile (· ≠ 10)).drop 1) = 0
          · simp only [h0, true_or, if_true, Nat.add_zero, hc]
          · simp only [h0, false_or]
        · rw [if_neg hc, if_neg (by omega)]

/-- C98, for files of fewer than 2^31 lines that can be read: `LineCount` is the number of lines; it is 0 for a missing
file. -/
theorem C98_lines_partial (res : Str → FsKey) (fs : FsTree) (path content : Str) (w : Bool)
    (h : fs (res (cString path)) = some (.file content w)) (hl : lineTotal content < 2 ^ 31) :
    fileLineCount res fs path {} = .ok (lineTotal content) := by
  simp only [fileLineCount, h, if_true]
  show lineLoop 0 content = _
  rw [lineLoop_eq]
  simp [hl]

/-- C98: `LineCount` of what does not exist, of a directory and of what may not be opened is 0. -/
theorem C98_missing (res : Str → FsKey) (fs : FsTree) (path : Str) (a : FsAns)
    (h : fs (res (cString path)) = none ∨ fs (res (cString path)) = some .dir ∨ a.grant = false) :
    fileLineCount res fs path a = .ok 0 := by
  rcases h with h | h | h
  · simp [fileLineCount, h]
  · simp [fileLineCount, h]
  · unfold fileLineCount
    split <;> simp [h]

example : lineTotal b!"" = 0 ∧ lineTotal b!"a" = 1 ∧ lineTotal b!"a\n" = 1 ∧ lineTotal b!"a\n\nb" = 3 := by decide +kernel

/-- C98 is false for files with 2^31 lines or more: the counter overflows. -/
theorem C98_overflow_refuted (res : Str → FsKey) (fs : FsTree) (path content : Str) (w : Bool)
    (h : fs (res (cString path)) = some (.file content w)) (hl : 2 ^ 31 ≤ lineTotal content) :
    fileLineCount res fs path {} = .error .ub := by
  simp only [fileLineCount, h, if_true]
  show lineLoop 0 content = _
  rw [lineLoop_eq, if_neg (by omega)]

/-! ### C99 -/

theorem create_result {res : Str → FsKey} {fs fs' : FsTree} {path : Str} {a : FsAns}
    (h : fileCreate res fs path a = .ok (fs', kSuccess)) : (∃ d w, fs (res (cString path)) = some (.file d w)) ∨
      (fs (res (cString path)) = none ∧ fs' (res (cString path)) = some (.file [] true)) ∨ fs (res (cString path)) = some .other := by
  cases hk : fs (res (cString path)) with
  | some x =>
    cases x with
    | file d w => left; exact ⟨d, w, rfl⟩
    | other => right; right; rfl
    | dir =>
      exfalso
      obtain ⟨fs1, h1, h2⟩ := create_steps h (by simp [fileIsFile, hk])
      have : fs1 (res (cString path)) = some .dir := by
        rcases createDirs_keeps h1 (res (cString path)) with h3 | h3
        · rw [h3, hk]
        · exact h3.2
      simp [createOpen, canOpenOut, this, kSysErr, kSuccess] at h2
  | none =>
    right; left
    refine ⟨rfl, ?_⟩
    obtain ⟨fs1, h1, h2⟩ := create_steps h (by simp [fileIsFile, hk])
    unfold createOpen at h2
    split at h2
    · simp [kSysErr, kSuccess] at h2
    · rename_i hc
      rcases createDirs_keeps h1 (res (cString path)) with h3 | h3
      · rw [h3, hk] at h2
        cases h2
        simp [tree_put_eq]
      · simp [canOpenOut, h3.2] at hc

/-- C99, what holds: when `Create` returns success for something that is not a device, the file exists, everything
that existed is as it was, and a file that did not exist is empty. -/
theorem C99_created_partial (res : Str → FsKey) (fs fs' : FsTree) (path : Str) (a : FsAns)
    (hnode : fs (res (cString path)) ≠ some .other) (h : fileCreate res fs path a = .ok (fs', kSuccess)) :
    fileIsFile res fs' path = true ∧ (∀ k, fs k ≠ none → fs' k = fs k) ∧
    (fs (res (cString path)) = none → ∀ buf, fileGet res fs' path buf {} = .ok (kSuccess, [])) := by
  have hkeep := fun k hk => create_keeps h k hk
  rcases create_result h with ⟨d, w, hk⟩ | ⟨hk, hk'⟩ | hk
  · refine ⟨?_, hkeep, fun hn => by rw [hn] at hk; cases hk⟩
    have := hkeep (res (cString path)) (by rw [hk]; simp)
    rw [hk] at this
    simp [fileIsFile, this]
  · exact ⟨by simp [fileIsFile, hk'], hkeep, fun _ buf => by simp [fileGet, hk', FsAns.cut]⟩
  · exact absurd hk hnode

/-- C99, what holds: if the system grants everything and nothing but directories is on the way, `Create` succeeds, and
makes the missing directories. -/
theorem C99_makes_partial (res : Str → FsKey) (fs : FsTree) (path : Str)
    (hk : fs (res (cString path)) = none)
    (hway : ∀ p, p <+: (res (cString path)).dropLast → fs p = none ∨ fs p = some .dir)
    (hne : res (cString path) ≠ []) :
    ∃ fs', fileCreate res fs path {} = .ok (fs', kSuccess) ∧ fs' (res (cString path)).dropLast = some .dir := by
  have h0 : fileIsFile res fs path = false := by simp [fileIsFile, hk]
  have hlen : (res (cString path)).dropLast ≠ res (cString path) := by
    intro h
    have := congrArg List.length h
    rw [List.length_dropLast] at this
    have : (res (cString path)).length ≠ 0 := by simpa using hne
    omega
  have key : ∃ fs1, createDirs (res (cString path)) {} fs = .ok fs1 ∧
      fs1 (res (cString path)).dropLast = some .dir ∧ fs1 (res (cString path)) = none := by
    unfold createDirs
    by_cases h1 : (fs (res (cString path)).dropLast).isSome
    · refine ⟨fs, by rw [if_pos h1], ?_, hk⟩
      rcases hway _ (List.prefix_refl _) with h2 | h2
      · rw [h2] at h1; cases h1
      · exact h2
    · rw [if_neg h1]
      unfold makeDirs
      rw [if_neg ?_]
      · refine ⟨_, rfl, by simp, ?_⟩
        have : ¬ res (cString path) <+: (res (cString path)).dropLast := by
          intro h
          have := h.length_le
          rw [List.length_dropLast] at this
          have : (res (cString path)).length ≠ 0 := by simpa using hne
          omega
        simp only [if_neg this]
        exact hk
      · simp only [Bool.or_eq_true, not_or, Bool.not_eq_true, List.any_eq_false, List.mem_range]
        refine ⟨rfl, fun i _ => ?_⟩
        rcases hway _ (List.take_prefix i _) with h2 | h2 <;> rw [h2] <;> simp
  obtain ⟨fs1, h1, h2, h3⟩ := key
  refine ⟨fs1.put (res (cString path)) (some (.file [] true)), ?_, ?_⟩
  · unfold fileCreate
    rw [if_neg (by simp [h0]), h1]
    show createOpen _ _ fs1 = _
    unfold createOpen
    rw [if_neg (by simp [canOpenOut, h3, h2]), h3]
  · rw [tree_put_ne _ _ hlen]; exact h2

example : (fileCreate smallRes smallTree b!"d/g" {}).map (fun r => (r.2, r.1 [b!"d"], r.1 [b!"d", b!"g"], r.1 [b!"f"])) =
    .ok (kSuccess, some .dir, some (.file [] true), some (.file b!"old" true)) := by
  decide +kernel

/-- C99 is false: when something on the way is not a directory, `Create` throws instead of returning an error. -/
theorem C99_throws_refuted : fileCreate smallRes smallTree b!"g/h" { mkdirs := false } = .error .fsError ∧
    (fileCreate (fun p => [b!"f", p, p]) smallTree b!"g" {}) = .error .fsError := by
  constructor <;> rfl

/-! ### C100 -/

/-- C100, what holds: when `Remove` returns, it returns success, the path is no file, and everything else is as it was. -/
theorem C100_removed_partial (res : Str → FsKey) (fs fs' : FsTree) (path : Str) (a : FsAns) (rc : Int)
    (h : fileRemove res fs path a = .ok (fs', rc)) :
    rc = kSuccess ∧ fileIsFile res fs' path = false ∧ ∀ k, k ≠ res (cString path) → fs' k = fs k := by
  unfold fileRemove at h
  split at h
  · rename_i hc
    cases h
    exact ⟨rfl, by simpa using hc, fun _ _ => rfl⟩
  · split at h
    · cases h
    · cases h
      exact ⟨rfl, by simp [fileIsFile, tree_put_eq], fun k hk => tree_put_ne _ _ hk⟩

example : (fileRemove smallRes smallTree b!"f" {}).map (fun r => (r.2, r.1 [b!"f"], r.1 [])) = .ok (kSuccess, none, some .dir) := by
  decide +kernel

/-- C100 is false: when the system refuses, `Remove` throws instead of returning an error; and a directory is not
removed although success is returned. -/
theorem C100_throws_refuted : fileRemove smallRes smallTree b!"f" { grant := false } = .error .fsError ∧
    (fileRemove (fun _ => []) smallTree b!"/" {}).map (fun r => (r.2, fileIsDir (fun _ => []) r.1 b!"/")) = .ok (kSuccess, true) := by
  constructor <;> rfl

/-! ### C101 -/

/-- C101, what holds: for a file that exists, and a process for which the owner's permission bit decides whether it
can be opened, `CanWrite` says whether `Append` will be granted. -/
theorem C101_owner_partial (res : Str → FsKey) (fs : FsTree) (path data : Str) (d : Str) (w : Bool)
    (h : fs (res (cString path)) = some (.file d w)) :
    fileCanWrite res fs path = true ↔ (fileAppend res fs path data { grant := w }).2 = kSuccess := by
  cases w <;> simp [fileCanWrite, h, fileAppend, canOpenOut, kLogicErr, kSuccess]

example : smallTree (smallRes (cString b!"f")) = some (.file b!"old" true) := by decide +kernel

/-- C101 is false: `CanWrite` says yes for a missing file in a missing directory, and whenever the owner may write,
also to a process that may not. -/
theorem C101_refuted : (fileCanWrite smallRes smallTree b!"d/g" = true ∧ ∀ data, (fileAppend smallRes smallTree b!"d/g" data {}).2 = kLogicErr) ∧
    (fileCanWrite smallRes smallTree b!"f" = true ∧ ∀ data, (fileAppend smallRes smallTree b!"f" data { grant := false }).2 = kLogicErr) := by
  refine ⟨⟨by decide +kernel, fun data => rfl⟩, ⟨by decide +kernel, fun data => rfl⟩⟩

/-- C101 is false of every directory: `CanWrite` says yes (the owner may write in it), and neither `Write` nor `Append` can ever
be granted, whatever the system answers. -/
theorem C101_directory_refuted (res : Str → FsKey) (fs : FsTree) (path : Str) (h : fs (res (cString path)) = some .dir) :
    fileCanWrite res fs path = true ∧
      ∀ data a, fileWrite res fs path data a = (fs, kLogicErr) ∧ fileAppend res fs path data a = (fs, kLogicErr) := by
  simp [fileCanWrite, h, fileWrite, fileAppend, canOpenOut]

example : smallTree ((fun _ => []) (cString b!"/")) = some .dir := by decide +kernel

end Cppnet
