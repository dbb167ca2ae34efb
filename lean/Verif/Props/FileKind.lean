import Verif.Props.File
import Mathlib.Data.List.Induction

/-!
# C143: what `Exist`, `IsFile` and `IsDir` say
-/

namespace Cppnet

namespace Spec

/-- Is there a regular file under `k` after these calls, if `start` says whether there was one before?  A `Write`, an
`Append` or a `Create` that returned success makes one, a `Remove` that returned success leaves none. -/
def fileThere (res : Str → FsKey) (k : FsKey) (start : Bool) : List (FileOp × Option Int) → Bool
  | [] => start
  | (op, rc) :: rest =>
    let now := if rc = some kSuccess then
        match op with
        | .write p _ _ => if res (cString p) = k then true else start
        | .append p _ _ => if res (cString p) = k then true else start
        | .create p _ => if res (cString p) = k then true else start
        | .remove p _ => if res (cString p) = k then false else start
      else start
    fileThere res k now rest

/-- The path a call is given. -/
def opPath : FileOp → Str
  | .write p _ _ => p
  | .append p _ _ => p
  | .create p _ => p
  | .remove p _ => p

/-- The call is a `Create` of something inside the directory `k`, however deep. -/
def CreatesBelow (res : Str → FsKey) (k : FsKey) : FileOp → Prop
  | .create p _ => k <+: (res (cString p)).dropLast
  | _ => False

end Spec

open Spec

/-- Is the node a regular file? -/
def isFileNode : Option FsNode → Bool
  | some (.file _ _) => true
  | _ => false

theorem fileIsFile_eq (res : Str → FsKey) (fs : FsTree) (path : Str) :
    fileIsFile res fs path = isFileNode (fs (res (cString path))) := by
  unfold fileIsFile isFileNode
  rfl

theorem makeDirs_dir {fs fs' : FsTree} {k : FsKey} {a : FsAns} (h : makeDirs fs k a = .ok fs') (k' : FsKey)
    (hn : fs k' = none) (hd : fs' k' ≠ none) : k' <+: k := by
  unfold makeDirs at h
  split at h
  · cases h
  · cases h
    by_cases hp : k' <+: k
    · exact hp
    · simp only [if_neg hp] at hd
      exact absurd hn hd

theorem write_node (res : Str → FsKey) (fs : FsTree) (p d : Str) (a : FsAns) (k : FsKey) :
    (fileWrite res fs p d a).1 k = fs k ∨ (k = res (cString p) ∧ (fileWrite res fs p d a).2 = kSuccess ∧
      isFileNode ((fileWrite res fs p d a).1 k) = true ∧ (isFileNode (fs k) = true ∨ fs k = none)) := by
  simp only [fileWrite]
  split
  · left; rfl
  · by_cases hk : k = res (cString p)
    · subst hk
      cases hf : fs (res (cString p)) with
      | none => right; simp [tree_put_eq, isFileNode]
      | some x =>
        cases x with
        | file d w => right; simp [tree_put_eq, isFileNode]
        | dir => left; exact hf
        | other => left; exact hf
    · left
      split <;> simp [tree_put_ne _ _ hk]

theorem append_node (res : Str → FsKey) (fs : FsTree) (p d : Str) (a : FsAns) (k : FsKey) :
    (fileAppend res fs p d a).1 k = fs k ∨ (k = res (cString p) ∧ (fileAppend res fs p d a).2 = kSuccess ∧
      isFileNode ((fileAppend res fs p d a).1 k) = true ∧ (isFileNode (fs k) = true ∨ fs k = none)) := by
  simp only [fileAppend]
  split
  · left; rfl
  · by_cases hk : k = res (cString p)
    · subst hk
      cases hf : fs (res (cString p)) with
      | none => right; simp [tree_put_eq, isFileNode]
      | some x =>
        cases x with
        | file d w => right; simp [tree_put_eq, isFileNode]
        | dir => left; exact hf
        | other => left; exact hf
    · left
      split <;> simp [tree_put_ne _ _ hk]

theorem write_makes {res : Str → FsKey} {fs : FsTree} {p d : Str} {a : FsAns}
    (h : (fileWrite res fs p d a).2 = kSuccess) (ho : fs (res (cString p)) ≠ some .other) :
    isFileNode ((fileWrite res fs p d a).1 (res (cString p))) = true := by
  simp only [fileWrite] at h ⊢
  split at h
  · exact absurd h (by simp [kLogicErr, kSuccess])
  · rename_i hc
    rw [if_neg hc]
    cases hf : fs (res (cString p)) with
    | none => simp [tree_put_eq, isFileNode]
    | some x =>
      cases x with
      | file d w => simp [tree_put_eq, isFileNode]
      | dir => simp [canOpenOut, hf] at hc
      | other => exact absurd hf ho

theorem append_makes {res : Str → FsKey} {fs : FsTree} {p d : Str} {a : FsAns}
    (h : (fileAppend res fs p d a).2 = kSuccess) (ho : fs (res (cString p)) ≠ some .other) :
    isFileNode ((fileAppend res fs p d a).1 (res (cString p))) = true := by
  simp only [fileAppend] at h ⊢
  split at h
  · exact absurd h (by simp [kLogicErr, kSuccess])
  · rename_i hc
    rw [if_neg hc]
    cases hf : fs (res (cString p)) with
    | none => simp [tree_put_eq, isFileNode]
    | some x =>
      cases x with
      | file d w => simp [tree_put_eq, isFileNode]
      | dir => simp [canOpenOut, hf] at hc
      | other => exact absurd hf ho

/-- What `Create` does to one node. -/
theorem create_node {res : Str → FsKey} {fs fs' : FsTree} {p : Str} {a : FsAns} {rc : Int}
    (h : fileCreate res fs p a = .ok (fs', rc)) (k : FsKey) :
    fs' k = fs k ∨ (fs k = none ∧ fs' k = some .dir ∧ k <+: (res (cString p)).dropLast) ∨
      (fs k = none ∧ fs' k = some (.file [] true) ∧ k = res (cString p) ∧ rc = kSuccess) := by
  by_cases hn : fs k = none
  swap
  · left; exact create_keeps h k hn
  cases h0 : fileIsFile res fs p with
  | true =>
    unfold fileCreate at h
    rw [if_pos h0] at h
    cases h; left; rfl
  | false =>
    obtain ⟨fs1, h1, h2⟩ := create_steps h h0
    have hd : fs1 k = none ∨ (fs1 k = some .dir ∧ k <+: (res (cString p)).dropLast) := by
      rcases createDirs_keeps h1 k with h3 | h3
      · left; rw [h3, hn]
      · right
        refine ⟨h3.2, ?_⟩
        unfold createDirs at h1
        split at h1
        · cases h1; rw [h3.2] at hn; cases hn
        · exact makeDirs_dir h1 k hn (by rw [h3.2]; simp)
    have hk1 : ∀ d w, fs1 (res (cString p)) ≠ some (.file d w) := by
      intro d w hf
      rcases createDirs_keeps h1 (res (cString p)) with h3 | h3
      · rw [h3] at hf; simp [fileIsFile, hf] at h0
      · rw [h3.2] at hf; cases hf
    rcases hd with hd | hd
    · unfold createOpen at h2
      split at h2
      · cases h2; left; rw [hd, hn]
      · split at h2
        · cases h2
          by_cases e : k = res (cString p)
          · right; right; subst e; exact ⟨hn, tree_put_eq _ _ _, rfl, rfl⟩
          · left; rw [tree_put_ne _ _ e, hd, hn]
        · rename_i hx; exact absurd hx (hk1 _ _)
        · cases h2; left; rw [hd, hn]
    · have := createOpen_keeps h2 hk1 (k' := k) (by rw [hd.1]; simp)
      right; left; exact ⟨hn, by rw [this, hd.1], hd.2⟩

theorem create_makes {res : Str → FsKey} {fs fs' : FsTree} {p : Str} {a : FsAns}
    (h : fileCreate res fs p a = .ok (fs', kSuccess)) (ho : fs (res (cString p)) ≠ some .other) :
    isFileNode (fs' (res (cString p))) = true := by
  rcases create_result h with ⟨d, w, hk⟩ | ⟨hk, hk'⟩ | hk
  · rw [create_keeps h _ (by rw [hk]; simp), hk]; rfl
  · rw [hk']; rfl
  · exact absurd hk ho

theorem remove_node {res : Str → FsKey} {fs fs' : FsTree} {p : Str} {a : FsAns} {rc : Int}
    (h : fileRemove res fs p a = .ok (fs', rc)) : rc = kSuccess ∧ isFileNode (fs' (res (cString p))) = false ∧
      ∀ k, fs' k = fs k ∨ (k = res (cString p) ∧ isFileNode (fs k) = true ∧ fs' k = none) := by
  unfold fileRemove at h
  split at h
  · rename_i hc
    cases h
    refine ⟨rfl, ?_, fun k => Or.inl rfl⟩
    rw [fileIsFile_eq] at hc; simpa using hc
  · rename_i hc
    split at h
    · cases h
    · cases h
      refine ⟨rfl, by simp [tree_put_eq, isFileNode], fun k => ?_⟩
      by_cases e : k = res (cString p)
      · right; subst e
        refine ⟨rfl, ?_, tree_put_eq _ _ _⟩
        rw [fileIsFile_eq] at hc; simpa using hc
      · left; exact tree_put_ne _ _ e

theorem there_err (res : Str → FsKey) (k : FsKey) (b : Bool) (op : FileOp) (rc : Option Int) (h : rc ≠ some kSuccess) :
    fileThere res k b [(op, rc)] = b := by
  simp [fileThere, h]

theorem there_made (res : Str → FsKey) (k : FsKey) (b : Bool) (p d : Str) (a : FsAns) :
    fileThere res k b [(.write p d a, some kSuccess)] = (if res (cString p) = k then true else b) ∧
    fileThere res k b [(.append p d a, some kSuccess)] = (if res (cString p) = k then true else b) ∧
    fileThere res k b [(.create p a, some kSuccess)] = (if res (cString p) = k then true else b) ∧
    fileThere res k b [(.remove p a, some kSuccess)] = (if res (cString p) = k then false else b) := by
  simp [fileThere]

/-- One call and one node. -/
theorem apply_kind (res : Str → FsKey) (fs : FsTree) (op : FileOp) (k : FsKey) (ho : fs k ≠ some .other) :
    (fileApply res fs op).1 k ≠ some .other ∧
    isFileNode ((fileApply res fs op).1 k) = fileThere res k (isFileNode (fs k)) [(op, (fileApply res fs op).2)] ∧
    (fs k = some .dir → (fileApply res fs op).1 k = some .dir) ∧
    ((fileApply res fs op).1 k = some .dir → fs k = some .dir ∨ CreatesBelow res k op) := by
  have nf : ∀ x : Option FsNode, isFileNode x = true → x ≠ some .other ∧ x ≠ some .dir := by
    intro x hx
    constructor <;> (rintro rfl; cases hx)
  cases op with
  | write p d a =>
    simp only [fileApply]
    rcases write_node res fs p d a k with h | ⟨rfl, h1, h2, h3⟩
    · refine ⟨by rw [h]; exact ho, ?_, fun hd => by rw [h, hd], fun hd => Or.inl (by rw [← h, hd])⟩
      rw [h]
      by_cases hrc : (fileWrite res fs p d a).2 = kSuccess
      · rw [hrc, (there_made res _ _ p d a).1]
        by_cases e : res (cString p) = k
        · subst e
          rw [if_pos rfl, ← h]; exact write_makes hrc ho
        · rw [if_neg e]
      · rw [there_err _ _ _ _ _ (by simpa using hrc)]
    · refine ⟨(nf _ h2).1, ?_, fun hd => ?_, fun hd => absurd hd (nf _ h2).2⟩
      · rw [h1, (there_made res _ _ p d a).1, if_pos rfl, h2]
      · rcases h3 with h3 | h3
        · exact absurd hd (nf _ h3).2
        · rw [h3] at hd; cases hd
  | append p d a =>
    simp only [fileApply]
    rcases append_node res fs p d a k with h | ⟨rfl, h1, h2, h3⟩
    · refine ⟨by rw [h]; exact ho, ?_, fun hd => by rw [h, hd], fun hd => Or.inl (by rw [← h, hd])⟩
      rw [h]
      by_cases hrc : (fileAppend res fs p d a).2 = kSuccess
      · rw [hrc, (there_made res _ _ p d a).2.1]
        by_cases e : res (cString p) = k
        · subst e
          rw [if_pos rfl, ← h]; exact append_makes hrc ho
        · rw [if_neg e]
      · rw [there_err _ _ _ _ _ (by simpa using hrc)]
    · refine ⟨(nf _ h2).1, ?_, fun hd => ?_, fun hd => absurd hd (nf _ h2).2⟩
      · rw [h1, (there_made res _ _ p d a).2.1, if_pos rfl, h2]
      · rcases h3 with h3 | h3
        · exact absurd hd (nf _ h3).2
        · rw [h3] at hd; cases hd
  | create p a =>
    simp only [fileApply]
    cases hc : fileCreate res fs p a with
    | error e => exact ⟨ho, (there_err _ _ _ _ _ (by simp)).symm, fun h => h, fun h => Or.inl h⟩
    | ok r =>
      obtain ⟨fs', rc⟩ := r
      simp only [CreatesBelow]
      rcases create_node hc k with h | ⟨h1, h2, h3⟩ | ⟨h1, h2, h3, h4⟩
      · refine ⟨by rw [h]; exact ho, ?_, fun hd => by rw [h, hd], fun hd => Or.inl (by rw [← h, hd])⟩
        rw [h]
        by_cases hrc : rc = kSuccess
        · subst hrc
          rw [(there_made res _ _ p [] a).2.2.1]
          by_cases e : res (cString p) = k
          · subst e
            rw [if_pos rfl, ← h]; exact create_makes hc ho
          · rw [if_neg e]
        · rw [there_err _ _ _ _ _ (by simpa using hrc)]
      · refine ⟨by rw [h2]; simp, ?_, fun hd => h2, fun _ => Or.inr h3⟩
        rw [h2, h1]
        by_cases hrc : rc = kSuccess
        · subst hrc
          rw [(there_made res _ _ p [] a).2.2.1]
          by_cases e : res (cString p) = k
          · subst e
            have := create_makes hc ho
            rw [h2] at this; cases this
          · rw [if_neg e]; rfl
        · rw [there_err _ _ _ _ _ (by simpa using hrc)]; rfl
      · subst h3; subst h4
        refine ⟨by rw [h2]; simp, by rw [h2, (there_made res _ _ p [] a).2.2.1, if_pos rfl]; rfl, fun hd => ?_, fun hd => ?_⟩
        · rw [h1] at hd; cases hd
        · rw [h2] at hd; cases hd
  | remove p a =>
    simp only [fileApply]
    cases hc : fileRemove res fs p a with
    | error e => exact ⟨ho, (there_err _ _ _ _ _ (by simp)).symm, fun h => h, fun h => Or.inl h⟩
    | ok r =>
      obtain ⟨fs', rc⟩ := r
      obtain ⟨h1, h2, h3⟩ := remove_node hc
      subst h1
      simp only [(there_made res _ _ p [] a).2.2.2]
      rcases h3 k with h | ⟨rfl, h4, h5⟩
      · refine ⟨by rw [h]; exact ho, ?_, fun hd => by rw [h, hd], fun hd => Or.inl (by rw [← h, hd])⟩
        by_cases e : res (cString p) = k
        · subst e; rw [if_pos rfl, h2]
        · rw [if_neg e, h]
      · refine ⟨by rw [h5]; simp, by rw [if_pos rfl, h5]; rfl, fun hd => absurd hd (nf _ h4).2, fun hd => ?_⟩
        rw [h5] at hd; cases hd

theorem fileThere_cons (res : Str → FsKey) (k : FsKey) (b : Bool) (x : FileOp × Option Int)
    (rs : List (FileOp × Option Int)) : fileThere res k b (x :: rs) = fileThere res k (fileThere res k b [x]) rs := rfl

/-- C143: `IsFile` and `IsDir` tell what is under the path, and never both say yes. -/
theorem C143_kind (res : Str → FsKey) (fs : FsTree) (path : Str) :
    (fileIsFile res fs path = true ↔ ∃ data w, fs (res (cString path)) = some (.file data w)) ∧
    (fileIsDir res fs path = true ↔ fs (res (cString path)) = some .dir) ∧
    ¬ (fileIsFile res fs path = true ∧ fileIsDir res fs path = true) := by
  unfold fileIsFile fileIsDir
  cases h : fs (res (cString path)) with
  | none => simp
  | some x => cases x <;> simp

/-- C143: after any calls of `Write`, `Append`, `Create` and `Remove` for any paths, whatever the system answered,
`IsFile` (and `Exist`) of any path that is not a device says yes exactly if the last call that made or removed a file
there made one (as it was before, if there was no such call). -/
theorem C143_history (res : Str → FsKey) (fs : FsTree) (ops : List FileOp) (path : Str)
    (ho : fs (res (cString path)) ≠ some .other) :
    let end_ := fileRun res fs ops
    fileIsFile res end_.1 path = fileThere res (res (cString path)) (fileIsFile res fs path) end_.2 := by
  simp only [fileIsFile_eq]
  induction ops generalizing fs with
  | nil => rfl
  | cons op ops ih =>
    obtain ⟨h1, h2, -⟩ := apply_kind res fs op _ ho
    simp only [fileRun]
    rw [fileThere_cons, ← h2]
    exact ih _ h1

/-- C143: no call makes a directory disappear, and a directory appears only by a `Create` of something inside it. -/
theorem C143_dirs (res : Str → FsKey) (fs : FsTree) (ops : List FileOp) (path : Str)
    (ho : fs (res (cString path)) ≠ some .other) :
    let end_ := fileRun res fs ops
    (fileIsDir res fs path = true → fileIsDir res end_.1 path = true) ∧
    (fileIsDir res end_.1 path = true →
      fileIsDir res fs path = true ∨ ∃ op ∈ ops, CreatesBelow res (res (cString path)) op) := by
  simp only [fileIsDir, decide_eq_true_eq]
  induction ops generalizing fs with
  | nil => exact ⟨fun h => h, fun h => Or.inl h⟩
  | cons op ops ih =>
    obtain ⟨h1, -, h3, h4⟩ := apply_kind res fs op _ ho
    obtain ⟨i1, i2⟩ := ih _ h1
    simp only [fileRun]
    refine ⟨fun h => i1 (h3 h), fun h => ?_⟩
    rcases i2 h with h' | ⟨o, ho, hc⟩
    · rcases h4 h' with h'' | h''
      · exact Or.inl h''
      · exact Or.inr ⟨op, by simp, h''⟩
    · exact Or.inr ⟨o, by simp [ho], hc⟩

example : let ops : List FileOp := [.write b!"d/x" b!"1" {}, .create b!"d/g" {}, .write b!"d/x" b!"1" {}, .remove b!"d/g" {},
      .append b!"f" b!"2" {}, .remove b!"d" {}]
    let end_ := fileRun smallRes smallTree ops
    end_.2.map (·.2) = [some kLogicErr, some 0, some 0, some 0, some 0, some 0] ∧
    fileIsFile smallRes end_.1 b!"d/x" = true ∧ fileIsFile smallRes end_.1 b!"d/g" = false ∧
    fileIsDir smallRes smallTree b!"d" = false ∧ fileIsDir smallRes end_.1 b!"d" = true := by decide +kernel
example : smallTree (smallRes (cString b!"d/x")) ≠ some .other := by decide +kernel

/-- C143: `Write` and `Append` make no directories: where the parent is not a directory, a missing file stays
missing, the caller is told and nothing is changed. -/
theorem C143_no_parent (res : Str → FsKey) (fs : FsTree) (path data : Str) (a : FsAns)
    (h : fs (res (cString path)) = none) (hp : fs (res (cString path)).dropLast ≠ some .dir) :
    fileWrite res fs path data a = (fs, kLogicErr) ∧ fileAppend res fs path data a = (fs, kLogicErr) := by
  refine C97_refused_partial res fs path data a ?_
  simp [canOpenOut, h, hp]

/-- C143: `Write` and `Append` of a directory fail and change nothing. -/
theorem C143_not_a_dir (res : Str → FsKey) (fs : FsTree) (path data : Str) (a : FsAns)
    (h : fs (res (cString path)) = some .dir) :
    fileWrite res fs path data a = (fs, kLogicErr) ∧ fileAppend res fs path data a = (fs, kLogicErr) := by
  refine C97_refused_partial res fs path data a ?_
  simp [canOpenOut, h]

example : smallTree (smallRes (cString b!"d/x")) = none ∧ smallTree (smallRes (cString b!"d/x")).dropLast ≠ some .dir := by
  decide +kernel

end Cppnet
