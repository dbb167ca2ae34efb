import Verif.Spec.Meanwhile
import Verif.Props.Static
import Verif.Props.File

/-!
# C182: a file that changes meanwhile is as it was at one time
-/

namespace Cppnet
open Spec
variable {σ : Type}

theorem existAmid_same (fs : FileSys) (path : Str) : fileExistAmid fs fs path = fileExist fs path := by
  unfold fileExistAmid fileExist
  cases fs (cString path) <;> rfl

/-- **C182** (what holds): when nothing changes the functions of this model are those of the other models. -/
theorem C182_same_partial (g : Nat) (mount dir file : Str) (ctx : Ctx σ) (res : Str → FsKey) (fs : FsTree) (path : Str) (a : FsAns) :
    staticFileAmid g file ctx.fs ctx.fs ctx.fs ctx = staticFileHandler g file ctx ∧
    staticDirAmid g mount dir ctx.fs ctx.fs ctx.fs ctx = staticDirHandler g mount dir ctx ∧
    fileCreateAmid res id id id fs path a = fileCreate res fs path a ∧
    fileRemoveAmid res id id fs path a = fileRemove res fs path a := by
  have hx : ((fs (res (cString path))).isSome && fileIsFile res fs path) = fileIsFile res fs path := by
    unfold fileIsFile
    cases h : fs (res (cString path)) with
    | none => rfl
    | some n => cases n <;> rfl
  refine ⟨?_, ?_, ?_, ?_⟩
  · unfold staticFileAmid staticFileHandler
    rw [existAmid_same]
  · unfold staticDirAmid staticDirHandler
    simp only [existAmid_same]
    rfl
  · unfold fileCreateAmid fileCreate
    simp only [id_eq, hx]
    rfl
  · unfold fileRemoveAmid fileRemove fsRemove
    simp only [id_eq, hx]
    by_cases h : fileIsFile res fs path = true
    · simp only [h, Bool.not_true, Bool.false_eq_true, if_false]
      unfold fileIsFile at h
      cases hk : fs (res (cString path)) with
      | none => rw [hk] at h; cases h
      | some n =>
        cases a.grant <;> simp [bind, Except.bind]
    · have : fileIsFile res fs path = false := by simpa using h
      simp [this]

/-- The answer once it is known that the file exists. -/
theorem existAmid_cases (f0 f1 : FileSys) (file : Str) :
    fileExistAmid f0 f1 file = fileExist f0 file ∧ fileExist f0 file ≠ .ok true ∨
    fileExistAmid f0 f1 file = fileExist f1 file ∧ fileExist f1 file ≠ .ok true ∨ fileExistAmid f0 f1 file = .ok true := by
  unfold fileExistAmid fileExist
  cases f0 (cString file) <;> cases f1 (cString file) <;> simp

/-- **C182** (what holds) for `File::Exist` as the handlers call it: it says yes only if there was something at its first system call
and a regular file at its second, and then always; and if it throws, one of the two calls failed. -/
theorem C182_exist_partial (f0 f1 : FileSys) (file : Str) :
    (fileExistAmid f0 f1 file = .ok true ↔ f0 (cString file) ≠ .missing ∧ f0 (cString file) ≠ .failed ∧
      ((∃ c, f1 (cString file) = .file c) ∨ f1 (cString file) = .broken)) ∧
    (∀ e, fileExistAmid f0 f1 file = .error e → f0 (cString file) = .failed ∨ f1 (cString file) = .failed) := by
  unfold fileExistAmid
  cases f0 (cString file) <;> cases f1 (cString file) <;> simp

/-- **C182** (what holds) for `StaticFile`: whatever others do, the answer is the one for the file system as it was at one of the three
times at which it was asked, or 404 because the file was gone when it was to be opened; unless there was something that is not a
regular file then. -/
theorem C182_file_partial (g : Nat) (file : Str) (f0 f1 f2 : FileSys) (ctx : Ctx σ) (hl : ctx.live g = true)
    (h2 : f2 (cString file) ≠ .other) (r : Out (HttpResp × UMap))
    (hr : (staticFileAmid g file f0 f1 f2 ctx).map (fun c => (c.resp, c.types)) = r) :
    r = answer (staticFileHandler g file) ctx f0 ∨ r = answer (staticFileHandler g file) ctx f1 ∨
    r = answer (staticFileHandler g file) ctx f2 ∨
    (f2 (cString file) = .missing ∨ f2 (cString file) = .failed) ∧ r = .ok (respNotFound ctx.resp, ctx.types) := by
  subst hr
  unfold answer staticFileAmid staticFileHandler
  simp only [hl, Bool.not_true, Bool.false_eq_true, if_false]
  rcases existAmid_cases f0 f1 file with ⟨h, hn⟩ | ⟨h, hn⟩ | h
  · refine .inl ?_
    rw [h]
    cases he : fileExist f0 file with
    | error e => rfl
    | ok b =>
      cases b with
      | false => rfl
      | true => exact absurd he hn
  · refine .inr (.inl ?_)
    rw [h]
    cases he : fileExist f1 file with
    | error e => rfl
    | ok b =>
      cases b with
      | false => rfl
      | true => exact absurd he hn
  · refine .inr (.inr ?_)
    rw [h]
    cases he : f2 (cString file) with
    | other => exact absurd he h2
    | missing =>
      refine .inr ⟨.inl rfl, ?_⟩
      simp only [fileRead, he, bind, Except.bind]
      rfl
    | failed =>
      refine .inr ⟨.inr rfl, ?_⟩
      simp only [fileRead, he, bind, Except.bind]
      rfl
    | broken =>
      refine .inl ?_
      simp only [fileRead, fileExist, he, bind, Except.bind]
      rfl
    | file c =>
      refine .inl ?_
      simp only [fileExist, he, bind, Except.bind]
      cases h1 : fileRead f2 file ctx.resp.body with
      | error e => rfl
      | ok x =>
        obtain ⟨rc, body⟩ := x
        simp only [Bool.not_true, Bool.false_eq_true, if_false]
        split
        · rfl
        · cases h4 : Suffix file with
          | error e => rfl
          | ok s => rfl

/-- **C182** (what holds) for `StaticDir`, for a path that leads to `dir/rest`. -/
theorem C182_dir_partial (g : Nat) (mount dir pre rest : Str) (f0 f1 f2 : FileSys) (ctx : Ctx σ) (hl : ctx.live g = true)
    (hp : ctx.req.route.path = pre ++ mount ++ rest) (hfirst : find (pre ++ mount ++ rest) mount = some pre.length)
    (hdots : ¬ Occurs b!".." rest) (h2 : f2 (cString (dir ++ b!"/" ++ rest)) ≠ .other) (r : Out (HttpResp × UMap))
    (hr : (staticDirAmid g mount dir f0 f1 f2 ctx).map (fun c => (c.resp, c.types)) = r) :
    r = answer (staticDirHandler g mount dir) ctx f0 ∨ r = answer (staticDirHandler g mount dir) ctx f1 ∨
    r = answer (staticDirHandler g mount dir) ctx f2 ∨
    (f2 (cString (dir ++ b!"/" ++ rest)) = .missing ∨ f2 (cString (dir ++ b!"/" ++ rest)) = .failed) ∧
      r = .ok (respNotFound ctx.resp, ctx.types) := by
  subst hr
  have haim : substrFrom (pre ++ mount ++ rest) (pre.length + mount.length) = .ok rest := by
    unfold substrFrom
    rw [← List.length_append]
    simp
  have hd : (find rest b!"..").isSome = false := by
    rw [Bool.eq_false_iff]
    exact fun h => hdots (find_dots.1 h)
  unfold answer staticDirAmid staticDirHandler
  simp only [hl, Bool.not_true, Bool.false_eq_true, if_false, hp, hfirst, haim, hd, bind, Except.bind]
  rcases existAmid_cases f0 f1 (dir ++ b!"/" ++ rest) with ⟨h, hn⟩ | ⟨h, hn⟩ | h
  · refine .inl ?_
    rw [h]
    cases he : fileExist f0 (dir ++ b!"/" ++ rest) with
    | error e => rfl
    | ok b =>
      cases b with
      | false => rfl
      | true => exact absurd he hn
  · refine .inr (.inl ?_)
    rw [h]
    cases he : fileExist f1 (dir ++ b!"/" ++ rest) with
    | error e => rfl
    | ok b =>
      cases b with
      | false => rfl
      | true => exact absurd he hn
  · refine .inr (.inr ?_)
    rw [h]
    cases he : f2 (cString (dir ++ b!"/" ++ rest)) with
    | other => exact absurd he h2
    | missing =>
      refine .inr ⟨.inl rfl, ?_⟩
      simp only [fileRead, he]
      rfl
    | failed =>
      refine .inr ⟨.inr rfl, ?_⟩
      simp only [fileRead, he]
      rfl
    | broken =>
      refine .inl ?_
      simp only [fileRead, fileExist, he]
      rfl
    | file c =>
      refine .inl ?_
      simp only [fileExist, he]
      cases h1 : fileRead f2 (dir ++ b!"/" ++ rest) ctx.resp.body with
      | error e => rfl
      | ok x =>
        obtain ⟨rc, body⟩ := x
        simp only [Bool.not_true, Bool.false_eq_true, if_false]
        split
        · rfl
        · cases h4 : Suffix (dir ++ b!"/" ++ rest) with
          | error e => rfl
          | ok s => rfl

/-- **C182 is false** for `StaticFile`: a file that is replaced by a directory between `Exist` and `Read` makes the handler throw (which
ends the program, C133), although it answers both when there is the file and when there is the directory. -/
theorem C182_static_refuted (g : Nat) (file content : Str) (f0 f2 : FileSys) (ctx : Ctx σ) (hl : ctx.live g = true)
    (h0 : f0 (cString file) = .file (some content)) (h2 : f2 (cString file) = .other) :
    staticFileAmid g file f0 f0 f2 ctx = .error .fsError ∧
    (∃ x, answer (staticFileHandler g file) ctx f0 = .ok x ∧ x.1.status = .OK) ∧
    ∃ x, answer (staticFileHandler g file) ctx f2 = .ok x ∧ x.1.status = .NOT_FOUND := by
  obtain ⟨base, ext, hsuf, _⟩ := C07_suffix file
  refine ⟨?_, ?_, ?_⟩
  · simp only [staticFileAmid, hl, Bool.not_true, Bool.false_eq_true, if_false, fileExistAmid, h0, fileRead, h2, bind, Except.bind]
  · refine ⟨_, by simp only [answer, staticFileHandler, hl, fileExist, fileRead, h0, hsuf, bind, Except.bind, Bool.not_true,
      Bool.false_eq_true, if_false, ne_eq, not_true_eq_false, Except.map]; rfl, rfl⟩
  · exact ⟨_, by simp only [answer, staticFileHandler, hl, fileExist, h2, bind, Except.bind, Bool.not_true, Bool.not_false,
      Bool.false_eq_true, if_false, if_true, Except.map]; rfl, rfl⟩

theorem createDirs_at {k : FsKey} {a : FsAns} {fs fs' : FsTree} (h : createDirs k a fs = .ok fs') (hk : k ≠ []) : fs' k = fs k := by
  unfold createDirs at h
  split at h
  · cases h; rfl
  · unfold makeDirs at h
    split at h
    · cases h
    · cases h
      have : ¬ k <+: k.dropLast := by
        intro hp
        have := hp.length_le
        have := List.length_pos_iff.2 hk
        simp only [List.length_dropLast] at *
        omega
      simp [this]

/-- **C182** (what holds) for `Create`, if others leave this name alone (whatever they do elsewhere): when it returns success a file
that was there still has its content, and a file that was not is there and empty. -/
theorem C182_create_partial (res : Str → FsKey) (m1 m2 m3 : Meddle) (fs fs' : FsTree) (path : Str) (a : FsAns)
    (hk : res (cString path) ≠ []) (h1 : LeavesAlone (res (cString path)) m1) (h2 : LeavesAlone (res (cString path)) m2)
    (h3 : LeavesAlone (res (cString path)) m3) (h : fileCreateAmid res m1 m2 m3 fs path a = .ok (fs', kSuccess)) :
    (∀ n, fs (res (cString path)) = some n → fs' (res (cString path)) = some n) ∧
    (fs (res (cString path)) = none → fs' (res (cString path)) = some (.file [] true)) := by
  unfold fileCreateAmid at h
  generalize hkk : res (cString path) = k at *
  have hf : ∀ d w, fs k = some (.file d w) → fileIsFile res (m1 fs) path = true := by
    intro d w hd
    unfold fileIsFile
    rw [hkk, h1 fs, hd]
  by_cases hc : ((fs k).isSome && fileIsFile res (m1 fs) path) = true
  · rw [if_pos hc] at h
    cases h
    rw [h1 fs]
    refine ⟨fun n hn => hn, fun hn => ?_⟩
    rw [hn] at hc
    simp at hc
  · rw [if_neg hc] at h
    cases hd : createDirs k a (m2 (m1 fs)) with
    | error e => rw [hd] at h; cases h
    | ok fs1 =>
      simp only [hd, bind, Except.bind] at h
      have hat : m3 fs1 k = fs k := by rw [h3 fs1, createDirs_at hd hk, h2, h1]
      unfold createOpen canOpenOut at h
      rw [hat] at h
      cases hn : fs k with
      | none =>
        refine ⟨fun n hx => (by cases hx), fun _ => ?_⟩
        rw [hn] at h
        simp only at h
        split at h
        · simp [kSysErr, kSuccess] at h
        · cases h
          simp [FsTree.put]
      | some n =>
        refine ⟨fun n' hx => ?_, fun hx => (by cases hx)⟩
        cases hx
        rw [hn] at h
        cases n with
        | file d w => exact absurd (by rw [hf d w hn, hn]; rfl) hc
        | dir => simp [kSysErr, kSuccess] at h
        | other =>
          simp only at h
          split at h
          · simp [kSysErr, kSuccess] at h
          · cases h
            rw [hat, hn]

/-- **C182 is false** for `Create`: what another program writes into the file between the check and the open is lost, and `Create`
reports success.  So two programs that begin to log to the same new file can lose the first lines of one of them. -/
theorem C182_create_refuted (res : Str → FsKey) (fs : FsTree) (path data : Str) (hk : fs (res (cString path)) = none)
    (hp : fs (res (cString path)).dropLast = some .dir) :
    let other : Meddle := fun fs => (fileAppend res fs path data {}).1
    (fileGet res (other fs) path [] {} = .ok (kSuccess, data)) ∧
    ∃ fs', fileCreateAmid res id id other fs path {} = .ok (fs', kSuccess) ∧ fileGet res fs' path [] {} = .ok (kSuccess, []) := by
  have hw : ∀ k', (fileAppend res fs path data {}).1 k' = if k' = res (cString path) then some (.file data true) else fs k' := by
    intro k'
    simp [fileAppend, canOpenOut, hk, hp, FsTree.put, FsAns.cut]
  refine ⟨?_, (fileAppend res fs path data {}).1.put (res (cString path)) (some (.file [] true)), ?_, ?_⟩
  · simp [fileGet, hw, FsAns.cut]
  · unfold fileCreateAmid createDirs createOpen
    simp [hk, hp, bind, Except.bind, hw, canOpenOut]
  · simp [fileGet, FsTree.put, FsAns.cut]

/-- **C182** (what holds) for `Remove`: it removes nothing but what is under this name. -/
theorem C182_remove_partial (res : Str → FsKey) (m1 m2 : Meddle) (fs fs' : FsTree) (path : Str) (a : FsAns) (rc : Int)
    (h : fileRemoveAmid res m1 m2 fs path a = .ok (fs', rc)) (k : FsKey) (hk : k ≠ res (cString path))
    (h1 : LeavesAlone k m1) (h2 : LeavesAlone k m2) : fs' k = fs k := by
  unfold fileRemoveAmid at h
  simp only at h
  by_cases hc : (!((fs (res (cString path))).isSome && fileIsFile res (m1 fs) path)) = true
  · rw [if_pos hc] at h
    cases h
    exact h1 fs
  · rw [if_neg hc] at h
    unfold fsRemove at h
    cases hn : m2 (m1 fs) (res (cString path)) with
    | none =>
      simp only [hn, bind, Except.bind] at h
      cases h
      rw [h2, h1]
    | some n =>
      cases hg : a.grant with
      | false => simp [hn, hg, bind, Except.bind] at h
      | true =>
        simp only [hn, hg, if_true, bind, Except.bind] at h
        cases h
        simp only [FsTree.put, if_neg hk]
        rw [h2, h1]

/-- **C182 is false** for `Remove`: a directory that takes the file's place (and is empty) is removed, with success, although `Remove`
leaves directories alone; and when another program has removed the file already `Remove` reports an error. -/
theorem C182_remove_refuted (res : Str → FsKey) (fs : FsTree) (path data : Str) (w : Bool)
    (hk : fs (res (cString path)) = some (.file data w)) :
    (fileRemoveAmid res id (fun fs => fs.put (res (cString path)) (some .dir)) fs path {} =
      .ok ((fs.put (res (cString path)) (some .dir)).put (res (cString path)) none, kSuccess) ∧
     fileRemove res (fs.put (res (cString path)) (some .dir)) path {} = .ok (fs.put (res (cString path)) (some .dir), kSuccess)) ∧
    (fileRemoveAmid res id (fun fs => fs.put (res (cString path)) none) fs path {}).map (·.2) = .ok kSysErr := by
  refine ⟨⟨?_, ?_⟩, ?_⟩
  · simp [fileRemoveAmid, fsRemove, fileIsFile, hk, FsTree.put, bind, Except.bind]
  · simp [fileRemove, fileIsFile, FsTree.put]
  · simp [fileRemoveAmid, fsRemove, fileIsFile, hk, FsTree.put, bind, Except.bind, Except.map]

/-- A file system of one file, for the examples. -/
def oneFile (e : FsEntry) : FileSys := fun p => if p = b!"d/a.txt" then e else .missing

/-- The hypotheses can be met: the file has "old" when it is asked for and "new" when it is read; or it is gone by then. -/
example : let ctx : Ctx Unit := { req := { route := { path := b!"/s/a.txt" } }, conn := ⟨[], 0⟩, user := () }
    (staticFileAmid 0 b!"d/a.txt" (oneFile (.file (some b!"old"))) (oneFile (.file (some b!"old"))) (oneFile (.file (some b!"new"))) ctx).map
      (fun c => (c.resp.status, c.resp.body)) = .ok (.OK, b!"new") ∧
    (staticDirAmid 0 b!"/s/" b!"d" (oneFile (.file (some b!"old"))) (oneFile (.file (some b!"old"))) (oneFile .missing) ctx).map
      (fun c => c.resp.status) = .ok .NOT_FOUND := by
  decide +kernel

example : smallTree (smallRes (cString b!"g")) = none ∧ smallTree (smallRes (cString b!"g")).dropLast = some .dir ∧
    (fileCreateAmid smallRes id (fun fs => fs.put [b!"h"] (some .dir)) id smallTree b!"g" {}).map (fun r => (r.2, r.1 (smallRes b!"g"))) =
      .ok (kSuccess, some (.file [] true)) := by decide +kernel

end Cppnet
