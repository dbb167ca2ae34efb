import Verif.Spec.SockTimeout

/-!
# C171: the timeouts of a socket
-/

namespace Cppnet
open Spec

theorem setTimeval_posix {pl : Platform} (hp : pl ≠ .windows) (old : Waits) (sec usec : Nat) :
    setTimeval pl old sec usec = if usec < 1000000 then (asked sec usec, 0) else (old, -1) := by
  unfold asked
  cases pl with
  | windows => exact absurd rfl hp
  | linux =>
    unfold setTimeval
    by_cases h : usec < 1000000
    · rw [if_pos h]
      simp only
      rw [if_neg (by omega), if_neg (by omega)]
      by_cases h0 : sec = 0 ∧ usec = 0
      · rw [if_pos (by omega), if_pos h0]
      · rw [if_neg (by omega), if_neg h0]
        exact congrArg (fun n => (Waits.micros n, (0 : Int))) (by omega)
    · rw [if_neg h]
      simp only
      rw [if_pos (by omega)]
  | apple =>
    unfold setTimeval
    by_cases h : usec < 1000000
    · rw [if_pos h]
      simp only
      rw [if_neg (by omega)]
      by_cases h0 : sec = 0 ∧ usec = 0
      · rw [if_pos (by omega), if_pos h0]
      · rw [if_neg (by omega), if_neg h0]
        exact congrArg (fun n => (Waits.micros n, (0 : Int))) (by omega)
    · rw [if_neg h]
      simp only
      rw [if_pos (by omega)]

theorem setTimeval_windows (old : Waits) (sec : Nat) (usec : Int) (h : sec < 2 ^ 31) :
    setTimeval .windows old sec usec = (if sec = 0 then .ever else .micros (sec * 1000), 0) := by
  unfold setTimeval
  have e : (sec : Int) % 2 ^ 32 = sec := by omega
  simp only [e]
  by_cases h0 : sec = 0
  · simp [h0]
  · rw [if_neg (by omega), if_neg h0]
    simp

/-- C171, on Linux and macOS: after whatever calls, `SetReadTimeout` (`SetWriteTimeout`) succeeds exactly if the microseconds are less
than a million; then reads (writes) wait as long as it says, zero meaning for ever; otherwise nothing changes.  The other waiting time
is never changed. -/
theorem C171_posix_partial (pl : Platform) (hp : pl ≠ .windows) (cs : List TimeoutCall) (sec usec : Nat) :
    (waitsAfter pl cs).call pl (.read sec usec) =
      (if usec < 1000000 then ({ waitsAfter pl cs with recv := asked sec usec }, 0) else (waitsAfter pl cs, -1)) ∧
    (waitsAfter pl cs).call pl (.write sec usec) =
      (if usec < 1000000 then ({ waitsAfter pl cs with send := asked sec usec }, 0) else (waitsAfter pl cs, -1)) := by
  unfold SockWaits.call
  simp only [setTimeval_posix hp]
  constructor <;> split <;> rfl

/-- C171, on Windows: the seconds are taken for milliseconds and the microseconds for nothing, and the call says that it succeeded. -/
theorem C171_windows_partial (cs : List TimeoutCall) (sec : Nat) (usec : Int) (h : sec < 2 ^ 31) :
    (waitsAfter .windows cs).call .windows (.read sec usec) =
      ({ waitsAfter .windows cs with recv := if sec = 0 then .ever else .micros (sec * 1000) }, 0) ∧
    (waitsAfter .windows cs).call .windows (.write sec usec) =
      ({ waitsAfter .windows cs with send := if sec = 0 then .ever else .micros (sec * 1000) }, 0) := by
  unfold SockWaits.call
  simp only [setTimeval_windows _ sec usec h]
  exact ⟨trivial, trivial⟩

/-- C171 is false: on Windows no timeout but zero is what was asked for. -/
theorem C171_windows_refuted (cs : List TimeoutCall) (sec usec : Nat) (h : sec < 2 ^ 31) (h0 : ¬ (sec = 0 ∧ usec = 0)) :
    ((waitsAfter .windows cs).call .windows (.read sec usec)).1.recv ≠ asked sec usec ∧
    ((waitsAfter .windows cs).call .windows (.read sec usec)).2 = 0 := by
  rw [(C171_windows_partial cs sec usec h).1]
  refine ⟨?_, rfl⟩
  simp only [asked, if_neg h0]
  by_cases hs : sec = 0
  · simp [hs]
  · rw [if_neg hs]
    intro e
    simp only [Waits.micros.injEq] at e
    omega

/-- C171 is false on Linux for negative seconds: the call succeeds and reads do not wait at all (macOS refuses). -/
theorem C171_negative_refuted (cs : List TimeoutCall) (sec : Int) (h : sec < 0) :
    (waitsAfter .linux cs).call .linux (.read sec 0) = ({ waitsAfter .linux cs with recv := .notAtAll }, 0) ∧
    (waitsAfter .apple cs).call .apple (.read sec 0) = (waitsAfter .apple cs, -1) := by
  simp [SockWaits.call, setTimeval, h]

example : waitsAfter .linux [.read 5 0, .write 0 500000, .read 1 2000000] = ⟨.micros 5000000, .micros 500000⟩ ∧
    waitsAfter .windows [.read 5 0, .write 0 500000] = ⟨.micros 5000, .ever⟩ := by decide

end Cppnet
