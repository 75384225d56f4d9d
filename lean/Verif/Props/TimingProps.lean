import Verif.Spec.Timing
import Verif.Proof.Demo
import Mathlib.Tactic.Linarith
import Mathlib.Tactic.NormNum

/-! # C92: the end of a scan -/

namespace Ndt

noncomputable section

open Spec Mapper

/-- C92: for a message with a beam and times of real sensors, the pose of the end is looked up at the time of the last beam, to
the nanosecond. -/
theorem c92_end_is_last_beam_partial (times : LaserTimes) (n : ℕ) (hn : 0 < n) (hp : PlausibleTimes times n) :
    ∃ e, Timing.endTime times n = .ok e ∧ |(e : ℝ) - beamTime times (n - 1)| < 1 := by
  obtain ⟨h0, h1, h2, h3⟩ := hp
  have h3 := abs_le.mp h3
  have hn0 : n ≠ 0 := by omega
  have hcast : ((n - 1 : ℕ) : ℝ) = (n : ℝ) - 1 := by rw [Nat.cast_sub hn, Nat.cast_one]
  set v : ℝ := ((n : ℝ) - 1) * times.increment with hv
  set d : ℤ := if 0 ≤ v * 10 ^ 9 then ⌊v * 10 ^ 9⌋ else ⌈v * 10 ^ 9⌉ with hd
  have hds : Timing.fromSeconds ((if n = 0 then 2 ^ 64 - 1 else (n : ℝ) - 1) * times.increment) = .ok d := by
    rw [if_neg hn0]
    unfold Timing.fromSeconds
    simp only
    rw [if_pos (by constructor <;> nlinarith)]
  have hdv : |(d : ℝ) - v * 10 ^ 9| < 1 := by
    rw [hd]
    split
    · rw [abs_lt]
      constructor
      · linarith [Int.lt_floor_add_one (v * 10 ^ 9)]
      · linarith [Int.floor_le (v * 10 ^ 9)]
    · rw [abs_lt]
      constructor
      · linarith [Int.le_ceil (v * 10 ^ 9)]
      · linarith [Int.ceil_lt_add_one (v * 10 ^ 9)]
  have hdb := abs_lt.mp hdv
  have hdl : (d : ℝ) < 2 ^ 31 * 10 ^ 9 + 1 := by nlinarith
  have hdg : -(2 ^ 31 * 10 ^ 9 + 1) < (d : ℝ) := by nlinarith
  have hdl' : d < 2 ^ 31 * 10 ^ 9 + 1 := by exact_mod_cast hdl
  have hdg' : -(2 ^ 31 * 10 ^ 9 + 1) < d := by exact_mod_cast hdg
  refine ⟨Timing.nanoseconds times.stamp + d, ?_, ?_⟩
  · unfold Timing.endTime Timing.time
    rw [if_neg (by omega), hds]
    show Timing.add _ _ = _
    unfold Timing.add Timing.nanoseconds
    rw [if_pos (by constructor <;> push_cast <;> omega)]
  · unfold Timing.nanoseconds beamTime
    push_cast
    rw [hcast]
    convert hdv using 2
    rw [hv]
    ring

/-- C92 is refuted for an empty message: the index of the last beam wraps around, and with an increment of a nanosecond or more
the product of 2^64 - 1 and the increment does not fit. -/
theorem c92_empty_message_is_undefined (times : LaserTimes) (h0 : 0 ≤ times.stamp.sec) (hi : 1 / 10 ^ 9 ≤ times.increment) :
    Timing.endTime times 0 = .error .conversion := by
  unfold Timing.endTime Timing.time
  rw [if_neg (by omega)]
  show (Timing.fromSeconds _ >>= _ : Res ℤ) = _
  have : Timing.fromSeconds ((if 0 = 0 then 2 ^ 64 - 1 else ((0 : ℕ) : ℝ) - 1) * times.increment) = .error .conversion := by
    rw [if_pos rfl]
    unfold Timing.fromSeconds
    simp only
    rw [if_neg]
    rintro ⟨_, h⟩
    nlinarith
  rw [this]
  rfl

/-- C92 is refuted for a message stamped before 1970: an exception leaves the callback. -/
theorem c92_negative_stamp_throws (times : LaserTimes) (n : ℕ) (h0 : times.stamp.sec < 0) :
    Timing.endTime times n = .error .exception := by
  unfold Timing.endTime Timing.time
  rw [if_pos h0]
  rfl

/-- C92: every callback that returns is one of the model without times, with the poses looked up at the start and, if it gets so
far, at the end of the scan. -/
theorem c92_refines {p : Params} {msg : LaserMsg} {times : LaserTimes} {mount : Option (Pose2d × Bool)}
    {tf : ℤ → Option Pose2d} {s s' : Sys} (h : Timing.laserCallback p msg times mount tf s = .ok s') :
    ∃ odomEnd, Mapper.laserCallback p msg mount (tf (Timing.nanoseconds times.stamp)) odomEnd s = .ok s' ∧
      ∀ o, odomEnd = some o → ∃ e, Timing.endTime times msg.ranges.length = .ok e ∧ tf e = some o := by
  unfold Timing.laserCallback at h
  simp only at h
  split at h
  · cases he : Timing.endTime times msg.ranges.length with
    | error f => rw [he] at h; cases h
    | ok e =>
      rw [he] at h
      exact ⟨tf e, h, fun o ho => ⟨e, rfl, ho⟩⟩
  · exact ⟨none, h, fun o ho => by cases ho⟩

/-- C92: with a beam and times of real sensors the times add no faults. -/
theorem c92_times_add_no_faults {p : Params} {msg : LaserMsg} {times : LaserTimes} (mount : Option (Pose2d × Bool))
    (tf : ℤ → Option Pose2d) (s : Sys) (hn : msg.ranges ≠ []) (hp : PlausibleTimes times msg.ranges.length)
    (hd : ∀ o oe, ∃ s', Mapper.laserCallback p msg mount o oe s = .ok s') :
    ∃ s', Timing.laserCallback p msg times mount tf s = .ok s' := by
  obtain ⟨e, he, _⟩ := c92_end_is_last_beam_partial times _ (List.length_pos_iff.mpr hn) hp
  unfold Timing.laserCallback
  simp only
  split
  · rw [he]
    exact hd _ _
  · exact hd _ _

/-- C92: a callback that is not told the end is one that would not have used it: whether the end can be looked up matters only to
callbacks that get that far. -/
theorem c92_end_unused {p : Params} {msg : LaserMsg} {mount : Option (Pose2d × Bool)} {odom : Option Pose2d} {s : Sys}
    (h : ¬ Timing.reaches p msg mount odom s) (odomEnd : Option Pose2d) :
    Mapper.laserCallback p msg mount odom odomEnd s = .ok (laserSetup p msg mount s).1 := by
  unfold Timing.reaches at h
  unfold Mapper.laserCallback
  simp only at h ⊢
  by_cases h1 : (laserSetup p msg mount s).2 = true
  · by_cases h2 : (laserSetup p msg mount s).1.initialized = true
    · rw [h1, h2]
      simp only [Bool.not_true, Bool.false_eq_true, if_false]
      cases odom with
      | none => rfl
      | some o =>
        simp only
        rw [if_pos]
        by_contra hno
        exact h ⟨h1, h2, o, rfl, hno⟩
    · rw [h1]
      simp [h2]
  · simp [h1]

/-! ## Concrete cases -/

/-- A message of 720 beams of 35 microseconds each. -/
example : PlausibleTimes ⟨⟨1700000000, 5⟩, 0.000035⟩ 720 := by
  refine ⟨by norm_num, by norm_num, by norm_num, ?_⟩
  norm_num [abs_of_pos]

/-- An empty message with the same increment: the robot has moved a metre, and the callback runs into the conversion. -/
example : Timing.laserCallback (demoParams 10 25) ⟨0, 1, .fin 10, []⟩ ⟨⟨1700000000, 5⟩, 0.000035⟩ (some (Pose2d.zero, false))
    (fun _ => some ⟨1, 0, 0⟩) (demoStart (demoParams 10 25) true) = .error .conversion := by
  unfold Timing.laserCallback
  simp only
  rw [if_pos]
  · show (Timing.endTime _ 0 >>= _ : Res Sys) = _
    rw [c92_empty_message_is_undefined _ (by norm_num) (by norm_num)]
    rfl
  · refine ⟨rfl, rfl, _, rfl, ?_⟩
    rintro ⟨h, _⟩
    exact h rfl

end

end Ndt
