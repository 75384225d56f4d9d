import Verif.Model.Timing

/-! # Specification of the times of beams -/

namespace Ndt.Spec

noncomputable section

/-- When beam `i` was measured, in nanoseconds. -/
def beamTime (times : LaserTimes) (i : ℕ) : ℝ := times.stamp.sec * 10 ^ 9 + times.stamp.nanosec + i * times.increment * 10 ^ 9

/-- Times of real sensors: not before 1970, seconds of 31 bits, and a scan of at most 2^31 seconds. -/
def PlausibleTimes (times : LaserTimes) (n : ℕ) : Prop :=
  0 ≤ times.stamp.sec ∧ times.stamp.sec < 2 ^ 31 ∧ times.stamp.nanosec < 10 ^ 9 ∧ |((n : ℝ) - 1) * times.increment| ≤ 2 ^ 31

end

end Ndt.Spec
