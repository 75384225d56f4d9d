import Verif.Model.RoundedPoints
import Verif.Model.Timing

/-! # The control of the filter and the end of a scan, in double precision

Every operation is followed by the rounding `rd`; `co` and `si` are the functions of the C library. -/

namespace Ndt.Rounded

noncomputable section

/-- src/ndt_mapper.cpp:457-468: the motion since the last scan, in the frame of the robot. The product with the inverse of a rotation about z
(Eigen, the transposed matrix); its terms with a factor zero are left out, as in `Model/RoundedTransform`. -/
def control (rd co si : ℝ → ℝ) (prevRobot pose : Pose2d) : Pose2d :=
  let dx := rd (pose.x - prevRobot.x)
  let dy := rd (pose.y - prevRobot.y)
  let c := co prevRobot.theta
  let s := si prevRobot.theta
  ⟨rd (rd (c * dx) + rd (s * dy)), rd (rd (-s * dx) + rd (c * dy)), shortestAngularDistance rd prevRobot.theta pose.theta⟩

/-- `rclcpp::Duration::from_seconds` (src/ndt_mapper.cpp:371), see `Timing.fromSeconds`: the product with 10^9 is one of `double`. -/
def fromSeconds (rd : ℝ → ℝ) (s : ℝ) : Res ℤ :=
  let v := rd (s * 10 ^ 9)
  if -2 ^ 63 - 1 < v ∧ v < 2 ^ 63 then .ok (if 0 ≤ v then ⌊v⌋ else ⌈v⌉) else .error .conversion

/-- src/ndt_mapper.cpp:370-372: the time of the end of the scan. The number of beams less one, which wraps around for an empty message, and the
increment, a `float`, are converted to `double`. -/
def endTime (rd : ℝ → ℝ) (times : LaserTimes) (n : ℕ) : Res ℤ := do
  let t ← Timing.time times.stamp
  let d ← fromSeconds rd (rd (rd (if n = 0 then 2 ^ 64 - 1 else (n : ℝ) - 1) * times.increment))
  Timing.add t d

end

end Ndt.Rounded
