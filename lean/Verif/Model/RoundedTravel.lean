import Verif.Model.RoundedPose
import Verif.Model.Orientation

/-! # Travel between scans, and headings in messages, in double precision

Every operation is followed by the rounding `rd`; `co`, `si` and `at2` are the functions of the C library. -/

namespace Ndt.Rounded

noncomputable section

/-- src/ndt_mapper.cpp:347-350 `dist`, the square of a distance. -/
def sqDist (rd : ℝ → ℝ) (a b : Pose2d) : ℝ :=
  let dx := rd (b.x - a.x)
  let dy := rd (b.y - a.y)
  rd (rd (dx * dx) + rd (dy * dy))

/-- src/ndt_mapper.cpp:347-352: whether the robot has moved too little since the odometry pose `prev`. -/
def tooLittle (rd : ℝ → ℝ) (minDist minRot : ℝ) (prev odom : Pose2d) : Prop :=
  sqDist rd prev odom < rd (minDist * minDist) ∧ |shortestAngularDistance rd prev.theta odom.theta| < minRot

/-- `tf2::getYaw` (tf2/impl/utils.h; include/ndt_2d/conversions.hpp:44, 56 and src/ndt_mapper.cpp:220), see `Quat.getYaw`. -/
def getYaw (rd : ℝ → ℝ) (at2 : ℝ → ℝ → ℝ) (q : Quat) : ℝ :=
  let sarg := rd (rd (-2 * rd (rd (q.x * q.z) - rd (q.w * q.y))) /
    rd (rd (rd (rd (q.x * q.x) + rd (q.y * q.y)) + rd (q.z * q.z)) + rd (q.w * q.w)))
  if sarg ≤ rd (-0.99999) then rd (-2 * at2 q.y q.x)
  else if rd 0.99999 ≤ sarg then rd (2 * at2 q.y q.x)
  else at2 (rd (2 * rd (rd (q.x * q.y) + rd (q.w * q.z))))
    (rd (rd (rd (rd (q.w * q.w) + rd (q.x * q.x)) - rd (q.y * q.y)) - rd (q.z * q.z)))

/-- src/particle_filter.cpp:157-158: the orientation of a particle in a message. -/
def particleQuat (rd co si : ℝ → ℝ) (theta : ℝ) : Quat := ⟨0, 0, si (rd (theta / 2)), co (rd (theta / 2))⟩

end

end Ndt.Rounded
