import Verif.Model.Geometry
import Verif.Model.Angles

/-!
# Poses in messages (include/ndt_2d/conversions.hpp) and the mounting of the laser (src/ndt_mapper.cpp:273-296)

`Model/Mapper` takes planar poses and a mounting from outside. Here they are computed from the quaternions of the messages.
-/

namespace Ndt

noncomputable section

/-- geometry_msgs Quaternion (include/ndt_2d/conversions.hpp:40-62). -/
@[ext] structure Quat where
  x : ℝ
  y : ℝ
  z : ℝ
  w : ℝ

/-- geometry_msgs Transform, or Pose (include/ndt_2d/conversions.hpp:40-62). -/
structure Transform3 where
  x : ℝ
  y : ℝ
  z : ℝ
  rotation : Quat

/-- `tf2::getYaw` (tf2/impl/utils.h; include/ndt_2d/conversions.hpp:44, 56). The quaternion zero divides zero by zero; the
NaN fails both comparisons, as 0 does here. -/
def Quat.getYaw (q : Quat) : ℝ :=
  let sarg := -2 * (q.x * q.z - q.w * q.y) / (q.x * q.x + q.y * q.y + q.z * q.z + q.w * q.w)
  if sarg ≤ -0.99999 then -2 * atan2 q.y q.x
  else if 0.99999 ≤ sarg then 2 * atan2 q.y q.x
  else atan2 (2 * (q.x * q.y + q.w * q.z)) (q.w * q.w + q.x * q.x - q.y * q.y - q.z * q.z)

/-- include/ndt_2d/conversions.hpp:40-62 `fromMsg`. -/
def Transform3.fromMsg (t : Transform3) : Pose2d := ⟨t.x, t.y, t.rotation.getYaw⟩

/-- src/ndt_mapper.cpp:276-283: pose of the laser, and whether it is treated as inverted. -/
def Transform3.mount (t : Transform3) : Pose2d × Bool :=
  (t.fromMsg, decide (0.02 < |t.rotation.x| ∨ 0.02 < |t.rotation.y|))

end

end Ndt
