import Verif.Model.Laser
import Verif.Model.Motion

/-! # What the code computes in single precision

Two places compute with `float`: the angle of a beam (src/ndt_mapper.cpp:415 and 438, both fields of the message are
`float`) and the normal draws of the filter (`std::normal_distribution<float>`, src/particle_filter.cpp:56-58 and
src/motion_model.cpp:69-71). `rf` is the rounding of each operation. -/

namespace Ndt

noncomputable section

namespace Laser

/-- src/ndt_mapper.cpp:415 and 438: `msg->angle_min + i * msg->angle_increment`. The number of the beam is converted to
`float`, product and sum are those of `float`; the conversion to `double` and the sign are exact. -/
def beamAngle (rf : ℝ → ℝ) (msg : LaserMsg) (i : ℕ) : ℝ :=
  rf (msg.angleMin + rf (rf i * msg.angleIncrement))

/-- src/ndt_mapper.cpp:438-449: `forwardPoint` with the angle in single precision, the rest in real numbers. -/
def forwardPointF (rf : ℝ → ℝ) (msg : LaserMsg) (lt t : Pose2d) (i : ℕ) (r : Fl) : FPoint :=
  let pm := perMeas t msg.ranges.length
  shift ⟨pm.x * i, pm.y * i, pm.theta * i⟩ (project lt (beamAngle rf msg i) r)

/-- src/ndt_mapper.cpp:415-427: `invertedPoint` with the angle in single precision, the rest in real numbers. -/
def invertedPointF (rf : ℝ → ℝ) (msg : LaserMsg) (lt t : Pose2d) (i : ℕ) (r : Fl) : FPoint :=
  let pm := perMeas t msg.ranges.length
  shift ⟨t.x - pm.x * i, t.y - pm.y * i, t.theta - pm.theta * i⟩ (project lt (-beamAngle rf msg i) r)

end Laser

namespace MotionModel

/-- `std::normal_distribution<float>` of libstdc++ (src/particle_filter.cpp:56-58, src/motion_model.cpp:69-71): mean and
deviation are converted to `float` by the constructor, the `k`-th standard normal number `z k` is multiplied by the
deviation and the mean is added, both in `float`. -/
def floatDraws (rf : ℝ → ℝ) (z : ℕ → ℝ) : Draws := fun k mean sigma => rf (rf (z k * rf sigma) + rf mean)

end MotionModel

end

end Ndt
