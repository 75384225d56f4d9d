import Verif.Model.RoundedPose
import Verif.Model.Constraint
import Verif.Model.RoundedCell

/-! # Residuals of constraints in double precision (include/ndt_2d/ceres_solver_pose.hpp)

Every operation is followed by the rounding `rd`. `co` and `si` are the functions of the C library. The values of dual numbers (`ceres::Jet`) are
computed in the same way. -/

namespace Ndt

noncomputable section

namespace Rounded

variable (rd : ℝ → ℝ)

/-- include/ndt_2d/ceres_solver_pose.hpp:59-65 `NormalizeAngle`: `floor` and twice pi are exact. -/
def ceresNormalizeAngle (a : ℝ) : ℝ := rd (a - rd (2 * piD * ⌊rd (rd (a + piD) / (2 * piD))⌋))

/-- include/ndt_2d/ceres_solver_pose.hpp:94-101: the residual of measurement `t` between the poses `a` and `b` before it is scaled. -/
def poseError (co si : ℝ → ℝ) (t a b : Pose2d) : Fin 3 → ℝ :=
  let dx := rd (b.x - a.x)
  let dy := rd (b.y - a.y)
  let c := co a.theta
  let s := si a.theta
  ![rd (rd (rd (c * dx) + rd (s * dy)) - t.x), rd (rd (rd (-s * dx) + rd (c * dy)) - t.y),
    ceresNormalizeAngle rd (rd (rd (b.theta - a.theta) - t.theta))]

/-- include/ndt_2d/ceres_solver_pose.hpp:103-105: the residual, scaled by the matrix `sqrt_information_`. -/
def residual (co si : ℝ → ℝ) (sqrtInformation : Mat3) (t a b : Pose2d) : Fin 3 → Fl := fun i =>
  let term := fun j => Fl.rounded rd (sqrtInformation i j * .fin (poseError rd co si t a b j))
  Fl.rounded rd (Fl.rounded rd (term 0 + term 1) + term 2)

end Rounded

end

end Ndt
