import Verif.Model.Scan
import Verif.Base.Fl

/-! # Constraints (include/ndt_2d/constraint.hpp, src/constraint.cpp) -/

namespace Ndt

noncomputable section

/-- An `Eigen::Matrix3d` whose entries may be NaN or infinite (include/ndt_2d/constraint.hpp:39-48). -/
abbrev Mat3 := Fin 3 → Fin 3 → Fl

/-- include/ndt_2d/constraint.hpp:39-48 `struct Constraint`. The three components of the Eigen vector `transform`
(dx, dy, dtheta) are the fields of a `Pose2d`. -/
@[ext] structure Constraint where
  begin_ : ℕ
  end_ : ℕ
  transform : Pose2d
  information : Mat3
  switchable : Bool

/-- Eigen `cofactor_3x3<i,j>` (Eigen/src/LU/InverseImpl.h): indices are taken modulo 3 (src/constraint.cpp:52). -/
def cofactor3 (m : Mat3) (i j : Fin 3) : Fl :=
  m (i + 1) (j + 1) * m (i + 2) (j + 2) - m (i + 1) (j + 2) * m (i + 2) (j + 1)

/-- Eigen `compute_inverse_size3_helper`: `1 / det`, the determinant being expanded along column 0
(src/constraint.cpp:52). -/
def invDet3 (m : Mat3) : Fl :=
  .fin 1 / (cofactor3 m 0 0 * m 0 0 + cofactor3 m 1 0 * m 1 0 + cofactor3 m 2 0 * m 2 0)

/-- `Matrix3d::inverse()` (Eigen, fixed size 3): transposed cofactors times `1 / det`; for a singular matrix the
entries are infinite or NaN (src/constraint.cpp:52). -/
def inverse3 (m : Mat3) : Mat3 := fun i j => cofactor3 m j i * invDet3 m

/-- src/constraint.cpp:35-56 `makeConstraint`. -/
def makeConstraint (src dst : Scan) (covariance : Mat3) : Constraint :=
  let dx := dst.getPose.x - src.getPose.x
  let dy := dst.getPose.y - src.getPose.y
  let costh := Real.cos src.getPose.theta
  let sinth := Real.sin src.getPose.theta
  ⟨src.getId, dst.getId,
    ⟨costh * dx + sinth * dy, -sinth * dx + costh * dy, dst.getPose.theta - src.getPose.theta⟩,
    inverse3 covariance, false⟩

end

end Ndt
