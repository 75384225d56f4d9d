import Verif.Model.Geometry
import Verif.Model.Rounded
import Verif.Model.Solver

/-! # The published transform in double precision (src/ndt_mapper.cpp:722-740, include/ndt_2d/conversions.hpp:64-68)

Every operation is followed by the rounding `rd`; `co` and `si` are the functions of the C library. The functions of Eigen and of tf2_eigen are
written as they are there, without fused operations, on the planar part of the matrices and the last entry of their diagonal. The other entries
are sums of products with a factor zero; adding zero to a `double` does not change it, so these terms are left out of the sums. -/

namespace Ndt.Rounded

noncomputable section

variable (rd co si : ℝ → ℝ)

/-- The matrix of an isometry that turns about z: the planar part and the entry `r22`, which is one up to rounding
(include/ndt_2d/conversions.hpp:64-68). -/
structure Mat where
  planar : Iso
  r22 : ℝ

/-- include/ndt_2d/conversions.hpp:64-68 `toEigen`, with `AngleAxis::toRotationMatrix`, which computes the last entry of the diagonal as
`(1 - cos) * 1 * 1 + cos`. -/
def toMat (p : Pose2d) : Mat :=
  { planar := { r00 := co p.theta, r01 := -si p.theta, r10 := si p.theta, r11 := co p.theta, tx := p.x, ty := p.y }
    r22 := rd (rd (1 - co p.theta) + co p.theta) }

/-- `Isometry::inverse()` (src/ndt_mapper.cpp:732): the transposed matrix, and its negative times the translation. -/
def Mat.inv (a : Mat) : Mat :=
  { planar :=
      { r00 := a.planar.r00, r01 := a.planar.r10, r10 := a.planar.r01, r11 := a.planar.r11
        tx := rd (rd (-a.planar.r00 * a.planar.tx) + rd (-a.planar.r10 * a.planar.ty))
        ty := rd (rd (-a.planar.r01 * a.planar.tx) + rd (-a.planar.r11 * a.planar.ty)) }
    r22 := a.r22 }

/-- `Isometry * Isometry` (src/ndt_mapper.cpp:732). -/
def Mat.times (a b : Mat) : Mat :=
  { planar :=
      { r00 := rd (rd (a.planar.r00 * b.planar.r00) + rd (a.planar.r01 * b.planar.r10))
        r01 := rd (rd (a.planar.r00 * b.planar.r01) + rd (a.planar.r01 * b.planar.r11))
        r10 := rd (rd (a.planar.r10 * b.planar.r00) + rd (a.planar.r11 * b.planar.r10))
        r11 := rd (rd (a.planar.r10 * b.planar.r01) + rd (a.planar.r11 * b.planar.r11))
        tx := rd (rd (rd (a.planar.r00 * b.planar.tx) + rd (a.planar.r01 * b.planar.ty)) + a.planar.tx)
        ty := rd (rd (rd (a.planar.r10 * b.planar.tx) + rd (a.planar.r11 * b.planar.ty)) + a.planar.ty) }
    r22 := rd (a.r22 * b.r22) }

/-- `0.5 * t` and `d * (0.5 / t)` for `t = sqrt(v)` (Eigen `Quaternion = Matrix3`, src/ndt_mapper.cpp:735). -/
def halves (v d : ℝ) : Fl × Fl :=
  let t := Fl.rounded rd (Fl.sqrt (.fin v))
  (Fl.rounded rd (.fin (1 / 2) * t), Fl.rounded rd (.fin d * Fl.rounded rd (.fin (1 / 2) / t)))

/-- The components `z` and `w` of the quaternion of a matrix (Eigen `Quaternion = Matrix3`, called by `tf2::eigenToTransform`,
src/ndt_mapper.cpp:735); `x` and `y` are zero. Of the three cases for a trace that is not positive, the one for the largest entry `r22` is
here; `none` stands for the two others. -/
def Mat.quat (a : Mat) : Option (Fl × Fl) :=
  let trace := rd (a.planar.r00 + rd (a.planar.r11 + a.r22))
  let d := rd (a.planar.r10 - a.planar.r01)
  if trace > 0 then
    let (w, z) := halves rd (rd (trace + 1)) d
    some (z, w)
  else if a.r22 > (if a.planar.r11 > a.planar.r00 then a.planar.r11 else a.planar.r00) then
    let (z, w) := halves rd (rd (rd (rd (a.r22 - a.planar.r00) - a.planar.r11) + 1)) d
    some (z, w)
  else none

/-- src/ndt_mapper.cpp:722-732 `map_to_odom`. -/
def mapToOdom (robot odom : Pose2d) : Mat := (toMat rd co si robot).times rd ((toMat rd co si odom).inv rd)

end

end Ndt.Rounded
