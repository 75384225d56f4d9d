import Mathlib.Analysis.SpecialFunctions.Trigonometric.Basic

/-! # Points, poses and planar isometries -/

namespace Ndt

noncomputable section

/-- include/ndt_2d/point.hpp:35-51 `struct Point`. -/
@[ext] structure Point where
  x : ℝ
  y : ℝ

/-- include/ndt_2d/pose_2d.hpp:35-55 `struct Pose2d`. -/
@[ext] structure Pose2d where
  x : ℝ
  y : ℝ
  theta : ℝ

/-- include/ndt_2d/point.hpp:37-41: the default point is the origin. -/
def Point.zero : Point := ⟨0, 0⟩

/-- include/ndt_2d/pose_2d.hpp:37-42: the default pose is zero. -/
def Pose2d.zero : Pose2d := ⟨0, 0, 0⟩

instance : Inhabited Point := ⟨Point.zero⟩
instance : Inhabited Pose2d := ⟨Pose2d.zero⟩

/-- The planar part of an `Eigen::Isometry3d` that rotates about z: the first two rows of the rotation
matrix `[[r00, r01], [r10, r11]]` and the translation. The z row (identity, zero offset) is left out: every
use in /repo has z translation 0 and ignores the z result (include/ndt_2d/conversions.hpp:64-68). -/
@[ext] structure Iso where
  r00 : ℝ
  r01 : ℝ
  r10 : ℝ
  r11 : ℝ
  tx : ℝ
  ty : ℝ

/-- include/ndt_2d/conversions.hpp:64-68 `toEigen`: translation times rotation by theta about z. -/
def toEigen (p : Pose2d) : Iso :=
  { r00 := Real.cos p.theta, r01 := -Real.sin p.theta,
    r10 := Real.sin p.theta, r11 := Real.cos p.theta, tx := p.x, ty := p.y }

/-- `Isometry * vector` on the planar part (Eigen) (src/scan_matcher_ndt.cpp:156-178). -/
def Iso.apply (t : Iso) (p : Point) : Point :=
  ⟨t.r00 * p.x + t.r01 * p.y + t.tx, t.r10 * p.x + t.r11 * p.y + t.ty⟩

/-- `Isometry * Isometry` on the planar part (Eigen) (src/ndt_mapper.cpp:722-732). -/
def Iso.mul (a b : Iso) : Iso :=
  { r00 := a.r00 * b.r00 + a.r01 * b.r10, r01 := a.r00 * b.r01 + a.r01 * b.r11,
    r10 := a.r10 * b.r00 + a.r11 * b.r10, r11 := a.r10 * b.r01 + a.r11 * b.r11,
    tx := a.r00 * b.tx + a.r01 * b.ty + a.tx, ty := a.r10 * b.tx + a.r11 * b.ty + a.ty }

/-- `Isometry::inverse()` on the planar part: transposed rotation, `-Rᵀ t` (Eigen, Isometry mode)
(src/ndt_mapper.cpp:722-732). -/
def Iso.inverse (a : Iso) : Iso :=
  { r00 := a.r00, r01 := a.r10, r10 := a.r01, r11 := a.r11,
    tx := -(a.r00 * a.tx + a.r10 * a.ty), ty := -(a.r01 * a.tx + a.r11 * a.ty) }

end

end Ndt
