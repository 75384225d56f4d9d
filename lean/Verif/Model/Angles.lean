import Verif.Base.Fl
import Mathlib.Analysis.SpecialFunctions.Complex.Arg

/-! # Angle arithmetic of the libraries /repo uses -/

namespace Ndt

noncomputable section

/-- `std::fmod`: the remainder with the sign of the dividend (used by `angles`, src/particle_filter.cpp:64). -/
def fmod (x y : ℝ) : ℝ := x - y * truncZ (x / y)

/-- `angles::normalize_angle` (ROS package `angles`, angles.h; used at src/particle_filter.cpp:64,
src/motion_model.cpp:81, src/ndt_mapper.cpp:363). -/
def normalizeAngle (a : ℝ) : ℝ :=
  let r := fmod (a + Real.pi) (2 * Real.pi)
  if r ≤ 0 then r + Real.pi else r - Real.pi

/-- `angles::shortest_angular_distance(from, to)` (angles.h; used at src/motion_model.cpp:51-57 and
src/particle_filter.cpp:215). -/
def shortestAngularDistance (a b : ℝ) : ℝ := normalizeAngle (b - a)

/-- `std::atan2` on reals (no signed zeros: the value on the negative x axis is +pi) (src/motion_model.cpp:50). -/
def atan2 (y x : ℝ) : ℝ := Complex.arg ⟨x, y⟩

/-- `std::hypot` (src/motion_model.cpp:49). -/
def hypot (x y : ℝ) : ℝ := Real.sqrt (x ^ 2 + y ^ 2)

/-- `angles::normalize_angle` of a value that may be NaN or infinite: `fmod` then gives NaN (src/particle_filter.cpp:64). -/
def normalizeAngleF : Fl → Fl
  | .fin a => .fin (normalizeAngle a)
  | _ => .nan

/-- `std::atan2` on values that may be NaN or infinite (IEEE-754 recommended results) (src/particle_filter.cpp:200). -/
def atan2F : Fl → Fl → Fl
  | .nan, _ => .nan
  | _, .nan => .nan
  | .fin y, .fin x => .fin (atan2 y x)
  | .fin _, .pinf => .fin 0
  | .fin y, .ninf => if 0 ≤ y then .fin Real.pi else .fin (-Real.pi)
  | .pinf, .fin _ => .fin (Real.pi / 2)
  | .ninf, .fin _ => .fin (-(Real.pi / 2))
  | .pinf, .pinf => .fin (Real.pi / 4)
  | .pinf, .ninf => .fin (3 * Real.pi / 4)
  | .ninf, .pinf => .fin (-(Real.pi / 4))
  | .ninf, .ninf => .fin (-(3 * Real.pi / 4))

/-- The z and w components of a quaternion; x and y are zero in every message /repo fills in
(src/particle_filter.cpp:149-161). -/
structure PlanarQuat where
  z : ℝ
  w : ℝ

/-- `tf2::getYaw` of a quaternion with zero x and y (tf2/impl/utils.h: for such a quaternion the pole branch is
taken only if x*z - w*y is ±0.49999, which is impossible, leaving `atan2(2wz, w² - z²)`)
(include/ndt_2d/conversions.hpp:44). -/
def getYaw (q : PlanarQuat) : ℝ := atan2 (2 * (q.w * q.z)) (q.w ^ 2 - q.z ^ 2)

end

end Ndt
