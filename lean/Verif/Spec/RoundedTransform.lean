import Mathlib.Data.Real.Basic

/-! # Rotations given by quaternions -/

namespace Ndt.Spec

noncomputable section

/-- Cosine of the rotation that the quaternion `(0, 0, z, w)` stands for, whatever its length. -/
def quatCos (z w : ℝ) : ℝ := (w ^ 2 - z ^ 2) / (w ^ 2 + z ^ 2)

/-- Sine of the rotation that the quaternion `(0, 0, z, w)` stands for, whatever its length. -/
def quatSin (z w : ℝ) : ℝ := 2 * w * z / (w ^ 2 + z ^ 2)

end

end Ndt.Spec
