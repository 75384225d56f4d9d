import Verif.Spec.RoundedPose
import Verif.Spec.RoundedHeading

/-! # What is said about the motion model in double precision -/

namespace Ndt.Spec

noncomputable section

/-- The result of the C library's `hypot` is off by one unit in the last place at most. -/
def AccurateHypot (hyp : ℝ → ℝ → ℝ) : Prop :=
  ∀ x y, |hyp x y - Real.sqrt (x ^ 2 + y ^ 2)| ≤ 2⁻¹ ^ 52 * Real.sqrt (x ^ 2 + y ^ 2) + 2⁻¹ ^ 1074

/-- The angle between a direction and the nearer of straight ahead and straight back. -/
def offAxis (r : ℝ) : ℝ := min (turnBetween r 0) (turnBetween r Real.pi)

end

end Ndt.Spec
