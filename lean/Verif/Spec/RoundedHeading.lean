import Verif.Spec.RoundedFilter
import Verif.Spec.RoundedPose
import Verif.Model.Angles

/-! # Mean headings (C131) -/

namespace Ndt.Spec

noncomputable section

/-- The `atan2` of the C library: within half a turn, and accurate to two units in the last place of four, up to full turns (on the negative
x axis it is a half turn to either side). -/
structure AccurateAtan2 (at2 : ℝ → ℝ → ℝ) : Prop where
  range : ∀ y x, |at2 y x| ≤ Real.pi
  near : ∀ y x, x ≠ 0 ∨ y ≠ 0 → ∃ k : ℤ, |at2 y x - (atan2 y x + k * (2 * Real.pi))| ≤ 2⁻¹ ^ 50

/-- The angle, without sign, by which two directions differ. -/
def turnBetween (a b : ℝ) : ℝ := Real.arccos (Real.cos (a - b))

/-- `mu` is the direction and `R` the length of the weighted mean of the unit vectors in the directions of the particles. -/
def MeanDirection (l : List (ℝ × Pose2d)) (mu R : ℝ) : Prop :=
  weightedMean (fun p => Real.cos p.theta) l = R * Real.cos mu ∧ weightedMean (fun p => Real.sin p.theta) l = R * Real.sin mu

/-- Weighted particles with weights that are not negative and add up to a moderate number or more. -/
structure Weighted (l : List (ℝ × Pose2d)) : Prop where
  nonneg : ∀ a ∈ l, 0 ≤ a.1
  sum : 2⁻¹ ^ 100 ≤ total (·.1) l
  count : l.length ≤ 2 ^ 40

end

end Ndt.Spec
