import Verif.Model.Geometry

/-! # Weighted particles -/

namespace Ndt.Spec

noncomputable section

/-- The sum of a quantity over weighted particles. -/
def total (f : ℝ × Pose2d → ℝ) (l : List (ℝ × Pose2d)) : ℝ := (l.map f).sum

/-- The mean of a coordinate. -/
def weightedMean (f : Pose2d → ℝ) (l : List (ℝ × Pose2d)) : ℝ := total (fun a => a.1 * f a.2) l / total (·.1) l

/-- The covariance of two coordinates. -/
def weightedCov (f g : Pose2d → ℝ) (l : List (ℝ × Pose2d)) : ℝ :=
  total (fun a => a.1 * ((f a.2 - weightedMean f l) * (g a.2 - weightedMean g l))) l / total (·.1) l

/-- Particles to which rounding is applied: weights are not negative and their sum is of moderate size or more, the
coordinate is at most `B`, which is at least a picometre. -/
structure ModerateCloud (f : Pose2d → ℝ) (B : ℝ) (l : List (ℝ × Pose2d)) : Prop where
  nonneg : ∀ a ∈ l, 0 ≤ a.1
  sum : 2⁻¹ ^ 100 ≤ total (·.1) l
  bound : ∀ a ∈ l, |f a.2| ≤ B
  size : 2⁻¹ ^ 40 ≤ B
  count : l.length ≤ 2 ^ 40

end

end Ndt.Spec
