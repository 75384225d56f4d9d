import Verif.Spec.RoundedCov

/-! # Specification of what matching says about the position of a scan -/

namespace Ndt.Spec

noncomputable section

/-- The matrix that `matchScan` would compute with exact numbers: the mean of the products of the coordinates of the offsets, weighted by `w`, plus
the product of the means. -/
def momentOf (L : List Pose2d) (w : Pose2d → ℝ) : Matrix (Fin 3) (Fin 3) ℝ := fun i j =>
  sumOver L (fun o => offsetCoord i o * offsetCoord j o * w o) / sumOver L w +
    sumOver L (fun o => offsetCoord i o * w o) / sumOver L w * (sumOver L (fun o => offsetCoord j o * w o) / sumOver L w)

/-- In every direction the mean square of the offsets, weighted by `w`, is at least `l`. -/
def SpreadAll (L : List Pose2d) (w : Pose2d → ℝ) (l : ℝ) : Prop :=
  ∀ a b c : ℝ, l * (a ^ 2 + b ^ 2 + c ^ 2) * sumOver L w ≤ sumOver L fun o => (a * o.x + b * o.y + c * o.theta) ^ 2 * w o

end

end Ndt.Spec
