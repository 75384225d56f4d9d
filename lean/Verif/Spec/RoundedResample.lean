import Verif.Model.KdTree
import Verif.Spec.Double

/-! # What is said about resampling in double precision -/

namespace Ndt.Spec

noncomputable section

/-- The bin that is computed for a pose: every quotient is rounded before it is truncated. -/
def computedBin (rd : ℝ → ℝ) (size : Fin 3 → ℝ) (p : Pose2d) : Key :=
  ![truncZ (rd (p.x / size 0)), truncZ (rd (p.y / size 1)), truncZ (rd (p.theta / size 2))]

/-- All three coordinates of a pose are less than 2^29 bins from zero. -/
def NearOrigin (size : Fin 3 → ℝ) (p : Pose2d) : Prop :=
  |p.x / size 0| ≤ 2 ^ 29 ∧ |p.y / size 1| ≤ 2 ^ 29 ∧ |p.theta / size 2| ≤ 2 ^ 29

end

end Ndt.Spec
