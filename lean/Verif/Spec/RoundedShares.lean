import Verif.Spec.RoundedGauss
import Verif.Model.RoundedWeigh

/-! # Specification of the weights of particles in double precision -/

namespace Ndt.Spec

noncomputable section

open Rounded

/-- The mean, over `m` beams seen from the pose, of the normal distributions of the squares they end in. -/
def normalMean (rd co si : ℝ → ℝ) (g : NdtGrid) (scans : List Scan) (points : List Point) (m : ℕ) (pose : Pose2d) : ℝ :=
  ((List.range m).map fun i =>
    match beam rd points m i with
    | .ok p => normalIn rd co si g scans (mapPoint rd co si pose p)
    | .error _ => 0).sum / m

/-- The share of one particle in the sum over all of them. -/
def shareOf (f : Pose2d → ℝ) (particles : List Pose2d) (a : Pose2d) : ℝ := f a / (particles.map f).sum

end

end Ndt.Spec
