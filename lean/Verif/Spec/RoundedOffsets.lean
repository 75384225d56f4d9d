import Verif.Spec.RoundedSquares
import Verif.Spec.Double

/-! # Specification of matching in double precision, with positions in exact arithmetic -/

namespace Ndt.Spec

noncomputable section

open Rounded

/-- The pose of a scan that is off by `o`: the shift is along the axes of the map. -/
def offBy (pose o : Pose2d) : Pose2d := ⟨pose.x + o.x, pose.y + o.y, pose.theta + o.theta⟩

/-- The search window is within `P` metres and four radians. -/
structure WindowWithin (P : ℝ) (mt : Matcher) : Prop where
  linearDouble : IsDouble mt.linearSize
  angularDouble : IsDouble mt.angularSize
  linearRes : 0 ≤ mt.linearRes
  angularRes : 0 ≤ mt.angularRes
  linear : mt.linearSize ≤ P
  angular : mt.angularSize ≤ 4

/-- The sum of `normalOf` over `m` beams seen from the pose. -/
def normalsSeen (rd co si : ℝ → ℝ) (g : NdtGrid) (scans : List Scan) (points : List Point) (m : ℕ) (pose : Pose2d) : ℝ :=
  ((List.range m).map fun i =>
    match beam rd points m i with
    | .ok p => normalOf rd co si g scans (move pose p)
    | .error _ => 0).sum

end

end Ndt.Spec
