import Verif.Spec.RoundedShares
import Verif.Spec.Geometry

/-! # Specification of the squares in which points are, in exact arithmetic -/

namespace Ndt.Spec

noncomputable section

open Rounded

/-- The number of the square in which a point is, in exact arithmetic; -1 outside the map. -/
def squareAt (g : NdtGrid) (p : Point) : ℤ :=
  let i := ⌊(p.x - g.originX) / g.cellSize⌋
  let j := ⌊(p.y - g.originY) / g.cellSize⌋
  if 0 ≤ i ∧ i < g.sizeX ∧ 0 ≤ j ∧ j < g.sizeY then j * g.sizeX + i else -1

/-- The point is at least `m` from every line between squares. -/
def ClearOfLines (g : NdtGrid) (m : ℝ) (p : Point) : Prop :=
  ∀ k : ℤ, m ≤ |p.x - (g.originX + k * g.cellSize)| ∧ m ≤ |p.y - (g.originY + k * g.cellSize)|

/-- The normal distribution of the points of the square in which `p` is, in exact arithmetic. -/
def normalOf (rd co si : ℝ → ℝ) (g : NdtGrid) (scans : List Scan) (p : Point) : ℝ :=
  let i := squareAt g p
  if 0 ≤ i ∧ 5 ≤ (pointsIn rd co si g scans i.toNat).length then normalAt (pointsIn rd co si g scans i.toNat) p else 0

/-- The mean of `normalOf` over `m` beams seen from the pose. -/
def normalSeen (rd co si : ℝ → ℝ) (g : NdtGrid) (scans : List Scan) (points : List Point) (m : ℕ) (pose : Pose2d) : ℝ :=
  ((List.range m).map fun i =>
    match beam rd points m i with
    | .ok p => normalOf rd co si g scans (move pose p)
    | .error _ => 0).sum / m

end

end Ndt.Spec
