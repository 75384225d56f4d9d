import Verif.Model.NdtGrid
import Verif.Spec.Geometry

/-! # Specification of positions too far from the map for the number of a square -/

namespace Ndt.Spec

noncomputable section

/-- The point is neither left of nor below the map, by at least `m`, and beyond the `2^32`nd column or row of squares, by at least `m`. -/
def Beyond (g : NdtGrid) (m : ℝ) (p : Point) : Prop :=
  g.originX + m ≤ p.x ∧ g.originY + m ≤ p.y ∧ (g.originX + 2 ^ 32 * g.cellSize + m ≤ p.x ∨ g.originY + 2 ^ 32 * g.cellSize + m ≤ p.y)

end

end Ndt.Spec
