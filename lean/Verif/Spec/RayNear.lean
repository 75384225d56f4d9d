import Verif.Spec.OccupancyGrid

/-! # How far cells are from a beam -/

namespace Ndt.Spec

noncomputable section

/-- How far the cell `c` is to the side of the line from cell `s` to cell `e`, times the length of that line. -/
def aside (s e c : GCell) : ℤ := (e.1 - s.1) * (c.2 - s.2) - (e.2 - s.2) * (c.1 - s.1)

/-- The point that divides the way from `p` to `q`. -/
def along (p q : Point) (l : ℝ) : Point := ⟨p.x + l * (q.x - p.x), p.y + l * (q.y - p.y)⟩

/-- The middle of a cell. -/
def middle (ox oy c : ℝ) (k : GCell) : Point := ⟨ox + (k.1 + 1 / 2) * c, oy + (k.2 + 1 / 2) * c⟩

/-- The beam from `p` to `q` has no point in the cell. -/
def Misses (ox oy c : ℝ) (p q : Point) (k : GCell) : Prop :=
  ∀ l : ℝ, 0 ≤ l → l ≤ 1 → square ox oy c (along p q l) ≠ k

end

end Ndt.Spec
