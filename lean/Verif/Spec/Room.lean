import Verif.Spec.NdtGrid

/-! # Specification of maps of straight walls, one wall a square -/

namespace Ndt.Spec

noncomputable section

/-- The straight line `a x + b y = h`. -/
structure Line where
  a : ℝ
  b : ℝ
  h : ℝ

/-- The point is on the line. -/
def Line.has (l : Line) (p : Point) : Prop := l.a * p.x + l.b * p.y = l.h

/-- In every square `k` the points of the map are on the line `wall k`. -/
structure WallsOf (ox oy c : ℝ) (ps : List Point) (wall : ℤ × ℤ → Line) : Prop where
  line : ∀ k, (wall k).a ≠ 0 ∨ (wall k).b ≠ 0
  on : ∀ p ∈ ps, (wall (square ox oy c p)).has p

end

end Ndt.Spec
