import Verif.Model.NdtGrid
import Verif.Spec.Cell

/-! # Specification of the NDT grid: squares of a plane tiling -/

namespace Ndt.Spec

noncomputable section

/-- The square, counted from the origin, a point lies in. -/
def square (ox oy c : ℝ) (p : Point) : ℤ × ℤ := (⌊(p.x - ox) / c⌋, ⌊(p.y - oy) / c⌋)

/-- The point lies in the half-open rectangle of `nx` by `ny` squares of side `c`. -/
def InExtents (ox oy c : ℝ) (nx ny : ℕ) (p : Point) : Prop :=
  ox ≤ p.x ∧ p.x < ox + nx * c ∧ oy ≤ p.y ∧ p.y < oy + ny * c

/-- Number of squares of side `c` that cover a closed interval of length `s`. -/
def cols (s c : ℝ) : ℕ := ⌊s / c⌋.toNat + 1

/-- The point is less than 2^32 cells away from the origin in the positive directions. -/
def Near (ox oy c : ℝ) (p : Point) : Prop := p.x - ox < 2 ^ 32 * c ∧ p.y - oy < 2 ^ 32 * c

/-- The calls that reach the cell `k` of the grid when `ops` are made on the grid. -/
def cellOps (ox oy c : ℝ) (k : ℤ × ℤ) : List NdtOp → List CellOp
  | [] => []
  | .compute :: ops => .compute :: cellOps ox oy c k ops
  | .addScan s :: ops =>
      ((s.points.map (move s.pose)).filter (fun p => square ox oy c p = k)).map .addPoint ++
        cellOps ox oy c k ops

/-- The map-frame points that fall into the square `k`. -/
def inSquare (ox oy c : ℝ) (k : ℤ × ℤ) (ps : List Point) : List Point :=
  ps.filter (fun p => square ox oy c p = k)

/-- All points, in the map frame, of the scans added. -/
def mapPoints : List NdtOp → List Point
  | [] => []
  | .compute :: ops => mapPoints ops
  | .addScan s :: ops => s.points.map (move s.pose) ++ mapPoints ops

end

end Ndt.Spec
