import Verif.Spec.Cell
import Verif.Spec.RoundedMatcher

/-! # Specification of scores in double precision -/

namespace Ndt.Spec

noncomputable section

open Rounded

/-- For symmetric matrices with positive eigenvalues both numbers that the solver returns are eigenvalues, up to `τ` of the larger one. -/
def SolverWithin (τ : ℝ) (es : Mat2 ℝ → ℝ × ℝ) : Prop :=
  ∀ a b d, 0 < eigMin a b d →
    |max (es ⟨a, b, b, d⟩).1 (es ⟨a, b, b, d⟩).2 - eigMax a b d| ≤ τ * eigMax a b d ∧
    |min (es ⟨a, b, b, d⟩).1 (es ⟨a, b, b, d⟩).2 - eigMin a b d| ≤ τ * eigMax a b d

/-- The normal distribution of the points `ps` at `p`, in exact arithmetic: mean and covariance of a sample, the narrow direction limited. -/
def normalAt (ps : List Point) (p : Point) : ℝ :=
  gauss ⟨avg (·.x) ps, avg (·.y) ps⟩ (sampleCov (·.x) (·.x) ps) (sampleCov (·.x) (·.y) ps) (sampleCov (·.y) (·.y) ps) p

/-- That of the square in which `p` is; zero outside the map and in squares with less than five points. -/
def normalIn (rd co si : ℝ → ℝ) (g : NdtGrid) (scans : List Scan) (p : Point) : ℝ :=
  match getIndex rd g p.x p.y with
  | .ok i => if 0 ≤ i ∧ 5 ≤ (pointsIn rd co si g scans i.toNat).length then normalAt (pointsIn rd co si g scans i.toNat) p else 0
  | .error _ => 0

/-- In the squares with five points or more the points are within `B` of the origin of the coordinates and spread by a variance of at
least `s` in every direction, and `K` bounds the error that goes with this. -/
def SquaresWithin (rd co si : ℝ → ℝ) (g : NdtGrid) (scans : List Scan) (B s τ K : ℝ) : Prop :=
  ∀ i : ℕ, 5 ≤ (pointsIn rd co si g scans i).length →
    CoordsWithin B (pointsIn rd co si g scans i) ∧ SpreadAtLeast s (pointsIn rd co si g scans i) ∧
    g.cellSize * g.cellSize / s * (1.1e-12 * ((pointsIn rd co si g scans i).length * (B * B / s)) + 2000 * τ) ≤ K

/-- The sum of `normalIn` over the beams, turned and moved as they are for the offset `o`. -/
def normalSum (rd co si : ℝ → ℝ) (g : NdtGrid) (scans : List Scan) (points : List Point) (m : ℕ) (pose o : Pose2d) : ℝ :=
  match outerPoints rd co si points m pose o.theta with
  | .ok outer => (outer.map fun p => normalIn rd co si g scans ⟨rd (p.x + o.x), rd (p.y + o.y)⟩).sum
  | .error _ => 0

end

end Ndt.Spec
