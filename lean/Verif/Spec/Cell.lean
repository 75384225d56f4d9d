import Verif.Model.Cell
import Verif.Spec.Geometry

/-! # Batch statistics of a point cloud -/

namespace Ndt.Spec

noncomputable section

/-- Mean over the points of `f` (0 for no points is never used: statements assume a point). -/
def avg (f : Point → ℝ) (ps : List Point) : ℝ := (ps.map f).sum / ps.length

/-- Unbiased sample covariance of two functions of the points. -/
def sampleCov (f g : Point → ℝ) (ps : List Point) : ℝ :=
  (ps.map fun p => (f p - avg f ps) * (g p - avg g ps)).sum / (ps.length - 1)

/-- The points handed to a cell by a sequence of calls. -/
def pointsOf : List CellOp → List Point
  | [] => []
  | .addPoint p :: ops => p :: pointsOf ops
  | .compute :: ops => pointsOf ops

/-- Larger eigenvalue of the symmetric matrix `[[a, b], [b, d]]`. -/
def eigMax (a b d : ℝ) : ℝ := (a + d + Real.sqrt ((a - d) ^ 2 + 4 * b ^ 2)) / 2

/-- Smaller eigenvalue of the symmetric matrix `[[a, b], [b, d]]`. -/
def eigMin (a b d : ℝ) : ℝ := (a + d - Real.sqrt ((a - d) ^ 2 + 4 * b ^ 2)) / 2

/-- The determinant used for scoring: that of the covariance, with the smaller eigenvalue replaced by
`0.001` times the larger one when it is less than that. -/
def limitedDet (a b d : ℝ) : ℝ := max (eigMin a b d) (eigMax a b d / 1000) * eigMax a b d

/-- Unnormalised Gaussian with mean `mu` and covariance `[[a, b], [b, d]]`, smaller eigenvalue limited. -/
def gauss (mu : Point) (a b d : ℝ) (p : Point) : ℝ :=
  Real.exp (-(1 / 2) *
    (((p.x - mu.x) ^ 2 * d - 2 * (p.x - mu.x) * (p.y - mu.y) * b + (p.y - mu.y) ^ 2 * a) /
      limitedDet a b d))

/-- All points are one and the same. -/
def AllSame (ps : List Point) : Prop := ∃ q, ∀ p ∈ ps, p = q

/-- Coordinates within `B` of zero. -/
def CoordsWithin (B : ℝ) (ps : List Point) : Prop := ∀ p ∈ ps, |p.x| ≤ B ∧ |p.y| ≤ B

/-- The sample variance of the points along every direction `(v, w)` of length one is at least `L`. -/
def SpreadAtLeast (L : ℝ) (ps : List Point) : Prop :=
  ∀ v w, L * (v ^ 2 + w ^ 2) ≤ v ^ 2 * sampleCov (·.x) (·.x) ps +
    2 * (v * w) * sampleCov (·.x) (·.y) ps + w ^ 2 * sampleCov (·.y) (·.y) ps

end

end Ndt.Spec
