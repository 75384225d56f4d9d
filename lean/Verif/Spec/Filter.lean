import Verif.Spec.KdTree
import Verif.Model.Filter

/-! # Specification of the particle filter -/

namespace Ndt.Spec

noncomputable section

/-- `ws` are the numbers `v`. -/
def AreNumbers (ws : List Fl) (v : List ℝ) : Prop := ws = v.map Fl.fin

/-- The weights form a probability distribution. -/
def Distribution (ws : List Fl) : Prop :=
  ∃ v : List ℝ, AreNumbers ws v ∧ (∀ x ∈ v, 0 ≤ x) ∧ v.sum = 1

/-- Weighted sum of a function of the particles. -/
def wmean (v : List ℝ) (ps : List Pose2d) (f : Pose2d → ℝ) : ℝ := ((v.zip ps).map fun wp => wp.1 * f wp.2).sum

/-- Planar coordinate of a pose. -/
def coord (i : Fin 2) (p : Pose2d) : ℝ := (![p.x, p.y] : Fin 2 → ℝ) i

/-- Weighted covariance of two planar coordinates. -/
def wcov (v : List ℝ) (ps : List Pose2d) (i j : Fin 2) : ℝ :=
  wmean v ps fun p => (coord i p - wmean v ps (coord i)) * (coord j p - wmean v ps (coord j))

/-- Smallest rotation, without sign, between two headings. -/
def angularDistance (a b : ℝ) : ℝ := |normalizeAngle (b - a)|

/-- The number of particles the KLD bound of Fox (2001) asks for with `k` occupied bins. -/
def kldBound (err z : ℝ) (k : ℕ) : ℝ :=
  (k - 1) / (2 * err) * (1 - 2 / (9 * (k - 1)) + Real.sqrt (2 / (9 * (k - 1))) * z) ^ 3

/-- Numbers of particles allowed by the limits. -/
def WithinLimits (f : Filter) : Prop :=
  min f.minP f.maxP ≤ f.particles.length ∧ f.particles.length ≤ max f.minP f.maxP ∧
  f.weights.length = f.particles.length

end

end Ndt.Spec
