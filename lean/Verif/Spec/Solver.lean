import Verif.Model.Solver
import Verif.Spec.Geometry
import Mathlib.LinearAlgebra.Matrix.PosDef
import Mathlib.Analysis.Calculus.FDeriv.Basic

/-! # Specification of constraints and pose-graph optimisation -/

namespace Ndt.Spec

noncomputable section

/-- A matrix of doubles that are all proper numbers. -/
def IsReal (m : Mat3) (a : Matrix (Fin 3) (Fin 3) ℝ) : Prop := ∀ i j, m i j = .fin (a i j)

/-- A vector of doubles that are all proper numbers. -/
def IsRealVec (v : Fin 3 → Fl) (a : Fin 3 → ℝ) : Prop := ∀ i, v i = .fin (a i)

/-- Squared length of a vector. -/
def normSq (v : Fin 3 → ℝ) : ℝ := v 0 ^ 2 + v 1 ^ 2 + v 2 ^ 2

/-- `eᵀ A e`. -/
def quad (a : Matrix (Fin 3) (Fin 3) ℝ) (e : Fin 3 → ℝ) : ℝ := ∑ i, ∑ j, e i * a i j * e j

/-- `b` is the unique representative in [-pi, pi) of the angle `a`. -/
def IsNormalised (a b : ℝ) : Prop := (-Real.pi ≤ b ∧ b < Real.pi) ∧ ∃ n : ℤ, b = a + n * (2 * Real.pi)

/-- The first of the two poses that six parameters stand for. -/
def firstOf (q : Fin 6 → ℝ) : Pose2d := ⟨q 0, q 1, q 2⟩

/-- The second of the two poses that six parameters stand for. -/
def secondOf (q : Fin 6 → ℝ) : Pose2d := ⟨q 3, q 4, q 5⟩

/-- The `n` numbers are the partial derivatives of `f`, which is differentiable at `q`. -/
def IsDerivative {n : ℕ} (f : (Fin n → ℝ) → ℝ) (c : Fin n → ℝ) (q : Fin n → ℝ) : Prop :=
  HasFDerivAt f (∑ k, c k • (ContinuousLinearMap.proj k : (Fin n → ℝ) →L[ℝ] ℝ)) q

/-- The rate at which both poses change when the two are moved as one rigid body, with velocity `(vx, vy)` at the
origin and turning rate `om`. -/
def rigidMotion (vx vy om : ℝ) (q : Fin 6 → ℝ) : Fin 6 → ℝ :=
  ![vx - om * q 1, vy + om * q 0, om, vx - om * q 4, vy + om * q 3, om]

/-- Two lists of scans are the same scans, up to their poses, the second having possibly more at the end. -/
def Grows (a b : List Scan) : Prop := ∃ n, (b.take n).map (·.id) = a.map (·.id)

end

end Ndt.Spec
