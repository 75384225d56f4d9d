import Verif.Base.Fl
import Verif.Model.Geometry
import Mathlib.Analysis.SpecialFunctions.Sqrt

/-! # NDT cell (include/ndt_2d/ndt_model.hpp:43-65, src/ndt_model.cpp:40-116) -/

namespace Ndt

noncomputable section

/-- `Eigen::Matrix2d` with entries in `α` (include/ndt_2d/ndt_model.hpp:60-64). -/
@[ext] structure Mat2 (α : Type) where
  m00 : α
  m01 : α
  m10 : α
  m11 : α

/-- `Eigen::Matrix2d::Zero()` (src/ndt_model.cpp:44-47). -/
def Mat2.zero : Mat2 ℝ := ⟨0, 0, 0, 0⟩

/-- include/ndt_2d/ndt_model.hpp:56-64, the data of a cell. `n` is a `double` in the code too; only
`information` can become NaN/inf from finite points, so only it has entries in `Fl`. `Eigen::Vector2d` is
`Point`. -/
@[ext] structure Cell where
  valid : Bool
  n : ℝ
  mean : Point
  covariance : Mat2 ℝ
  correlation : Mat2 ℝ
  information : Mat2 Fl

/-- src/ndt_model.cpp:40-48 constructor. -/
def Cell.new : Cell :=
  { valid := false, n := 0, mean := ⟨0, 0⟩, covariance := Mat2.zero, correlation := Mat2.zero,
    information := ⟨.fin 0, .fin 0, .fin 0, .fin 0⟩ }

instance : Inhabited Cell := ⟨Cell.new⟩

/-- src/ndt_model.cpp:50-63 `addPoint`. The double loop runs over (0,0), (0,1), (1,1): the lower triangle of
`correlation` is never written. -/
def Cell.addPoint (c : Cell) (p : Point) : Cell :=
  { c with
    mean := ⟨(c.mean.x * c.n + p.x) / (c.n + 1), (c.mean.y * c.n + p.y) / (c.n + 1)⟩
    correlation :=
      { c.correlation with
        m00 := (c.correlation.m00 * c.n + p.x * p.x) / (c.n + 1)
        m01 := (c.correlation.m01 * c.n + p.x * p.y) / (c.n + 1)
        m11 := (c.correlation.m11 * c.n + p.y * p.y) / (c.n + 1) }
    n := c.n + 1
    valid := false }

/-- src/ndt_model.cpp:84-85: `Eigen::EigenSolver<Matrix2d>(m).eigenvalues().real()`, as the two roots of the
characteristic polynomial of a matrix with real eigenvalues, here in increasing order.
Eigen's order is unspecified: see `Cell.computeWith`. -/
def eigenvalues (m : Mat2 ℝ) : ℝ × ℝ :=
  let tr := m.m00 + m.m11
  let det := m.m00 * m.m11 - m.m01 * m.m10
  ((tr - Real.sqrt (tr ^ 2 - 4 * det)) / 2, (tr + Real.sqrt (tr ^ 2 - 4 * det)) / 2)

/-- Eigen's 2x2 `inverse()`: adjugate times `1/det`; a zero determinant yields infinities and NaNs (src/ndt_model.cpp:99). -/
def inverse2 (m : Mat2 ℝ) : Mat2 Fl :=
  let invdet := Fl.fin 1 / Fl.fin (m.m00 * m.m11 - m.m10 * m.m01)
  { m00 := .fin m.m11 * invdet, m01 := .fin (-m.m01) * invdet,
    m10 := .fin (-m.m10) * invdet, m11 := .fin m.m00 * invdet }

/-- src/ndt_model.cpp:73-81: the covariance loop. -/
def Cell.covarianceOf (c : Cell) : Mat2 ℝ :=
  let scale := c.n / (c.n - 1)
  let c00 := (c.correlation.m00 - c.mean.x * c.mean.x) * scale
  let c01 := (c.correlation.m01 - c.mean.x * c.mean.y) * scale
  let c11 := (c.correlation.m11 - c.mean.y * c.mean.y) * scale
  ⟨c00, c01, c01, c11⟩

/-- src/ndt_model.cpp:83-100: eigenvalue limit and information, given the eigenvalues in Eigen's order. -/
def informationOf (ev : ℝ × ℝ) (cov : Mat2 ℝ) : Mat2 Fl :=
  let small := if ev.1 > ev.2 then ev.2 else ev.1
  let large := if ev.1 > ev.2 then ev.1 else ev.2
  if small < 0.001 * large then
    let determinant := (0.001 * large) * large
    { m00 := .fin cov.m11 / .fin determinant
      m01 := .fin (-cov.m10) / .fin determinant
      m10 := .fin (-cov.m01) / .fin determinant
      m11 := .fin cov.m00 / .fin determinant }
  else inverse2 cov

/-- src/ndt_model.cpp:65-103 `compute`, for an eigenvalue solver `es`. -/
def Cell.computeWith (es : Mat2 ℝ → ℝ × ℝ) (c : Cell) : Cell :=
  if c.valid ∨ c.n < 3 then c
  else
    let cov := c.covarianceOf
    { c with covariance := cov, information := informationOf (es cov) cov, valid := true }

/-- src/ndt_model.cpp:65-103 `compute`. -/
def Cell.compute (c : Cell) : Cell := c.computeWith eigenvalues

/-- src/ndt_model.cpp:105-116 `score`: `-0.5 * q.transpose() * information * q` evaluated left to right. -/
def Cell.score (c : Cell) (p : Point) : Fl :=
  if c.n < 5 then .fin 0
  else
    let q0 := p.x - c.mean.x
    let q1 := p.y - c.mean.y
    let r0 := Fl.fin (-0.5 * q0) * c.information.m00 + Fl.fin (-0.5 * q1) * c.information.m10
    let r1 := Fl.fin (-0.5 * q0) * c.information.m01 + Fl.fin (-0.5 * q1) * c.information.m11
    (r0 * .fin q0 + r1 * .fin q1).exp

/-- The mutating public calls of `Cell` (include/ndt_2d/ndt_model.hpp:43-65). -/
inductive CellOp where
  | addPoint (p : Point)
  | compute

/-- One call (include/ndt_2d/ndt_model.hpp:43-65). -/
def Cell.step (c : Cell) : CellOp → Cell
  | .addPoint p => c.addPoint p
  | .compute => c.compute

/-- A sequence of calls (include/ndt_2d/ndt_model.hpp:43-65). -/
def Cell.run (c : Cell) (ops : List CellOp) : Cell := ops.foldl Cell.step c

end

end Ndt
