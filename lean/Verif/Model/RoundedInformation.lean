import Verif.Model.Solver
import Verif.Model.Constraint
import Verif.Base.Double

/-! # The information of a constraint and its weight, in double precision (src/constraint.cpp:52, src/ceres_solver.cpp:132)

Every operation is followed by the rounding `rd`. -/

namespace Ndt.Rounded

noncomputable section

variable (rd : ℝ → ℝ)

/-- Eigen `cofactor_3x3<i,j>` (Eigen/src/LU/InverseImpl.h): indices are taken modulo 3 (src/constraint.cpp:52). -/
def cofactor3 (m : Mat3) (i j : Fin 3) : Fl :=
  Fl.rounded rd (Fl.rounded rd (m (i + 1) (j + 1) * m (i + 2) (j + 2)) - Fl.rounded rd (m (i + 1) (j + 2) * m (i + 2) (j + 1)))

/-- The sum of three numbers: Eigen adds the first two if it has instructions for pairs of doubles (`packets`), the last two otherwise
(Eigen/src/Core/Redux.h; src/constraint.cpp:52). -/
def sum3 (packets : Bool) (a b c : Fl) : Fl :=
  if packets then Fl.rounded rd (Fl.rounded rd (a + b) + c) else Fl.rounded rd (a + Fl.rounded rd (b + c))

/-- Eigen `compute_inverse_size3_helper`: the determinant, expanded along column 0 (src/constraint.cpp:52). -/
def det3 (packets : Bool) (m : Mat3) : Fl :=
  let term := fun k => Fl.rounded rd (cofactor3 rd m k 0 * m k 0)
  sum3 rd packets (term 0) (term 1) (term 2)

/-- `Matrix3d::inverse()` (Eigen, fixed size 3): transposed cofactors times `1 / det` (src/constraint.cpp:52). -/
def inverse3 (packets : Bool) (m : Mat3) : Mat3 := fun i j =>
  Fl.rounded rd (cofactor3 rd m j i * Fl.rounded rd (.fin 1 / det3 rd packets m))

/-- `LLT<Matrix3d>` (Eigen/src/Cholesky/LLT.h `llt_inplace::unblocked`, used at src/ceres_solver.cpp:132), see `Ndt.llt3`. The square root is
rounded correctly. -/
def llt3 (m : Mat3) : Lower3 :=
  let s : Lower3 := ⟨m 0 0, m 1 0, m 1 1, m 2 0, m 2 1, m 2 2⟩
  if Fl.le s.a00 (.fin 0) then s
  else
    let x := Fl.rounded rd s.a00.sqrt
    let s := { s with a00 := x, a10 := Fl.rounded rd (s.a10 / x), a20 := Fl.rounded rd (s.a20 / x) }
    let p1 := Fl.rounded rd (s.a11 - Fl.rounded rd (s.a10 * s.a10))
    if Fl.le p1 (.fin 0) then s
    else
      let x := Fl.rounded rd p1.sqrt
      let s := { s with a11 := x, a21 := Fl.rounded rd (Fl.rounded rd (s.a21 - Fl.rounded rd (s.a20 * s.a10)) / x) }
      let p2 := Fl.rounded rd
        (s.a22 - Fl.rounded rd (Fl.rounded rd (s.a20 * s.a20) + Fl.rounded rd (s.a21 * s.a21)))
      if Fl.le p2 (.fin 0) then s
      else { s with a22 := Fl.rounded rd p2.sqrt }

/-- `llt().matrixL()` as a dense matrix: zeros above the diagonal (src/ceres_solver.cpp:132). -/
def matrixL (m : Mat3) : Mat3 :=
  let s := llt3 rd m
  ![![s.a00, .fin 0, .fin 0], ![s.a10, s.a11, .fin 0], ![s.a20, s.a21, s.a22]]

end

end Ndt.Rounded
