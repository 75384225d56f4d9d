import Verif.Model.Rounded

/-!
# Cell statistics and scores in double precision (src/ndt_model.cpp:40-116)

The cell of `Model/Cell.lean` once more, with every operation on doubles followed by a rounding `rd`, as in `Model/Rounded`.
Negation and multiplication by `-0.5` are exact in double precision (short of underflow), but are rounded all the same.
Eigen's solver is an arbitrary function. Overflow is modelled in `std::exp` only. `std::exp` is taken to be rounded correctly.
-/

namespace Ndt.Rounded

noncomputable section

variable (rd : ℝ → ℝ)

/-- src/ndt_model.cpp:52 and 57: `(m * n + p) / (n + 1)`. -/
def avgStep (n m p : ℝ) : ℝ := rd (rd (rd (m * n) + p) / rd (n + 1))

/-- src/ndt_model.cpp:50-63 `addPoint`. -/
def addPoint (c : Cell) (p : Point) : Cell :=
  { c with
    mean := ⟨avgStep rd c.n c.mean.x p.x, avgStep rd c.n c.mean.y p.y⟩
    correlation :=
      { c.correlation with
        m00 := avgStep rd c.n c.correlation.m00 (rd (p.x * p.x))
        m01 := avgStep rd c.n c.correlation.m01 (rd (p.x * p.y))
        m11 := avgStep rd c.n c.correlation.m11 (rd (p.y * p.y)) }
    n := rd (c.n + 1)
    valid := false }

/-- src/ndt_model.cpp:78: one entry of the covariance. -/
def covEntry (scale corr mi mj : ℝ) : ℝ := rd (rd (corr - rd (mi * mj)) * scale)

/-- src/ndt_model.cpp:73-81: the covariance loop. -/
def covarianceOf (c : Cell) : Mat2 ℝ :=
  let scale := rd (c.n / rd (c.n - 1))
  let c01 := covEntry rd scale c.correlation.m01 c.mean.x c.mean.y
  ⟨covEntry rd scale c.correlation.m00 c.mean.x c.mean.x, c01, c01,
    covEntry rd scale c.correlation.m11 c.mean.y c.mean.y⟩

/-- Eigen's 2x2 `inverse()`: adjugate times `1/det` (src/ndt_model.cpp:99). -/
def inverse2 (m : Mat2 ℝ) : Mat2 Fl :=
  let invdet := Fl.rounded rd (.fin 1 / .fin (rd (rd (m.m00 * m.m11) - rd (m.m10 * m.m01))))
  { m00 := Fl.rounded rd (.fin m.m11 * invdet), m01 := Fl.rounded rd (.fin (-m.m01) * invdet),
    m10 := Fl.rounded rd (.fin (-m.m10) * invdet), m11 := Fl.rounded rd (.fin m.m00 * invdet) }

/-- src/ndt_model.cpp:83-100: eigenvalue limit and information, given the eigenvalues in Eigen's order. -/
def informationOf (ev : ℝ × ℝ) (cov : Mat2 ℝ) : Mat2 Fl :=
  let small := if ev.1 > ev.2 then ev.2 else ev.1
  let large := if ev.1 > ev.2 then ev.1 else ev.2
  if small < rd (rd 0.001 * large) then
    let determinant := rd (rd (rd 0.001 * large) * large)
    { m00 := Fl.rounded rd (.fin cov.m11 / .fin determinant)
      m01 := Fl.rounded rd (.fin (-cov.m10) / .fin determinant)
      m10 := Fl.rounded rd (.fin (-cov.m01) / .fin determinant)
      m11 := Fl.rounded rd (.fin cov.m00 / .fin determinant) }
  else inverse2 rd cov

/-- src/ndt_model.cpp:65-103 `compute`, for an eigenvalue solver `es`. -/
def compute (es : Mat2 ℝ → ℝ × ℝ) (c : Cell) : Cell :=
  if c.valid ∨ c.n < 3 then c
  else
    let cov := covarianceOf rd c
    { c with covariance := cov, information := informationOf rd (es cov) cov, valid := true }

/-- src/ndt_model.cpp:113-114: `-0.5 * q.transpose() * information * q` evaluated left to right, with `q = point - mean`. -/
def exponent (c : Cell) (p : Point) : Fl :=
  let q0 := rd (p.x - c.mean.x)
  let q1 := rd (p.y - c.mean.y)
  let h0 := rd (-0.5 * q0)
  let h1 := rd (-0.5 * q1)
  let r0 := Fl.rounded rd
    (Fl.rounded rd (.fin h0 * c.information.m00) + Fl.rounded rd (.fin h1 * c.information.m10))
  let r1 := Fl.rounded rd
    (Fl.rounded rd (.fin h0 * c.information.m01) + Fl.rounded rd (.fin h1 * c.information.m11))
  Fl.rounded rd (Fl.rounded rd (r0 * .fin q0) + Fl.rounded rd (r1 * .fin q1))

/-- src/ndt_model.cpp:115 `std::exp`: infinite where the result is beyond the range of doubles, `2^1024`. -/
def expD : Fl → Fl
  | .nan => .nan
  | .pinf => .pinf
  | .ninf => .fin 0
  | .fin a => if 2 ^ 1024 ≤ rd (Real.exp a) then .pinf else .fin (rd (Real.exp a))

/-- src/ndt_model.cpp:105-116 `score`. -/
def score (c : Cell) (p : Point) : Fl :=
  if c.n < 5 then .fin 0 else expD rd (exponent rd c p)

/-- The cell that holds the points (src/ndt_model.cpp:132-161: points are added, then `compute` is called). -/
def cellOf (es : Mat2 ℝ → ℝ × ℝ) (ps : List Point) : Cell :=
  compute rd es (ps.foldl (addPoint rd) Cell.new)

end

end Ndt.Rounded
