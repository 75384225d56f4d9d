import Verif.Model.Solver

/-!
# Dual numbers and the Jacobians handed to Ceres (include/ndt_2d/ceres_solver_pose.hpp:48-118)

`AutoDiffCostFunction` (ceres_solver_pose.hpp:114) calls `operator()` with `T = ceres::Jet<double, 6>`. The operations
are those of ceres/jet.h.
-/

namespace Ndt

noncomputable section

/-- `ceres::Jet<double, n>` (ceres/jet.h; used at ceres_solver_pose.hpp:114-117): a number and its derivatives by the
`n` parameters. -/
@[ext] structure Jet (n : ℕ) where
  a : ℝ
  v : Fin n → ℝ

namespace Jet

variable {n : ℕ}

/-- `Jet(a)`: a constant (ceres/jet.h; ceres_solver_pose.hpp:62, 64, 100-105). -/
def const (a : ℝ) : Jet n := ⟨a, 0⟩

/-- `Jet(a, k)`: the `k`-th parameter (ceres/internal/autodiff.h `Make1stOrderPerturbation`;
ceres_solver_pose.hpp:114). -/
def var (a : ℝ) (k : Fin n) : Jet n := ⟨a, Pi.single k 1⟩

/-- ceres/jet.h `operator+` (ceres_solver_pose.hpp:64, 100, 105). -/
instance : Add (Jet n) := ⟨fun f g => ⟨f.a + g.a, f.v + g.v⟩⟩

/-- ceres/jet.h binary `operator-` (ceres_solver_pose.hpp:63, 100, 101). -/
instance : Sub (Jet n) := ⟨fun f g => ⟨f.a - g.a, f.v - g.v⟩⟩

/-- ceres/jet.h unary `operator-` (ceres_solver_pose.hpp:54). -/
instance : Neg (Jet n) := ⟨fun f => ⟨-f.a, -f.v⟩⟩

/-- ceres/jet.h `operator*` (ceres_solver_pose.hpp:64, 100, 105). -/
instance : Mul (Jet n) := ⟨fun f g => ⟨f.a * g.a, f.a • g.v + g.a • f.v⟩⟩

/-- ceres/jet.h `operator/` (ceres_solver_pose.hpp:64). -/
instance : Div (Jet n) := ⟨fun f g => ⟨f.a * (1 / g.a), (1 / g.a) • (f.v - (f.a * (1 / g.a)) • g.v)⟩⟩

/-- ceres/jet.h `cos` (ceres_solver_pose.hpp:50). -/
def cos (f : Jet n) : Jet n := ⟨Real.cos f.a, (-Real.sin f.a) • f.v⟩

/-- ceres/jet.h `sin` (ceres_solver_pose.hpp:51). -/
def sin (f : Jet n) : Jet n := ⟨Real.sin f.a, Real.cos f.a • f.v⟩

/-- ceres/jet.h `floor`: the derivatives are zero (ceres_solver_pose.hpp:64). -/
def floor (f : Jet n) : Jet n := const ⌊f.a⌋

/-- include/ndt_2d/ceres_solver_pose.hpp:59-65 `NormalizeAngle<Jet>`. -/
def normalizeAngle (f : Jet n) : Jet n :=
  let twoPi : Jet n := const (2 * Real.pi)
  f - twoPi * floor ((f + const Real.pi) / twoPi)

/-- include/ndt_2d/ceres_solver_pose.hpp:94-101: the residual before it is weighted. -/
def poseError (t : Pose2d) (xa ya tha xb yb thb : Jet n) : Fin 3 → Jet n :=
  ![cos tha * (xb - xa) + sin tha * (yb - ya) - const t.x,
    -sin tha * (xb - xa) + cos tha * (yb - ya) - const t.y,
    normalizeAngle (thb - tha - const t.theta)]

/-- include/ndt_2d/ceres_solver_pose.hpp:86-108 `operator()` on dual numbers seeded with the six parameters (x, y and
heading of the first pose, then of the second), for a weight matrix of numbers. -/
def residual (w : Fin 3 → Fin 3 → ℝ) (t : Pose2d) (q : Fin 6 → ℝ) : Fin 3 → Jet 6 :=
  let e := poseError t (var (q 0) 0) (var (q 1) 1) (var (q 2) 2) (var (q 3) 3) (var (q 4) 4) (var (q 5) 5)
  fun i => const (w i 0) * e 0 + const (w i 1) * e 1 + const (w i 2) * e 2

end Jet

end

end Ndt
