import Verif.Model.Constraint
import Mathlib.Analysis.SpecialFunctions.Trigonometric.Basic
import Mathlib.Analysis.SpecialFunctions.Sqrt

/-! # Pose-graph solver (include/ndt_2d/ceres_solver_pose.hpp, ceres_solver.hpp, src/ceres_solver.cpp) -/

namespace Ndt

noncomputable section

/-- include/ndt_2d/ceres_solver_pose.hpp:59-65 `NormalizeAngle`. -/
def ceresNormalizeAngle (a : ℝ) : ℝ :=
  a - 2 * Real.pi * ⌊(a + Real.pi) / (2 * Real.pi)⌋

/-- include/ndt_2d/ceres_solver_pose.hpp:94-101: the unweighted residual of measurement `t` between poses `a`, `b`
(`RotationMatrix2D(yaw_a)ᵀ (p_b - p_a) - p_ab` and the normalised heading difference). -/
def poseError (t a b : Pose2d) : Fin 3 → ℝ :=
  ![Real.cos a.theta * (b.x - a.x) + Real.sin a.theta * (b.y - a.y) - t.x,
    -Real.sin a.theta * (b.x - a.x) + Real.cos a.theta * (b.y - a.y) - t.y,
    ceresNormalizeAngle (b.theta - a.theta - t.theta)]

/-- include/ndt_2d/ceres_solver_pose.hpp:87-108 `operator()` on doubles: the residual scaled by the matrix
`sqrt_information_`. (On dual numbers: `Jet.residual`.) -/
def residual (sqrtInformation : Mat3) (t a b : Pose2d) : Fin 3 → Fl := fun i =>
  sqrtInformation i 0 * .fin (poseError t a b 0) + sqrtInformation i 1 * .fin (poseError t a b 1) +
    sqrtInformation i 2 * .fin (poseError t a b 2)

/-- IEEE `<=` (used by `llt`, src/ceres_solver.cpp:132). -/
def Fl.le (a b : Fl) : Prop := a < b ∨ (a = b ∧ ¬ a.isNan)

instance (a b : Fl) : Decidable (Fl.le a b) := Classical.propDecidable _

/-- `std::sqrt` (used by `llt`, src/ceres_solver.cpp:132). -/
def Fl.sqrt : Fl → Fl
  | .nan => .nan
  | .pinf => .pinf
  | .ninf => .nan
  | .fin a => if a < 0 then .nan else .fin (Real.sqrt a)

/-- The lower triangle that Eigen's unblocked LLT works on in place, entries `a10` etc. by row and column
(src/ceres_solver.cpp:132). -/
structure Lower3 where
  a00 : Fl
  a10 : Fl
  a11 : Fl
  a20 : Fl
  a21 : Fl
  a22 : Fl

/-- `LLT<Matrix3d>` (Eigen/src/Cholesky/LLT.h `llt_inplace::unblocked`, used at src/ceres_solver.cpp:132): reads the
lower triangle only and stops at the first pivot that is not positive, leaving the rest as it is. The code does
not ask whether the factorisation succeeded. -/
def llt3 (m : Mat3) : Lower3 :=
  let s : Lower3 := ⟨m 0 0, m 1 0, m 1 1, m 2 0, m 2 1, m 2 2⟩
  if Fl.le s.a00 (.fin 0) then s
  else
    let x := s.a00.sqrt
    let s := { s with a00 := x, a10 := s.a10 / x, a20 := s.a20 / x }
    let p1 := s.a11 - s.a10 * s.a10
    if Fl.le p1 (.fin 0) then s
    else
      let x := p1.sqrt
      let s := { s with a11 := x, a21 := (s.a21 - s.a20 * s.a10) / x }
      let p2 := s.a22 - (s.a20 * s.a20 + s.a21 * s.a21)
      if Fl.le p2 (.fin 0) then s
      else { s with a22 := p2.sqrt }

/-- `llt().matrixL()` as a dense matrix: zeros above the diagonal (src/ceres_solver.cpp:132). -/
def matrixL (m : Mat3) : Mat3 :=
  let s := llt3 m
  ![![s.a00, .fin 0, .fin 0], ![s.a10, s.a11, .fin 0], ![s.a20, s.a21, s.a22]]

/-- A residual block of the `ceres::Problem`: measurement, weight and the nodes of its six parameter blocks
(src/ceres_solver.cpp:159-166). -/
structure ResidualBlock where
  transform : Pose2d
  sqrtInformation : Mat3
  beginNode : ℤ
  endNode : ℤ

/-- include/ndt_2d/ceres_solver.hpp:57-72 the state of `CeresSolver`. `nodes` is the unordered map from `int` keys to
node poses (an Eigen vector x, y, theta); `blocks` and `constants` are what the `ceres::Problem` holds: residual
blocks in order of addition and the nodes whose parameter blocks are constant. Options and `verbose_` are left out:
they change no result here. -/
structure Solver where
  nodes : ℤ → Option Pose2d
  blocks : List ResidualBlock
  constants : List ℤ
  numConstraints : ℕ

namespace Solver

/-- src/ceres_solver.cpp:35-43 constructor. -/
def new : Solver := ⟨fun _ => none, [], [], 0⟩

/-- The map key of a scan: `size_t` id converted to the `int` key (ceres_solver.cpp:61,76,89,111,129,130). -/
def key (s : Scan) : ℤ := wrapI32 s.getId

/-- src/ceres_solver.cpp:59-78: insert or refresh the node of every scan. -/
def setNodes (nodes : ℤ → Option Pose2d) (scans : List Scan) : ℤ → Option Pose2d :=
  scans.foldl (fun n s => fun k => if k = key s then some s.getPose else n k) nodes

/-- src/ceres_solver.cpp:122-167 `addConstraint`: indexes `scans` with the constraint's ends (undefined if out of
range) and appends a residual block. `AddResidualBlock` aborts if a parameter block appears twice (begin and end are
the same node). Verbose printing left out. -/
def addConstraint (s : Solver) (scans : List Scan) (c : Constraint) : Res Solver :=
  match scans[c.begin_]?, scans[c.end_]? with
  | some b, some e =>
      if key b = key e then .error .abort
      else .ok { s with blocks := s.blocks ++ [⟨c.transform, matrixL c.information, key b, key e⟩] }
  | _, _ => .error .outOfBounds

/-- The nodes some residual block uses: only those are parameter blocks of the problem (src/ceres_solver.cpp:80-92). -/
def inProblem (s : Solver) (k : ℤ) : Prop := ∃ b ∈ s.blocks, b.beginNode = k ∨ b.endNode = k

instance (s : Solver) (k : ℤ) : Decidable (s.inProblem k) := Classical.propDecidable _

/-- src/ceres_solver.cpp:58-92 everything before the call of the solver. `SetParameterBlockConstant` aborts for a
block that is not part of the problem. -/
def prepare (s : Solver) (constraints : List Constraint) (scans : List Scan) (first : Scan) : Res Solver := do
  let s := { s with nodes := setNodes s.nodes scans }
  let s ← (constraints.drop s.numConstraints).foldlM (fun s c => addConstraint s scans c) s
  let s := { s with numConstraints := constraints.length }
  if s.inProblem (key first) then .ok { s with constants := key first :: s.constants } else .error .abort

/-- What `ceres::Solve` does to a problem: whether `IsSolutionUsable` and the values it proposes for the nodes
(src/ceres_solver.cpp:96-98). -/
structure Outcome where
  usable : Bool
  value : ℤ → Pose2d

/-- src/ceres_solver.cpp:96 `ceres::Solve`: any outcome, except that blocks that are constant or not part of the
problem are left alone (documented behaviour of Ceres). Solver numerics are not modelled. -/
def solved (s : Solver) (o : Outcome) : Solver :=
  { s with nodes := fun k =>
      (s.nodes k).map fun p => if k ∈ s.constants ∨ ¬ s.inProblem k then p else o.value k }

/-- src/ceres_solver.cpp:108-118: copy the node values back into the scans. -/
def writeBack (s : Solver) (scans : List Scan) : List Scan :=
  scans.map fun sc => match s.nodes (key sc) with
    | some p => sc.setPose p
    | none => sc

/-- src/ceres_solver.cpp:50-120 `optimize`: result, new solver state, new scans. `ceres` stands for the library's
optimiser applied to the prepared problem. -/
def optimize (ceres : Solver → Outcome) (s : Solver) (constraints : List Constraint) (scans : List Scan) :
    Res (Bool × Solver × List Scan) :=
  match scans with
  | [] => .ok (false, s, [])
  | first :: _ => do
      let s ← s.prepare constraints scans first
      let o := ceres s
      let s := s.solved o
      if o.usable then .ok (true, s, s.writeBack scans) else .ok (false, s, scans)

end Solver

end

end Ndt
