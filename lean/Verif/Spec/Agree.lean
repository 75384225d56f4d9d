import Verif.Spec.Solver

/-! # Specification of maps that agree with their constraints -/

namespace Ndt.Spec

noncomputable section

/-- The same position, and headings that differ by full turns. -/
def SamePlace (a b : Pose2d) : Prop := b.x = a.x ∧ b.y = a.y ∧ ∃ n : ℤ, b.theta = a.theta + n * (2 * Real.pi)

/-- The motion `t` leads from pose `a` to pose `b`. -/
def Leads (t a b : Pose2d) : Prop := SamePlace (compose a t) b

/-- The constraint has an information matrix that says something about every direction. -/
def Sure (c : Constraint) : Prop := ∃ inf : Matrix (Fin 3) (Fin 3) ℝ, IsReal c.information inf ∧ inf.PosDef

/-- Scan by scan the same places. -/
def SamePlaces (a b : List Scan) : Prop :=
  b.length = a.length ∧ ∀ (i : ℕ) (x y : Scan), a[i]? = some x → b[i]? = some y → SamePlace x.pose y.pose

/-- Every constraint leads from the place of its first scan to that of its second. -/
def Agrees (cs : List Constraint) (scans : List Scan) : Prop :=
  ∀ c ∈ cs, ∃ a b : Scan, scans[c.begin_]? = some a ∧ scans[c.end_]? = some b ∧ Leads c.transform a.pose b.pose

/-- The sum of the squared residuals of a problem whose residuals are all numbers. -/
def CostIs (blocks : List ResidualBlock) (nodes : ℤ → Option Pose2d) (c : ℝ) : Prop :=
  ∃ rs : List (Fin 3 → ℝ), List.Forall₂ (fun blk r => ∃ a b, nodes blk.beginNode = some a ∧ nodes blk.endNode = some b ∧
    IsRealVec (residual blk.sqrtInformation blk.transform a b) r) blocks rs ∧ c = (rs.map normSq).sum

/-- What Ceres promises: a solution it calls usable costs no more than what it was given. -/
def NotWorse (ceres : Solver → Solver.Outcome) : Prop := ∀ (s : Solver) (c : ℝ), (ceres s).usable = true →
  CostIs s.blocks s.nodes c → ∃ c', c' ≤ c ∧ CostIs s.blocks (s.solved (ceres s)).nodes c'

end

end Ndt.Spec
