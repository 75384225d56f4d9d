import Verif.Model.FilterF

/-! # Specification of a particle filter whose particles are poses -/

namespace Ndt.Spec

noncomputable section

/-- A particle is a pose: three numbers. -/
def IsPose (p : PoseF) : Prop := p.x.isFinite ∧ p.y.isFinite ∧ p.theta.isFinite

/-- No variance of an initial pose is negative. -/
def NoNegativeVariance (ops : List FilterF.Op) : Prop :=
  ∀ o ∈ ops, match o with
    | .initMsg _ _ vx vy vth => 0 ≤ vx ∧ 0 ≤ vy ∧ 0 ≤ vth
    | _ => True

/-- What is done with a scan: move the particles, weigh them, draw from them. -/
def scanOps (nrm : MotionModel.Draws) (control : Pose2d) (mt : Matcher) (points : List Point) (err z : ℝ)
    (draw : ℕ → ℕ) : List FilterF.Op :=
  [.update nrm control.x control.y control.theta, .measure mt points, .resample err z draw]

end

end Ndt.Spec
