import Verif.Spec.Geometry

/-! # What a residual measures (C132) -/

namespace Ndt.Spec

noncomputable section

/-- How far the pose `b` is from where the measurement `t`, taken at `a`, has it: the way to `b` as seen from `a`, and the turn. -/
def misfit (t a b : Pose2d) : Pose2d :=
  let q := compose a t
  ⟨Real.cos a.theta * (b.x - q.x) + Real.sin a.theta * (b.y - q.y), -Real.sin a.theta * (b.x - q.x) + Real.cos a.theta * (b.y - q.y),
   b.theta - q.theta⟩

end

end Ndt.Spec
