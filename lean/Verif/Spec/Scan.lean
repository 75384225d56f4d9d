import Verif.Model.Scan
import Verif.Spec.Geometry

/-! # Specification of `Scan` -/

namespace Ndt

noncomputable section

namespace Spec

/-- The barycenter: the pose moved to the image of the centroid of the points. -/
def barycenter (p : Pose2d) (ps : List Point) : Pose2d :=
  if ps = [] then p
  else ⟨(move p (centroid ps)).x, (move p (centroid ps)).y, p.theta⟩

/-- Results of calls on an ideal scan, which is just its id, last pose and last points. -/
def scanRun (id : ℕ) (p : Pose2d) (ps : List Point) : List ScanOp → List ScanOut
  | [] => []
  | .getId :: ops => .id id :: scanRun id p ps ops
  | .setPose q :: ops => .unit :: scanRun id q ps ops
  | .getPose :: ops => .pose p :: scanRun id p ps ops
  | .getBarycenterPose :: ops => .pose (barycenter p ps) :: scanRun id p ps ops
  | .setPoints qs :: ops => .unit :: scanRun id p qs ops
  | .getPoints :: ops => .points ps :: scanRun id p ps ops

end Spec

end

end Ndt
