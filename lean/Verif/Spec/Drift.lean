import Verif.Spec.Room
import Verif.Spec.Matcher
import Verif.Model.Node

/-! # Specification of a drive through a room with an odometry that drifts -/

namespace Ndt.Spec

noncomputable section

/-- A laser message handled by a localising robot: what odometry said at its start and end, and where the robot really was at its start. `junk` is what the
uninitialised covariance holds. -/
structure Stop where
  msg : LaserMsg
  mount : Option (Pose2d × Bool)
  odom : Pose2d
  odomEnd : Pose2d
  junk : Mat3F
  place : Pose2d

/-- What the node is given: the message, and turns to go on with it. -/
def Stop.inputs (r : Stop) : List Input :=
  [.plain (.laser r.msg r.mount (some r.odom) (some r.odomEnd)), .globalMatch r.junk, .plain .finishScan]

/-- What a mapping node is given at a stop. -/
def Stop.mapInputs (r : Stop) : List Input :=
  [.plain (.laser r.msg r.mount (some r.odom) (some r.odomEnd)), .plain .addWindow, .localMatch r.junk, .plain .pushConstraint, .plain .pushScan,
    .plain .finishScan]

/-- The scans a new scan is matched with: all of them up to the depth of the rolling window, the last ten of more. -/
def recent (depth : ℕ) (scans : List Scan) : List Scan := if scans.length ≤ depth then scans else scans.drop (scans.length - 10)

/-- The robot has moved far enough, as odometry sees it. -/
def Moved (minDist minRot : ℝ) (a b : Pose2d) : Prop :=
  minDist * minDist ≤ (b.x - a.x) * (b.x - a.x) + (b.y - a.y) * (b.y - a.y) ∨ minRot ≤ |shortestAngularDistance a.theta b.theta|

end

end Ndt.Spec
