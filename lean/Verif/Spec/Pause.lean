import Verif.Spec.Drift

/-! # Specification of a drive with messages between the stops -/

namespace Ndt.Spec

noncomputable section

/-- A laser message while the robot has moved too little to be at a stop: what odometry said at its start, and perhaps at its end. -/
structure Pause where
  msg : LaserMsg
  mount : Option (Pose2d × Bool)
  odom : Pose2d
  odomEnd : Option Pose2d

/-- What the node is given. -/
def Pause.input (r : Pause) : Input := .plain (.laser r.msg r.mount (some r.odom) r.odomEnd)

/-- A way to a stop, and the stop. -/
structure Leg where
  way : List Pause
  stop : Stop

/-- What a localising node is given on the way and at the stop. -/
def Leg.inputs (l : Leg) : List Input := l.way.map Pause.input ++ l.stop.inputs

/-- What a mapping node is given. -/
def Leg.mapInputs (l : Leg) : List Input := l.way.map Pause.input ++ l.stop.mapInputs

/-- On the way from each stop to the next the robot has never moved far enough, as odometry sees it from the stop before. -/
def OnTheWay (minDist minRot : ℝ) : Pose2d → List Leg → Prop
  | _, [] => True
  | odom, l :: ls => (∀ r ∈ l.way, ¬ Moved minDist minRot odom r.odom) ∧ OnTheWay minDist minRot l.stop.odom ls

end

end Ndt.Spec
