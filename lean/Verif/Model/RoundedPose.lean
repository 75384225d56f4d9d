import Verif.Model.Angles
import Verif.Model.Geometry

/-! # Poses predicted from odometry, in double precision

Every operation is followed by the rounding `rd`. `cosD` and `sinD` are the functions of the C library. -/

namespace Ndt

noncomputable section

namespace Rounded

/-- `M_PI`: the double next to pi (angles.h). -/
def piD : ℝ := 884279719003555 / 2 ^ 48

/-- `angles::normalize_angle` (ROS package `angles`, angles.h; used at src/ndt_mapper.cpp:363): `fmod` is exact, and so is
twice `M_PI`. -/
def normalizeAngle (rd : ℝ → ℝ) (a : ℝ) : ℝ :=
  let r := fmod (rd (a + piD)) (2 * piD)
  if r ≤ 0 then rd (r + piD) else rd (r - piD)

/-- `angles::shortest_angular_distance(from, to)` (angles.h; used at src/ndt_mapper.cpp:349 and 357). -/
def shortestAngularDistance (rd : ℝ → ℝ) (a b : ℝ) : ℝ := normalizeAngle rd (rd (b - a))

/-- src/ndt_mapper.cpp:347-349, 357-363: the pose predicted by odometry. -/
def predict (rd cosD sinD : ℝ → ℝ) (prevOdom prevRobot odom : Pose2d) : Pose2d :=
  let dx := rd (odom.x - prevOdom.x)
  let dy := rd (odom.y - prevOdom.y)
  let dth := shortestAngularDistance rd prevOdom.theta odom.theta
  let heading := shortestAngularDistance rd prevOdom.theta prevRobot.theta
  ⟨rd (rd (prevRobot.x + rd (dx * cosD heading)) - rd (dy * sinD heading)),
   rd (rd (prevRobot.y + rd (dx * sinD heading)) + rd (dy * cosD heading)),
   normalizeAngle rd (rd (prevRobot.theta + dth))⟩

/-- src/ndt_mapper.cpp:340-363 and 541-544: the pose after the scans taken at the odometry poses `os`, one after the
other, when the corrections are zero (adding zero is exact). -/
def deadReckon (rd cosD sinD : ℝ → ℝ) : Pose2d → Pose2d → List Pose2d → Pose2d
  | _, robot, [] => robot
  | odom, robot, o :: os => deadReckon rd cosD sinD o (predict rd cosD sinD odom robot o) os

end Rounded

end

end Ndt
