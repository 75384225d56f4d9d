import Verif.Spec.RoundedPose

/-! # Poses that follow odometry and corrections -/

namespace Ndt.Spec

noncomputable section

/-- A pose moved by a correction. -/
def corrected (c p : Pose2d) : Pose2d := ⟨p.x + c.x, p.y + c.y, p.theta + c.theta⟩

/-- Where a robot is that follows its odometry between scans (`follow`) and is moved by a correction at each of them. -/
def guided : Pose2d → Pose2d → List (Pose2d × Pose2d) → Pose2d
  | _, robot, [] => robot
  | odom, robot, (o, c) :: os => guided o (corrected c (follow odom robot o)) os

/-- What a run has to be like: headings as odometry and matching give them, steps of up to `L`, corrections of up to a quarter of a radian, and the
robot, before and after each correction, within `B` along the axes. -/
def Guidable (L B : ℝ) : Pose2d → Pose2d → List (Pose2d × Pose2d) → Prop
  | _, robot, [] => |robot.x| ≤ B ∧ |robot.y| ≤ B
  | odom, robot, (o, c) :: os => (|robot.x| ≤ B ∧ |robot.y| ≤ B) ∧ (|o.x - odom.x| ≤ L ∧ |o.y - odom.y| ≤ L ∧ |o.theta| ≤ 3.5) ∧
      (|(follow odom robot o).x| ≤ B ∧ |(follow odom robot o).y| ≤ B) ∧ |c.theta| ≤ 0.25 ∧ Guidable L B o (corrected c (follow odom robot o)) os

end

end Ndt.Spec
