import Verif.Model.RoundedPose

/-! # Poses predicted from odometry and corrected by matching, in double precision -/

namespace Ndt

noncomputable section

namespace Rounded

/-- src/ndt_mapper.cpp:521-524 and 558-561: the correction is added to the pose, angle by angle; the sum is not normalised. -/
def addCorrection (rd : ℝ → ℝ) (correction pose : Pose2d) : Pose2d :=
  ⟨rd (correction.x + pose.x), rd (correction.y + pose.y), rd (correction.theta + pose.theta)⟩

/-- src/ndt_mapper.cpp:340-363, 521-524 and 541-544 (while mapping), 558-565 (while localising): the pose after scans taken at odometry poses, one
after the other, and matched with corrections. -/
def track (rd cosD sinD : ℝ → ℝ) : Pose2d → Pose2d → List (Pose2d × Pose2d) → Pose2d
  | _, robot, [] => robot
  | odom, robot, (o, c) :: os => track rd cosD sinD o (addCorrection rd c (predict rd cosD sinD odom robot o)) os

end Rounded

end

end Ndt
