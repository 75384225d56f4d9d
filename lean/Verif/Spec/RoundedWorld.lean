import Verif.Spec.RoundedPose
import Verif.Spec.Laser

/-! # Specification of a map of the world -/

namespace Ndt.Spec

noncomputable section

/-- Where a place of the world is in the map of a robot that was at `robot0` in the map when it was at `odom0` in the world: the world moved
rigidly. -/
def placeInMap (odom0 robot0 : Pose2d) (w : Point) : Point :=
  let h := robot0.theta - odom0.theta
  ⟨robot0.x + (w.x - odom0.x) * Real.cos h - (w.y - odom0.y) * Real.sin h,
   robot0.y + (w.x - odom0.x) * Real.sin h + (w.y - odom0.y) * Real.cos h⟩

/-- The place of the world that a beam of length `r` in the direction `angle` of the laser ends at, for a robot at `o` with a laser at `lt`. -/
def seenBy (o lt : Pose2d) (angle r : ℝ) : Point := move o (move lt (polar angle r))

end

end Ndt.Spec
