import Verif.Spec.Mapper
import Verif.Spec.Laser
import Verif.Model.Mapper

/-! # A robot with good sensors in a world that stands still -/

namespace Ndt.Spec

noncomputable section

/-- Every beam within the limit ended at an obstacle, for a robot at `o` with a laser mounted at `lt`. The obstacles `W` are given
in the frame of the odometry. -/
def TrueBeams (W : Set Point) (lt : Pose2d) (inverted : Bool) (limit : ℝ) (o : Pose2d) (msg : LaserMsg) : Prop :=
  ∀ (i : ℕ) (x : ℝ), msg.ranges[i]? = some (.fin x) → x ≤ limit →
    move o (move lt (polar (if inverted then -(msg.angleMin + i * msg.angleIncrement)
      else msg.angleMin + i * msg.angleIncrement) x)) ∈ W

/-- What a robot with exact odometry and an exact laser receives, if it stands still while a scan is taken. -/
def Honest (W : Set Point) (lt : Pose2d) (inverted : Bool) (limit : ℝ) : Event → Prop
  | .laser msg mount odom odomEnd =>
      (mount = none ∨ mount = some (lt, inverted)) ∧ msg.rangeMax = .fin limit ∧ (∀ r ∈ msg.ranges, r ≠ .ninf) ∧
      ∀ o, odom = some o → (odomEnd = none ∨ odomEnd = some o) ∧ TrueBeams W lt inverted limit o msg
  | _ => True

/-- All points of the scan are where the transform puts obstacles. -/
def Shows (W : Set Point) (T : Iso) (x : Scan) : Prop := ∀ q ∈ x.points, ∃ w ∈ W, T.apply w = move x.pose q

end

end Ndt.Spec
