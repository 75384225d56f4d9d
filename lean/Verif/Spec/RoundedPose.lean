import Verif.Model.Geometry
import Mathlib.Analysis.SpecialFunctions.Trigonometric.Basic

/-! # Poses that follow odometry -/

namespace Ndt.Spec

noncomputable section

/-- The functions of the C library are accurate to two units in the last place of one. -/
structure Accurate (cosD sinD : ℝ → ℝ) : Prop where
  cos : ∀ a, |cosD a - Real.cos a| ≤ 2⁻¹ ^ 52
  sin : ∀ a, |sinD a - Real.sin a| ≤ 2⁻¹ ^ 52

/-- Where a robot is that was at `robot0` when its odometry said `odom0`, and whose odometry now says `odom`: the odometry
moved rigidly. -/
def follow (odom0 robot0 odom : Pose2d) : Pose2d :=
  let h := robot0.theta - odom0.theta
  ⟨robot0.x + (odom.x - odom0.x) * Real.cos h - (odom.y - odom0.y) * Real.sin h,
   robot0.y + (odom.x - odom0.x) * Real.sin h + (odom.y - odom0.y) * Real.cos h,
   robot0.theta + (odom.theta - odom0.theta)⟩

/-- From one odometry pose to the next neither coordinate changes by more than `L`. -/
def Steps (L : ℝ) : Pose2d → List Pose2d → Prop
  | _, [] => True
  | o, o' :: os => |o'.x - o.x| ≤ L ∧ |o'.y - o.y| ≤ L ∧ Steps L o' os

end

end Ndt.Spec
