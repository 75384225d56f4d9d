import Verif.Model.Angles
import Verif.Model.Geometry

/-! # The motion model (src/motion_model.cpp) -/

namespace Ndt

noncomputable section

/-- include/ndt_2d/motion_model.hpp:60-63: the coefficients. The random engine is not part of the state: draws are
an argument of `sample`. -/
structure MotionModel where
  a1 : ℝ
  a2 : ℝ
  a3 : ℝ
  a4 : ℝ
  a5 : ℝ

namespace MotionModel

/-- src/motion_model.cpp:49 `trans`. -/
def trans (dx dy : ℝ) : ℝ := hypot dx dy

/-- src/motion_model.cpp:50 `rot1`: direction of travel, taken as 0 up to one centimetre. -/
def rot1 (dx dy : ℝ) : ℝ := if trans dx dy > 0.01 then atan2 dy dx else 0

/-- src/motion_model.cpp:51 `rot2`. -/
def rot2 (dx dy dth : ℝ) : ℝ := shortestAngularDistance (rot1 dx dy) dth

/-- src/motion_model.cpp:54-57 `rot1_`, `rot2_`: distance to the nearer of 0 and pi. -/
def fold (r : ℝ) : ℝ := min |shortestAngularDistance r 0| |shortestAngularDistance r Real.pi|

/-- src/motion_model.cpp:60-61: radicand of `sigma_rot1`. -/
def radRot1 (m : MotionModel) (dx dy _dth : ℝ) : ℝ :=
  m.a1 * fold (rot1 dx dy) * fold (rot1 dx dy) + m.a2 * trans dx dy * trans dx dy

/-- src/motion_model.cpp:62-64: radicand of `sigma_trans`. -/
def radTrans (m : MotionModel) (dx dy dth : ℝ) : ℝ :=
  m.a3 * trans dx dy * trans dx dy + m.a4 * fold (rot1 dx dy) * fold (rot1 dx dy) +
    m.a4 * fold (rot2 dx dy dth) * fold (rot2 dx dy dth)

/-- src/motion_model.cpp:65-66: radicand of `sigma_rot2`. -/
def radRot2 (m : MotionModel) (dx dy dth : ℝ) : ℝ :=
  m.a1 * fold (rot2 dx dy dth) * fold (rot2 dx dy dth) + m.a2 * trans dx dy * trans dx dy

/-- A square root of a negative number is taken for this motion (src/motion_model.cpp:60-66). -/
def NegativeNoise (m : MotionModel) (d : Pose2d) : Prop :=
  m.radRot1 d.x d.y d.theta < 0 ∨ m.radTrans d.x d.y d.theta < 0 ∨ m.radRot2 d.x d.y d.theta < 0

instance (m : MotionModel) (d : Pose2d) : Decidable (m.NegativeNoise d) := Classical.propDecidable _

/-- A source of normal draws: `nrm k mean sigma` is the result of the k-th draw. It is an arbitrary function: the
C++ generator's results (`float`, src/motion_model.cpp:69-77) are some such function. -/
abbrev Draws := ℕ → ℝ → ℝ → ℝ

/-- src/motion_model.cpp:73-82: one pose; draws number `k`, `k+1`, `k+2`. -/
def sampleOne (m : MotionModel) (nrm : Draws) (k : ℕ) (dx dy dth : ℝ) (pose : Pose2d) : Pose2d :=
  let r1 := nrm k (rot1 dx dy) (Real.sqrt (m.radRot1 dx dy dth))
  let t := nrm (k + 1) (trans dx dy) (Real.sqrt (m.radTrans dx dy dth))
  let r2 := nrm (k + 2) (rot2 dx dy dth) (Real.sqrt (m.radRot2 dx dy dth))
  ⟨pose.x + t * Real.cos (pose.theta + r1), pose.y + t * Real.sin (pose.theta + r1),
   normalizeAngle (pose.theta + r1 + r2)⟩

/-- src/motion_model.cpp:45-83 `MotionModel::sample`. The square roots are real square roots; C29
shows the radicands are not negative when the coefficients are not. -/
def sample (m : MotionModel) (nrm : Draws) (dx dy dth : ℝ) (poses : List Pose2d) : List Pose2d :=
  poses.mapIdx fun i p => m.sampleOne nrm (3 * i) dx dy dth p

end MotionModel

end

end Ndt
