import Verif.Model.Geometry
import Verif.Base.Fl

/-! # From laser messages to points (src/ndt_mapper.cpp:385-453) -/

namespace Ndt

noncomputable section

/-- sensor_msgs LaserScan, the fields that take part in computing points. `time_increment` and the stamp are used for
looking up transforms only, whose results are inputs here (src/ndt_mapper.cpp:267). -/
structure LaserMsg where
  angleMin : ℝ
  angleIncrement : ℝ
  rangeMax : Fl
  ranges : List Fl

/-- A point whose coordinates may be NaN or infinite (src/ndt_mapper.cpp:416-427). -/
abbrev FPoint := Fl × Fl

namespace Laser

/-- src/ndt_mapper.cpp:270: a negative limit is replaced by that of the message (a NaN is not negative). -/
def latchRangeMax (rangeMax : Fl) (msg : LaserMsg) : Fl := if rangeMax < .fin 0 then msg.rangeMax else rangeMax

/-- src/ndt_mapper.cpp:413 and 436: beams that are skipped. -/
def skip (rangeMax r : Fl) : Prop := r.isNan ∨ rangeMax < r

instance (rangeMax r : Fl) : Decidable (skip rangeMax r) := Classical.propDecidable _

/-- src/ndt_mapper.cpp:385-389: movement of the robot during the scan, componentwise in the odometry frame. -/
def translation (odomStart odomEnd : Pose2d) : Pose2d :=
  ⟨odomEnd.x - odomStart.x, odomEnd.y - odomStart.y, odomEnd.theta - odomStart.theta⟩

/-- src/ndt_mapper.cpp:392-395: movement per measurement. -/
def perMeas (t : Pose2d) (n : ℕ) : Pose2d := ⟨t.x / n, t.y / n, t.theta / n⟩

/-- src/ndt_mapper.cpp:416-421 and 439-444: a beam in the robot frame. -/
def project (lt : Pose2d) (angle : ℝ) (r : Fl) : FPoint :=
  let lx := .fin (Real.cos angle) * r
  let ly := .fin (Real.sin angle) * r
  (.fin (Real.cos lt.theta) * lx - .fin (Real.sin lt.theta) * ly + .fin lt.x,
   .fin (Real.sin lt.theta) * lx + .fin (Real.cos lt.theta) * ly + .fin lt.y)

/-- src/ndt_mapper.cpp:422-427 and 445-449: apply the movement. -/
def shift (m : Pose2d) (p : FPoint) : FPoint :=
  (.fin (Real.cos m.theta) * p.1 - .fin (Real.sin m.theta) * p.2 + .fin m.x,
   .fin (Real.sin m.theta) * p.1 + .fin (Real.cos m.theta) * p.2 + .fin m.y)

/-- src/ndt_mapper.cpp:438-449: the point of beam `i`, normal mounting. -/
def forwardPoint (msg : LaserMsg) (lt t : Pose2d) (i : ℕ) (r : Fl) : FPoint :=
  let pm := perMeas t msg.ranges.length
  shift ⟨pm.x * i, pm.y * i, pm.theta * i⟩ (project lt (msg.angleMin + i * msg.angleIncrement) r)

/-- src/ndt_mapper.cpp:415-427: the point of beam `i`, inverted mounting. -/
def invertedPoint (msg : LaserMsg) (lt t : Pose2d) (i : ℕ) (r : Fl) : FPoint :=
  let pm := perMeas t msg.ranges.length
  shift ⟨t.x - pm.x * i, t.y - pm.y * i, t.theta - pm.theta * i⟩
    (project lt (-(msg.angleMin + i * msg.angleIncrement)) r)

/-- src/ndt_mapper.cpp:433-451: the loop for the normal mounting, from beam `i` on. -/
def forwardLoop (msg : LaserMsg) (rangeMax : Fl) (lt t : Pose2d) (i : ℕ) : List Fl → List FPoint
  | [] => []
  | r :: rs =>
      if skip rangeMax r then forwardLoop msg rangeMax lt t (i + 1) rs
      else forwardPoint msg lt t i r :: forwardLoop msg rangeMax lt t (i + 1) rs

/-- src/ndt_mapper.cpp:410-430: the loop for the inverted mounting, from beam `i` down to 1. -/
def invertedLoop (msg : LaserMsg) (rangeMax : Fl) (lt t : Pose2d) : ℕ → Res (List FPoint)
  | 0 => .ok []
  | i + 1 => match msg.ranges[i + 1]? with
      | none => .error .outOfBounds
      | some r => do
          let rest ← invertedLoop msg rangeMax lt t i
          .ok (if skip rangeMax r then rest else invertedPoint msg lt t (i + 1) r :: rest)

/-- src/ndt_mapper.cpp:385-453: the points of a message. `ranges.size() - 1` wraps around for an empty message. -/
def points (msg : LaserMsg) (rangeMax : Fl) (inverted : Bool) (lt odomStart odomEnd : Pose2d) : Res (List FPoint) :=
  let t := translation odomStart odomEnd
  if inverted then
    invertedLoop msg rangeMax lt t (if msg.ranges.length = 0 then 2 ^ 64 - 1 else msg.ranges.length - 1)
  else .ok (forwardLoop msg rangeMax lt t 0 msg.ranges)

end Laser

end

end Ndt
