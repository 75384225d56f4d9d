import Verif.Model.Geometry

/-! # Scan (include/ndt_2d/scan.hpp, src/scan.cpp) -/

namespace Ndt

noncomputable section

/-- include/ndt_2d/scan.hpp:83-87, the private state of `Scan`. -/
@[ext] structure Scan where
  id : ℕ
  dirty : Bool
  pose : Pose2d
  barycenter : Pose2d
  points : List Point

namespace Scan

/-- src/scan.cpp:35-37 constructor (`Pose2d` members default to zero). -/
def new (id : ℕ) : Scan :=
  { id := id, dirty := true, pose := Pose2d.zero, barycenter := Pose2d.zero, points := [] }

/-- src/scan.cpp:39-42 `getId`. -/
def getId (s : Scan) : ℕ := s.id

/-- src/scan.cpp:44-48 `setPose`. -/
def setPose (s : Scan) (p : Pose2d) : Scan := { s with dirty := true, pose := p }

/-- src/scan.cpp:50-53 `getPose`. -/
def getPose (s : Scan) : Pose2d := s.pose

/-- src/scan.cpp:61-65 `setPoints`. -/
def setPoints (s : Scan) (ps : List Point) : Scan := { s with dirty := true, points := ps }

/-- src/scan.cpp:67-70 `getPoints`. -/
def getPoints (s : Scan) : List Point := s.points

/-- src/scan.cpp:82-86, the loop that accumulates the rotated points. -/
def centerLoop (cosTheta sinTheta : ℝ) (center : Point) : List Point → Point
  | [] => center
  | p :: ps =>
      centerLoop cosTheta sinTheta
        ⟨center.x + (cosTheta * p.x - sinTheta * p.y), center.y + (sinTheta * p.x + cosTheta * p.y)⟩ ps

/-- src/scan.cpp:72-91 `update`. -/
def update (s : Scan) : Scan :=
  let cosTheta := Real.cos s.pose.theta
  let sinTheta := Real.sin s.pose.theta
  let barycenter :=
    if !s.points.isEmpty then
      let center := centerLoop cosTheta sinTheta Point.zero s.points
      { s.pose with x := s.pose.x + center.x / s.points.length,
                    y := s.pose.y + center.y / s.points.length }
    else s.pose
  { s with barycenter := barycenter, dirty := false }

/-- src/scan.cpp:55-59 `getBarycenterPose` (returns the possibly updated object and the result). -/
def getBarycenterPose (s : Scan) : Scan × Pose2d :=
  let s' := if s.dirty then s.update else s
  (s', s'.barycenter)

end Scan

/-- The public calls of `Scan` after construction (include/ndt_2d/scan.hpp:42-80). -/
inductive ScanOp where
  | getId
  | setPose (p : Pose2d)
  | getPose
  | getBarycenterPose
  | setPoints (ps : List Point)
  | getPoints

/-- What a call returns (include/ndt_2d/scan.hpp:42-80). -/
inductive ScanOut where
  | unit
  | id (n : ℕ)
  | pose (p : Pose2d)
  | points (ps : List Point)

/-- One public call on the modelled object (include/ndt_2d/scan.hpp:42-80). -/
def Scan.step (s : Scan) : ScanOp → Scan × ScanOut
  | .getId => (s, .id s.getId)
  | .setPose p => (s.setPose p, .unit)
  | .getPose => (s, .pose s.getPose)
  | .getBarycenterPose => (s.getBarycenterPose.1, .pose s.getBarycenterPose.2)
  | .setPoints ps => (s.setPoints ps, .unit)
  | .getPoints => (s, .points s.getPoints)

/-- The results of a sequence of calls (include/ndt_2d/scan.hpp:42-80). -/
def Scan.run (s : Scan) : List ScanOp → List ScanOut
  | [] => []
  | op :: ops => (s.step op).2 :: (s.step op).1.run ops

end

end Ndt
