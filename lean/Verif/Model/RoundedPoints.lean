import Verif.Model.Single
import Verif.Model.Constraint
import Verif.Model.RoundedPose

/-! # Points and constraints in double precision

Every operation is followed by the rounding `rd`; `cosD` and `sinD` are the functions of the C library, and `rf` is the rounding
of the operations with `float` (the angle of a beam). -/

namespace Ndt

noncomputable section

namespace Rounded

/-- A rotation followed by a shift, as it is written at src/ndt_mapper.cpp:420-427 and 443-449, and with the factors of the
products swapped at src/ndt_model.cpp:136-141, src/occupancy_grid.cpp:84-85 and src/scan_matcher_ndt.cpp:108-111. -/
def turn (rd : ℝ → ℝ) (c s : ℝ) (p t : Point) : Point :=
  ⟨rd (rd (rd (c * p.x) - rd (s * p.y)) + t.x), rd (rd (rd (s * p.x) + rd (c * p.y)) + t.y)⟩

/-- src/ndt_model.cpp:136-141, src/occupancy_grid.cpp:84-85: a point of a scan in the map. -/
def worldPoint (rd cosD sinD : ℝ → ℝ) (pose : Pose2d) (p : Point) : Point :=
  turn rd (cosD pose.theta) (sinD pose.theta) p ⟨pose.x, pose.y⟩

/-- src/ndt_mapper.cpp:416-421 and 439-444: a beam in the robot frame. The range is a `float`, the product one of `double`. -/
def project (rd cosD sinD : ℝ → ℝ) (lt : Pose2d) (angle r : ℝ) : Point :=
  worldPoint rd cosD sinD lt ⟨rd (cosD angle * r), rd (sinD angle * r)⟩

/-- src/ndt_mapper.cpp:386-389, 393-395 and 445-449: the share `i` of `n` of a movement along one axis. Numbers of beams are
converted to `double`. -/
def share (rd : ℝ → ℝ) (a b : ℝ) (n i : ℕ) : ℝ := rd (rd (rd (b - a) / rd n) * rd i)

/-- src/ndt_mapper.cpp:422-427: what remains of the movement. -/
def remaining (rd : ℝ → ℝ) (a b : ℝ) (n i : ℕ) : ℝ := rd (rd (b - a) - share rd a b n i)

/-- src/ndt_mapper.cpp:438-449: the point of beam `i`, normal mounting. -/
def forwardPoint (rd rf cosD sinD : ℝ → ℝ) (msg : LaserMsg) (lt o o' : Pose2d) (i : ℕ) (r : ℝ) : Point :=
  let n := msg.ranges.length
  worldPoint rd cosD sinD ⟨share rd o.x o'.x n i, share rd o.y o'.y n i, share rd o.theta o'.theta n i⟩
    (project rd cosD sinD lt (Laser.beamAngle rf msg i) r)

/-- src/ndt_mapper.cpp:415-427: the point of beam `i`, inverted mounting. -/
def invertedPoint (rd rf cosD sinD : ℝ → ℝ) (msg : LaserMsg) (lt o o' : Pose2d) (i : ℕ) (r : ℝ) : Point :=
  let n := msg.ranges.length
  worldPoint rd cosD sinD ⟨remaining rd o.x o'.x n i, remaining rd o.y o'.y n i, remaining rd o.theta o'.theta n i⟩
    (project rd cosD sinD lt (-Laser.beamAngle rf msg i) r)

/-- src/constraint.cpp:42-50: the transform of a constraint. -/
def constraintTransform (rd cosD sinD : ℝ → ℝ) (src dst : Pose2d) : Pose2d :=
  let dx := rd (dst.x - src.x)
  let dy := rd (dst.y - src.y)
  let c := cosD src.theta
  let s := sinD src.theta
  ⟨rd (rd (c * dx) + rd (s * dy)), rd (rd (-s * dx) + rd (c * dy)), rd (dst.theta - src.theta)⟩

end Rounded

end

end Ndt
