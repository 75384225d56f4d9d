import Verif.Model.Geometry

/-! # Barycenters in double precision (src/scan.cpp:72-91)

Every operation is followed by the rounding `rd`; `co` and `si` are the functions of the C library. -/

namespace Ndt

noncomputable section

namespace Rounded

variable (rd : ℝ → ℝ)

/-- src/scan.cpp:82-86: the loop over the points. -/
def sumTurned (c s : ℝ) (points : List Point) : Point :=
  points.foldl (fun center p =>
    ⟨rd (center.x + rd (rd (c * p.x) - rd (s * p.y))), rd (center.y + rd (rd (s * p.x) + rd (c * p.y)))⟩) Point.zero

/-- src/scan.cpp:72-91: the barycenter of some points seen from a pose. The number of points is converted to `double`. -/
def barycenter (co si : ℝ → ℝ) (pose : Pose2d) (points : List Point) : Pose2d :=
  if !points.isEmpty then
    let center := sumTurned rd (co pose.theta) (si pose.theta) points
    { pose with x := rd (pose.x + rd (center.x / rd points.length))
                y := rd (pose.y + rd (center.y / rd points.length)) }
  else pose

end Rounded

end

end Ndt
