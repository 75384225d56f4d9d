import Verif.Model.Laser
import Verif.Model.Angles
import Verif.Spec.Geometry

/-! # Specification of the conversion of laser messages -/

namespace Ndt.Spec

noncomputable section

/-- A measurement to use: a number not above the limit. -/
def Valid (limit : ℝ) (r : Fl) : Prop := ∃ x ≤ limit, r = .fin x

/-- A measurement as sensor_msgs/LaserScan defines it: values below `range_min` or above `range_max` are none. -/
def Measured (lo hi : ℝ) (r : Fl) : Prop := ∃ x, lo ≤ x ∧ x ≤ hi ∧ r = .fin x

/-- The numbers of the valid beams in order. -/
def validBeams (limit : ℝ) (ranges : List Fl) : List (ℕ × ℝ) :=
  ranges.zipIdx.filterMap fun ri => match ri.1 with
    | .fin x => if x ≤ limit then some (ri.2, x) else none
    | _ => none

/-- A beam of some length in the frame of the laser. -/
def polar (angle r : ℝ) : Point := ⟨r * Real.cos angle, r * Real.sin angle⟩

/-- The point is one of numbers. -/
def IsPoint (f : FPoint) (p : Point) : Prop := f = (.fin p.x, .fin p.y)

/-- The pose of the robot after the share `f` of a movement from `a` to `b`, turning the short way. -/
def between (a b : Pose2d) (f : ℝ) : Pose2d :=
  ⟨a.x + f * (b.x - a.x), a.y + f * (b.y - a.y), a.theta + f * shortestAngularDistance a.theta b.theta⟩

end

end Ndt.Spec
