import Verif.Spec.RoundedGrid
import Verif.Spec.RayNear

/-! # Specification of what a reader of the occupancy grid sees -/

namespace Ndt.Spec

noncomputable section

/-- Where a reader of a message takes the middle of a square to be. -/
def shownAt (m : GridMsg) (c : GCell) : Point := middle m.originX m.originY m.resolution c

/-- The reader sees the square within `ax` of the point along x and `ay` along y. -/
def ShownNear (m : GridMsg) (c : GCell) (p : Point) (ax ay : ℝ) : Prop := |(shownAt m c).x - p.x| ≤ ax ∧ |(shownAt m c).y - p.y| ≤ ay

/-- A ray between these squares is of the kind the code ends a square early (C44). -/
def EndsEarly (s e : GCell) : Prop := |e.2 - s.2| < |e.1 - s.1| ∧ |e.1 - s.1| ≤ 2 * |e.2 - s.2|

end

end Ndt.Spec
