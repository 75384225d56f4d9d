import Verif.Model.OccupancyGrid
import Verif.Spec.Geometry
import Verif.Spec.NdtGrid

/-! # Specification of the occupancy grid -/

namespace Ndt.Spec

noncomputable section

/-- Different cells that share an edge or a corner. -/
def Neighbours (p q : GCell) : Prop := p ≠ q ∧ |q.1 - p.1| ≤ 1 ∧ |q.2 - p.2| ≤ 1

/-- The cell lies in the box spanned by two cells. -/
def InBox (s e c : GCell) : Prop :=
  (min s.1 e.1 ≤ c.1 ∧ c.1 ≤ max s.1 e.1) ∧ (min s.2 e.2 ≤ c.2 ∧ c.2 ≤ max s.2 e.2)

/-- The measurements of some scans: the pose measured from and the point in the frame of the sensor. -/
def measured (scans : List Scan) : List (Pose2d × Point) := scans.flatMap fun s => s.points.map fun p => (s.pose, p)

/-- The point lies in the extents of the grid (without the padding). -/
def Inside (g : OccGrid) (p : Point) : Prop := (g.minX ≤ p.x ∧ p.x ≤ g.maxX) ∧ (g.minY ≤ p.y ∧ p.y ≤ g.maxY)

/-- The extents hold all the measured points in the map frame. -/
def CoversPoints (g : OccGrid) (scans : List Scan) : Prop := ∀ q ∈ measured scans, Inside g (move q.1 q.2)

/-- The extents hold the position of every scan. -/
def CoversPoses (g : OccGrid) (scans : List Scan) : Prop := ∀ s ∈ scans, Inside g ⟨s.pose.x, s.pose.y⟩

/-- A map of less than 2^28 cells a side and 2^31 cells in all. -/
def Moderate (g : OccGrid) : Prop :=
  let w := (g.maxX - g.minX) / g.resolution + 10
  let h := (g.maxY - g.minY) / g.resolution + 10
  w < 2 ^ 28 ∧ h < 2 ^ 28 ∧ w * h < 2 ^ 31

/-- The value of a cell that was the end of `hits` rays and was passed by `empties`. -/
def valueOf (thresh : ℝ) (hits empties : ℕ) : ℤ :=
  if hits = 0 ∧ empties = 0 then -1 else if thresh * (hits + empties : ℝ) < hits then 100 else 0

/-- The loop for a ray between two cells comes to an end with these cells counted as empty and as hit. -/
def Traced (s e : GCell) (t : List GCell × GCell) : Prop :=
  ∃ n, (OccGrid.Ray.mk s.1 s.2 e.1 e.2).loop n (OccGrid.Ray.mk s.1 s.2 e.1 e.2).start = some t

/-- The scan has measured points on every side of the sensor, as seen along the axes of the map. -/
def Surrounded (s : Scan) : Prop :=
  (∃ p ∈ s.points, (move s.pose p).x ≤ s.pose.x) ∧ (∃ p ∈ s.points, s.pose.x ≤ (move s.pose p).x) ∧
  (∃ p ∈ s.points, (move s.pose p).y ≤ s.pose.y) ∧ (∃ p ∈ s.points, s.pose.y ≤ (move s.pose p).y)

/-- All measured points lie within a distance along the axes from the origin of the map. -/
def Within (r : ℝ) (scans : List Scan) : Prop :=
  ∀ q ∈ measured scans, |(move q.1 q.2).x| ≤ r ∧ |(move q.1 q.2).y| ≤ r

/-- A history of calls of `getMsg` on one grid object: the grid object afterwards. -/
def gridHistory (g : OccGrid) (calls : List (List Scan)) : Res OccGrid :=
  calls.foldlM (fun g scans => do let r ← g.getMsg scans; .ok r.1) g

end

end Ndt.Spec
