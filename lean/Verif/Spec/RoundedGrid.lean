import Verif.Model.RoundedGrid
import Verif.Spec.OccupancyGrid

/-! # Specification of the occupancy grid in double precision -/

namespace Ndt.Spec

noncomputable section

variable (rd : ℝ → ℝ) (co si : ℝ → ℝ)

/-- All measured points, as computed, lie within a distance along the axes from the origin of the map. -/
def ComputedWithin (r : ℝ) (scans : List Scan) : Prop :=
  ∀ q ∈ measured scans, |(Rounded.mapPoint rd co si q.1 q.2).x| ≤ r ∧ |(Rounded.mapPoint rd co si q.1 q.2).y| ≤ r

/-- The scan has points, as computed, on every side of the sensor, as seen along the axes of the map. -/
def ComputedSurrounded (s : Scan) : Prop :=
  (∃ p ∈ s.points, (Rounded.mapPoint rd co si s.pose p).x ≤ s.pose.x) ∧
  (∃ p ∈ s.points, s.pose.x ≤ (Rounded.mapPoint rd co si s.pose p).x) ∧
  (∃ p ∈ s.points, (Rounded.mapPoint rd co si s.pose p).y ≤ s.pose.y) ∧
  (∃ p ∈ s.points, s.pose.y ≤ (Rounded.mapPoint rd co si s.pose p).y)

/-- A history of calls of `getMsg` on one grid object: the messages. -/
def computedHistory : OccGrid → List (List Scan) → Res (List GridMsg)
  | _, [] => .ok []
  | g, scans :: calls => do
      let r ← Rounded.getMsg rd co si g scans
      let ms ← computedHistory r.1 calls
      .ok (r.2 :: ms)

/-- The point lies in a square of the message, up to a fiftieth of its side. -/
def NearlyIn (m : GridMsg) (p : Point) (c : GCell) : Prop :=
  (m.originX + (c.1 - 1 / 50) * m.resolution ≤ p.x ∧ p.x ≤ m.originX + (c.1 + 1 + 1 / 50) * m.resolution) ∧
  (m.originY + (c.2 - 1 / 50) * m.resolution ≤ p.y ∧ p.y ≤ m.originY + (c.2 + 1 + 1 / 50) * m.resolution)

/-- A square of the message. -/
def CellIn (m : GridMsg) (c : GCell) : Prop := (0 ≤ c.1 ∧ c.1 < m.width) ∧ (0 ≤ c.2 ∧ c.2 < m.height)

/-- The message is a drawing of the scans: for every measurement there is a ray between squares that hold the position of the
sensor and the point as computed, all squares on the way belong to the message, and the value of a square is decided by how
many rays ended in it and how many passed it. -/
def Drawn (thresh : ℝ) (scans : List Scan) (m : GridMsg) : Prop :=
  m.data.length = m.width * m.height ∧
  ∃ ts : List (List GCell × GCell),
    List.Forall₂ (fun q t => ∃ s e, NearlyIn m ⟨q.1.x, q.1.y⟩ s ∧ NearlyIn m (Rounded.mapPoint rd co si q.1 q.2) e ∧ Traced s e t)
      (measured scans) ts ∧
    (∀ t ∈ ts, ∀ c ∈ t.1 ++ [t.2], CellIn m c) ∧
    ∀ x y : ℕ, x < m.width → y < m.height →
      let hits := ts.countP fun t => t.2 = ((x : ℤ), (y : ℤ))
      let empties := (ts.flatMap (·.1)).countP fun c => c = ((x : ℤ), (y : ℤ))
      m.data[x + y * m.width]? =
        some (if hits = 0 ∧ empties = 0 then -1 else if thresh < rd ((hits : ℝ) / (hits + empties : ℕ)) then 100 else 0)

end

end Ndt.Spec
