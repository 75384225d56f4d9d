import Verif.Spec.Matcher

/-! # The same scans taken elsewhere -/

namespace Ndt.Spec

noncomputable section

/-- The point moved by `t`. -/
def movedBy (t p : Point) : Point := ⟨p.x + t.x, p.y + t.y⟩

/-- The same scan taken at a place that is off by `t`, the heading having `n` more full turns. -/
def elsewhere (t : Point) (n : ℤ) (s : Scan) : Scan :=
  { s with pose := ⟨s.pose.x + t.x, s.pose.y + t.y, s.pose.theta + n * (2 * Real.pi)⟩ }

/-- The position of the robot. -/
def place (s : Scan) : Point := ⟨s.pose.x, s.pose.y⟩

/-- No point of the scan is farther than `r` from the robot. -/
def WithinRange (r : ℝ) (s : Scan) : Prop := ∀ p ∈ s.points, p.x ^ 2 + p.y ^ 2 ≤ r ^ 2

/-- The points of the scans, in the map frame. -/
def pointsInMap (scans : List Scan) : List Point := scans.flatMap fun s => s.points.map (move s.pose)

end

end Ndt.Spec
