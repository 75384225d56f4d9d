import Verif.Spec.Graph

/-! # Specification: how far apart two scans of a loop may be -/

namespace Ndt.Spec

noncomputable section

/-- Where a scan is. -/
def position (s : Scan) : Point := ⟨s.pose.x, s.pose.y⟩

/-- How far the point a scan is searched by is from where the scan is. -/
def overhang (useBarycenter : Bool) (s : Scan) : ℝ :=
  if useBarycenter then dist (centroid s.points) ⟨0, 0⟩ else 0

/-- The largest distance of two scans when the search for candidates found them within `radius`, and one of them has since
been moved up to `k` times by at most `step` along each axis. -/
def Apart (useBarycenter : Bool) (radius step : ℝ) (k : ℕ) (a b : Scan) : ℝ :=
  radius + overhang useBarycenter a + overhang useBarycenter b + k * (Real.sqrt 2 * step)

/-- Length of the way a constraint claims from one scan to the other. -/
def reachOf (t : Pose2d) : ℝ := dist ⟨t.x, t.y⟩ ⟨0, 0⟩

end

end Ndt.Spec
