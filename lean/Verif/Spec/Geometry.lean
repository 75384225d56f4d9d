import Verif.Model.Geometry

/-! # Specification of planar rigid motions, independent of how the code writes them -/

namespace Ndt.Spec

noncomputable section

/-- The point `q`, given in the frame `p`, expressed in the frame `p` itself is given in. -/
def move (p : Pose2d) (q : Point) : Point :=
  ⟨p.x + Real.cos p.theta * q.x - Real.sin p.theta * q.y,
   p.y + Real.sin p.theta * q.x + Real.cos p.theta * q.y⟩

/-- The pose `q`, given in the frame `p`, expressed in the frame `p` itself is given in. -/
def compose (p q : Pose2d) : Pose2d :=
  ⟨p.x + Real.cos p.theta * q.x - Real.sin p.theta * q.y,
   p.y + Real.sin p.theta * q.x + Real.cos p.theta * q.y,
   p.theta + q.theta⟩

/-- Sum of the x coordinates of some points. -/
def sumX (ps : List Point) : ℝ := (ps.map (·.x)).sum
/-- Sum of the y coordinates of some points. -/
def sumY (ps : List Point) : ℝ := (ps.map (·.y)).sum

/-- Arithmetic mean of some points. -/
def centroid (ps : List Point) : Point := ⟨sumX ps / ps.length, sumY ps / ps.length⟩

/-- Euclidean distance of two points. -/
def dist (p q : Point) : ℝ := Real.sqrt ((p.x - q.x) ^ 2 + (p.y - q.y) ^ 2)

end

end Ndt.Spec
