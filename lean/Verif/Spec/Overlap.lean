import Verif.Spec.Symmetry

/-! # Points that have a place in a map -/

namespace Ndt.Spec

noncomputable section

open Classical in
/-- Points of the map that are nearer than `c` in both coordinates. -/
def nearby (c : ℝ) (qs : List Point) (p : Point) : List Point :=
  qs.filter fun q => |q.x - p.x| < c ∧ |q.y - p.y| < c

/-- A point has a place in a map of squares of side `c`: there are five points within that distance. -/
def Placed (c : ℝ) (qs : List Point) (p : Point) : Prop := 5 ≤ (nearby c qs p).length

open Classical in
/-- The points of `ps` that have a place in the map made of the scans `w`. -/
def placed (c : ℝ) (w : List Scan) (ps : List Point) : List Point := ps.filter fun p => Placed c (pointsInMap w) p

end

end Ndt.Spec
