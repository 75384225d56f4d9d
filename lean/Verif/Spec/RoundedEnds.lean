import Verif.Spec.RoundedMatcher
import Verif.Spec.Double

/-! # Specification: maps and searches of ordinary size (C129) -/

namespace Ndt.Spec

noncomputable section

/-- The scan was taken within `P` metres of the origin, in either direction, and sees points within `P` metres of the robot. -/
structure ScanWithin (P : ℝ) (s : Scan) : Prop where
  poseX : |s.pose.x| ≤ P
  poseY : |s.pose.y| ≤ P
  points : ∀ p ∈ s.points, |p.x| ≤ P ∧ |p.y| ≤ P

/-- The window of the search: not wider than `P` metres, and the steps not below the precision of the sizes. -/
structure SearchWithin (P : ℝ) (mt : Matcher) : Prop where
  linear : IsDouble mt.linearSize
  linearP : mt.linearSize ≤ P
  linearRes : 2⁻¹ ^ 51 * mt.linearSize ≤ mt.linearRes
  linearRes' : 2⁻¹ ^ 1000 ≤ mt.linearRes
  angular : IsDouble mt.angularSize
  angularRes : 2⁻¹ ^ 51 * mt.angularSize ≤ mt.angularRes
  angularRes' : 2⁻¹ ^ 1000 ≤ mt.angularRes

/-- The map reaches not further than `P` metres around a scan, and `P` metres are not more than 2048 squares. -/
structure MapWithin (P : ℝ) (mt : Matcher) : Prop where
  range0 : 0 ≤ mt.rangeMax
  range : mt.rangeMax ≤ P
  squares : P ≤ 2 ^ 11 * mt.resolution

end

end Ndt.Spec
