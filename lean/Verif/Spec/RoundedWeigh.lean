import Verif.Spec.RoundedMatcher
import Verif.Spec.RoundedFilter
import Verif.Spec.Double
import Verif.Spec.Cell

/-! # Specification of weighing particles in double precision (C130) -/

namespace Ndt.Spec

noncomputable section

/-- In every square of the map with five points or more, the points are spread in every direction by a variance of at least `400 n`
times `2^-53` of the square of the largest coordinate `B`. -/
def WellSpread (rd co si : ℝ → ℝ) (g : NdtGrid) (scans : List Scan) (B : ℝ) : Prop :=
  ∀ i, 5 ≤ (pointsIn rd co si g scans i).length →
    (pointsIn rd co si g scans i).length ≤ 2 ^ 49 ∧ CoordsWithin B (pointsIn rd co si g scans i) ∧
    SpreadAtLeast (400 * ((pointsIn rd co si g scans i).length * 2⁻¹ ^ 53 * (B * B))) (pointsIn rd co si g scans i)

/-- A number from -1 to 0. -/
def IsScore (v : Fl) : Prop := ∃ x, v = .fin x ∧ -1 ≤ x ∧ x ≤ 0

/-- A number from 0 to 1. -/
def IsShare (v : Fl) : Prop := ∃ x, v = .fin x ∧ 0 ≤ x ∧ x ≤ 1

end

end Ndt.Spec
