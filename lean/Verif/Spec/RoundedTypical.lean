import Mathlib.Data.Real.Basic
import Mathlib.Algebra.BigOperators.Intervals

/-! # The average that the typical response is meant to be -/

namespace Ndt.Spec

noncomputable section

open Finset in
/-- The exponentially weighted average of the start value -0.5 and the scores: the last has weight 0.05, each one before it 0.95 times that of the
next. -/
def weightedAverage (scores : List ℝ) : ℝ :=
  0.95 ^ scores.length * (-0.5) + ∑ i ∈ range scores.length, 0.05 * 0.95 ^ (scores.length - 1 - i) * scores.getD i 0

end

end Ndt.Spec
