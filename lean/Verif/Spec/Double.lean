import Mathlib.Data.Real.Basic

/-! # Double precision numbers: what rounding is -/

namespace Ndt.Spec

/-- A finite IEEE-754 binary64 number, but without an upper limit for the exponent: a significand of 53 bits times a power
of two that is at least `2^-1074`. -/
def IsDouble (x : ℝ) : Prop := ∃ k e : ℤ, |k| < 2 ^ 53 ∧ -1074 ≤ e ∧ x = k * 2 ^ e

/-- `rd` rounds to a nearest double, with any rule for ties. -/
structure RoundsToNearest (rd : ℝ → ℝ) : Prop where
  isDouble : ∀ x, IsDouble (rd x)
  nearest : ∀ x d, IsDouble d → |rd x - x| ≤ |d - x|

end Ndt.Spec
