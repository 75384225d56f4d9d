import Mathlib.Data.Real.Basic

/-! # Single precision numbers: what rounding is -/

namespace Ndt.Spec

/-- A finite IEEE-754 binary32 number, but without an upper limit for the exponent: a significand of 24 bits times a power
of two that is at least `2^-149`. -/
def IsFloat (x : ℝ) : Prop := ∃ k e : ℤ, |k| < 2 ^ 24 ∧ -149 ≤ e ∧ x = k * 2 ^ e

/-- `rf` rounds to a nearest float, with any rule for ties. -/
structure RoundsToFloat (rf : ℝ → ℝ) : Prop where
  isFloat : ∀ x, IsFloat (rf x)
  nearest : ∀ x d, IsFloat d → |rf x - x| ≤ |d - x|

end Ndt.Spec
