import Mathlib.Data.Int.Log
import Mathlib.Algebra.Order.Round
import Mathlib.Data.Real.Archimedean
import Verif.Base.Fl

/-!
# Rounding to double precision

`rnd` is the rounding of IEEE-754 binary64 (to nearest, ties to even), except that it does not overflow.
-/

namespace Ndt

noncomputable section

/-- Nearest integer, ties to even. -/
def rneInt (x : ℝ) : ℤ :=
  if Int.fract x < 1 / 2 then ⌊x⌋
  else if 1 / 2 < Int.fract x then ⌊x⌋ + 1
  else if Even ⌊x⌋ then ⌊x⌋ else ⌊x⌋ + 1

/-- The exponent of the unit in the last place of the binade of `x`; not below that of subnormal numbers. -/
def ulpExp (x : ℝ) : ℤ := max (Int.log 2 |x| - 52) (-1074)

/-- Rounding to double precision. -/
def rnd (x : ℝ) : ℝ := rneInt (x / 2 ^ ulpExp x) * 2 ^ ulpExp x

/-- A value that may be special, with its finite values rounded. -/
def Fl.rounded (rd : ℝ → ℝ) : Fl → Fl
  | .fin x => .fin (rd x)
  | x => x

@[simp] theorem Fl.rounded_fin (rd : ℝ → ℝ) (x : ℝ) : (Fl.fin x).rounded rd = .fin (rd x) := rfl

end

end Ndt
