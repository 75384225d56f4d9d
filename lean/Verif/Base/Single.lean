import Verif.Base.Double

/-! # Rounding to single precision -/

namespace Ndt

noncomputable section

/-- The exponent of the last place of a float of the size of `x`; not below `-149`. -/
def ulpExpF (x : ℝ) : ℤ := max (Int.log 2 |x| - 23) (-149)

/-- Rounding to a nearest float, ties to even (IEEE-754 binary32), without an upper limit of the exponent. -/
def rndF (x : ℝ) : ℝ := rneInt (x / 2 ^ ulpExpF x) * 2 ^ ulpExpF x

end

end Ndt
