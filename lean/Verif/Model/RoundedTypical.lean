import Mathlib.Data.Real.Basic

/-! # The typical response of the matcher, in double precision -/

namespace Ndt.Rounded

noncomputable section

/-- src/ndt_mapper.cpp:518: the constants of the code are the doubles next to 0.95 and 0.05. -/
def typicalResponse (rd : ℝ → ℝ) (typical score : ℝ) : ℝ := rd (rd (rd 0.95 * typical) + rd (rd 0.05 * score))

/-- src/ndt_mapper.cpp:55 and 518: the typical response after scans with these scores; it starts at -0.5. -/
def typicalAfter (rd : ℝ → ℝ) (scores : List ℝ) : ℝ := scores.foldl (typicalResponse rd) (-0.5)

end

end Ndt.Rounded
