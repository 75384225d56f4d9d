import Verif.Model.Filter
import Verif.Base.Double

/-! # The discrete distribution of `resample` (src/particle_filter.cpp:94 and 111)

`std::discrete_distribution` is a template of the standard library, of which the code uses two functions: the constructor with a range of weights
and the call. They are written here as libstdc++ has them (bits/random.tcc, `discrete_distribution::param_type::_M_initialize` and `operator()`;
bits/stl_algobase.h, `__lower_bound`). `rd` rounds the results of the operations; `id` stands for exact arithmetic. The uniform number `p` is
what `std::generate_canonical` gives, at least 0 and less than 1. -/

namespace Ndt

namespace Discrete

noncomputable section

variable (rd : ℝ → ℝ)

/-- `std::accumulate(…, 0.0)` over the weights (src/particle_filter.cpp:94). -/
def total (ws : List Fl) : Fl := ws.foldl (fun s w => (s + w).rounded rd) (.fin 0)

/-- `__normalize`: every weight divided by the sum (src/particle_filter.cpp:94). -/
def shares (ws : List Fl) : List Fl := ws.map fun w => (w / total rd ws).rounded rd

/-- The loop of `std::partial_sum`, from the second element on (src/particle_filter.cpp:94). -/
def sumsFrom (s : Fl) : List Fl → List Fl
  | [] => []
  | w :: ws => (s + w).rounded rd :: sumsFrom ((s + w).rounded rd) ws

/-- `std::partial_sum`: the first element is copied (src/particle_filter.cpp:94). -/
def partialSums : List Fl → List Fl
  | [] => []
  | w :: ws => w :: sumsFrom rd w ws

/-- The vector `_M_cp`; its last element is set to one (src/particle_filter.cpp:94). -/
def cumulative (ws : List Fl) : List Fl := (partialSums rd (shares rd ws)).set (ws.length - 1) (.fin 1)

/-- `std::lower_bound` on the `len` elements from `first` on: bisection, which takes the list to be sorted (src/particle_filter.cpp:111). -/
def lowerBound (cp : List Fl) (p : Fl) (first len : ℕ) : ℕ :=
  if len = 0 then first
  else if cp.getD (first + len / 2) .nan < p then lowerBound cp p (first + len / 2 + 1) (len - len / 2 - 1)
  else lowerBound cp p first (len / 2)
termination_by len
decreasing_by all_goals omega

/-- `d(gen_)`: fewer than two weights are not looked at (src/particle_filter.cpp:111). -/
def pick (ws : List Fl) (p : ℝ) : ℕ := if ws.length < 2 then 0 else lowerBound (cumulative rd ws) (.fin p) 0 ws.length

end

end Discrete

namespace Filter

noncomputable section

/-- src/particle_filter.cpp:94 and 111: the draws of `resample` when the uniform numbers are `p`. -/
def drawn (rd : ℝ → ℝ) (f : Filter) (p : ℕ → ℝ) : ℕ → ℕ := fun n => Discrete.pick rd f.weights (p n)

/-- src/particle_filter.cpp:91-137 built with the library's assertions: the sum of two or more weights must be positive. -/
def checkedResample (rd : ℝ → ℝ) (f : Filter) (err z : ℝ) (p : ℕ → ℝ) : Res Filter :=
  if 2 ≤ f.weights.length ∧ ¬ (.fin 0 : Fl) < Discrete.total rd f.weights then .error .abort else f.resample err z (f.drawn rd p)

end

end Filter

end Ndt
