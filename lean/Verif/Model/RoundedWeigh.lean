import Verif.Model.RoundedMatcher
import Verif.Model.RoundedFilter

/-!
# Weighing the particles in double precision (src/scan_matcher_ndt.cpp:151-178, src/particle_filter.cpp:78-89, 163-200)

`scorePoints`, `measure` and the part of `updateStatistics` that is about weights and the mean position, with every operation
followed by the rounding `rd`. A score may be infinite, hence weights and means may be NaN.
-/

namespace Ndt.Rounded

noncomputable section

variable (rd co si : ℝ → ℝ)

/-- src/scan_matcher_ndt.cpp:156-178 `scorePoints`. The matrix of `toEigen` (include/ndt_2d/conversions.hpp) has the cosine and the
sine as they are, so that `t * p` is a point moved by a pose as in `NDT::addScan`; the order of the two terms of a sum does not matter. -/
def scorePoints (mt : Matcher) (points : List Point) (pose : Pose2d) : Res Fl :=
  match mt.ndt with
  | none => .ok (.fin 0)
  | some g => do
    let m := min mt.laserMaxBeams points.length
    let score ← (List.range m).foldlM (fun score i => do
      let p ← beam rd points m i
      pure (Fl.rounded rd (score + -(← likelihood rd g (mapPoint rd co si pose p))))) (Fl.fin 0)
    pure (Fl.rounded rd (score / .fin (rd m)))

/-- src/particle_filter.cpp:166-170: the sum of the weights. -/
def sumScores (ws : List Fl) : Fl := ws.foldl (fun s w => Fl.rounded rd (s + w)) (.fin 0)

/-- src/particle_filter.cpp:171-174: every weight is divided by the sum. -/
def shares (ws : List Fl) : List Fl := ws.map fun w => Fl.rounded rd (w / sumScores rd ws)

/-- src/particle_filter.cpp:182-184, 198-199: one coordinate of the mean, for weights that have been divided. -/
def meanOf (f : Pose2d → ℝ) (ws : List Fl) (ps : List Pose2d) : Fl :=
  (ws.zip ps).foldl (fun s a => Fl.rounded rd (s + Fl.rounded rd (a.1 * .fin (f a.2)))) (.fin 0)

/-- The weights of the particles and their mean position (src/particle_filter.cpp:78-89, 163-200). -/
structure Weighed where
  weights : List Fl
  meanX : Fl
  meanY : Fl

/-- src/particle_filter.cpp:78-89 `measure`, with the weights and the mean position that `updateStatistics` computes (lines 163-200). -/
def measure (mt : Matcher) (points : List Point) (particles : List Pose2d) : Res Weighed := do
  let scores ← particles.mapM (scorePoints rd co si mt points)
  pure ⟨shares rd scores, meanOf rd (·.x) (shares rd scores) particles, meanOf rd (·.y) (shares rd scores) particles⟩

end

end Ndt.Rounded
