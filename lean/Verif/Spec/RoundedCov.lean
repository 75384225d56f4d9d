import Verif.Spec.RoundedMatcher

/-! # What is said about the covariance of matching in double precision -/

namespace Ndt.Spec

noncomputable section

/-- The offsets of a search of `A` angles and `B` shifts along each axis, in its order. -/
def offsets (rd : ℝ → ℝ) (mt : Matcher) (A B : ℕ) : List Pose2d :=
  (List.range A).flatMap fun i => (List.range B).flatMap fun j => (List.range B).map fun k => offsetOf rd mt i j k

/-- The search has `A` angles and `B` shifts along each axis. -/
def SearchSize (rd : ℝ → ℝ) (mt : Matcher) (A B : ℕ) : Prop :=
  (∀ i, i < A ↔ Rounded.Visits rd mt.angularSize mt.angularRes i) ∧ ∀ j, j < B ↔ Rounded.Visits rd mt.linearSize mt.linearRes j

/-- x, y or angle of an offset. -/
def offsetCoord (i : Fin 3) (o : Pose2d) : ℝ := (![o.x, o.y, o.theta] : Fin 3 → ℝ) i

/-- Sum over offsets. -/
def sumOver (L : List Pose2d) (f : Pose2d → ℝ) : ℝ := (L.map f).sum

end

end Ndt.Spec
