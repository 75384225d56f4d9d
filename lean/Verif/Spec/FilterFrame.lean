import Verif.Spec.Filter
import Verif.Spec.Mapper

/-! # The particle filter seen from another frame -/

namespace Ndt.Spec

noncomputable section

/-- `g` holds the particles of `f`, in order and with the same weights, in coordinates of a frame in which the frame of `f`
has the pose `T`. Headings may have any number of full turns more. -/
structure SeenFrom (T : Pose2d) (f g : Filter) : Prop where
  motion : g.motion = f.motion
  weights : g.weights = f.weights
  particles : List.Forall₂ (fun p q => SamePose q (compose T p)) f.particles g.particles

/-- The same thing is done to both filters: the same motion with the same draws, or scores that agree. -/
inductive SameOp (T : Pose2d) : Filter.Op → Filter.Op → Prop
  | update (nrm : MotionModel.Draws) (dx dy dth : ℝ) : SameOp T (.update nrm dx dy dth) (.update nrm dx dy dth)
  | measure (a b : Pose2d → Res Fl) (h : ∀ p q, SamePose q (compose T p) → b q = a p) : SameOp T (.measure a) (.measure b)

/-- Entry of the rotation matrix of an angle. -/
def rotation (a : ℝ) : Fin 2 → Fin 2 → ℝ := ![![Real.cos a, -Real.sin a], ![Real.sin a, Real.cos a]]

/-- The matrix `d` is `c` turned by the angle `a`. -/
def TurnedBy (a : ℝ) (c d : Fin 2 → Fin 2 → ℝ) : Prop :=
  ∀ i j, d i j = ∑ k, ∑ l, rotation a i k * c k l * rotation a j l

/-- The headings cancel out: there is no mean heading. -/
def NoDirection (v : List ℝ) (ps : List Pose2d) : Prop :=
  wmean v ps (fun p => Real.cos p.theta) = 0 ∧ wmean v ps (fun p => Real.sin p.theta) = 0

/-- All particles face within `h` of the direction `phi`. -/
def FacingWithin (h phi : ℝ) (ps : List Pose2d) : Prop := ∀ p ∈ ps, angularDistance phi p.theta ≤ h

end

end Ndt.Spec
