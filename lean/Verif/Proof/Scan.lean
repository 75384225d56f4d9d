import Verif.Spec.Scan
import Mathlib.Tactic.Ring
import Mathlib.Tactic.FieldSimp
import Mathlib.Tactic.Linarith

/-! # Lemmas for C01 -/

namespace Ndt

noncomputable section

theorem Scan.centerLoop_eq (c s : ℝ) (z : Point) (ps : List Point) :
    centerLoop c s z ps =
      ⟨z.x + (c * Spec.sumX ps - s * Spec.sumY ps), z.y + (s * Spec.sumX ps + c * Spec.sumY ps)⟩ := by
  induction ps generalizing z with
  | nil => simp [centerLoop, Spec.sumX, Spec.sumY]
  | cons p ps ih =>
    simp only [centerLoop, ih, Spec.sumX, Spec.sumY, List.map_cons, List.sum_cons, Point.mk.injEq]
    constructor <;> ring

theorem Scan.update_barycenter (s : Scan) :
    s.update.barycenter = Spec.barycenter s.pose s.points := by
  unfold Scan.update Spec.barycenter
  rcases h : s.points with _ | ⟨p, ps⟩
  · simp
  · have hn : ((p :: ps).length : ℝ) ≠ 0 := by simp; positivity
    simp only [centerLoop_eq, Spec.move, Spec.centroid, Point.zero, List.isEmpty_cons, Bool.not_false,
      if_true, reduceCtorEq, if_false, Pose2d.mk.injEq, and_true]
    constructor
    · field_simp; ring
    · field_simp; ring

/-- The cache invariant: when clean, the stored barycenter is the right one. -/
def Scan.Inv (s : Scan) : Prop := s.dirty = false → s.barycenter = Spec.barycenter s.pose s.points

theorem Scan.getBary_snd (s : Scan) (h : s.Inv) :
    s.getBarycenterPose.2 = Spec.barycenter s.pose s.points := by
  unfold getBarycenterPose
  cases hd : s.dirty
  · simpa using h hd
  · simpa using s.update_barycenter

theorem Scan.run_eq (s : Scan) (h : s.Inv) (ops : List ScanOp) :
    s.run ops = Spec.scanRun s.id s.pose s.points ops := by
  induction ops generalizing s with
  | nil => rfl
  | cons op ops ih =>
    cases op with
    | getId => simp only [run, step, Spec.scanRun, getId]; rw [ih s h]
    | getPose => simp only [run, step, Spec.scanRun, getPose]; rw [ih s h]
    | getPoints => simp only [run, step, Spec.scanRun, getPoints]; rw [ih s h]
    | setPose p =>
      simp only [run, step, Spec.scanRun]
      rw [ih (s.setPose p) (by intro h'; simp [setPose] at h')]; rfl
    | setPoints p =>
      simp only [run, step, Spec.scanRun]
      rw [ih (s.setPoints p) (by intro h'; simp [setPoints] at h')]; rfl
    | getBarycenterPose =>
      simp only [run, step, Spec.scanRun, s.getBary_snd h]
      have hinv : s.getBarycenterPose.1.Inv := by
        unfold getBarycenterPose
        cases hd : s.dirty
        · simpa [hd] using h
        · intro _; exact s.update_barycenter
      have e1 : s.getBarycenterPose.1.id = s.id := by
        unfold getBarycenterPose; cases s.dirty <;> rfl
      have e2 : s.getBarycenterPose.1.pose = s.pose := by
        unfold getBarycenterPose; cases s.dirty <;> rfl
      have e3 : s.getBarycenterPose.1.points = s.points := by
        unfold getBarycenterPose; cases s.dirty <;> rfl
      rw [ih _ hinv, e1, e2, e3]

end

end Ndt
