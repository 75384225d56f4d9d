import Verif.Spec.Solver
import Mathlib.Tactic.Linarith
import Mathlib.Tactic.FieldSimp
import Mathlib.Tactic.Ring
import Mathlib.Tactic.LinearCombination
import Mathlib.Tactic.NormNum

/-! # C30-C34: constraints and their residuals -/

namespace Ndt

noncomputable section

open Spec Real

/-! ### C30 -/

/-- **C30** `NormalizeAngle` returns an angle in [-pi, pi) congruent to its argument. -/
theorem c30_normalize_angle_correct (a : ℝ) : IsNormalised a (ceresNormalizeAngle a) := by
  have hp := pi_pos
  have h1 := Int.floor_le ((a + π) / (2 * π))
  have h2 := Int.lt_floor_add_one ((a + π) / (2 * π))
  rw [le_div_iff₀ (by linarith)] at h1
  rw [div_lt_iff₀ (by linarith)] at h2
  refine ⟨⟨?_, ?_⟩, -⌊(a + π) / (2 * π)⌋, ?_⟩
  · unfold ceresNormalizeAngle; linarith
  · unfold ceresNormalizeAngle; linarith
  · unfold ceresNormalizeAngle; push_cast; ring

/-- **C30** That angle is unique. -/
theorem c30_normalised_angle_unique {a b c : ℝ} (hb : IsNormalised a b) (hc : IsNormalised a c) : b = c := by
  obtain ⟨⟨b1, b2⟩, n, hn⟩ := hb
  obtain ⟨⟨c1, c2⟩, m, hm⟩ := hc
  have hp := pi_pos
  have h : b - c = ((n - m : ℤ) : ℝ) * (2 * π) := by rw [hn, hm]; push_cast; ring
  have h1 : ((n - m : ℤ) : ℝ) < 1 := by
    by_contra hcon
    push Not at hcon
    nlinarith
  have h2 : (-1 : ℝ) < ((n - m : ℤ) : ℝ) := by
    by_contra hcon
    push Not at hcon
    nlinarith
  have h3 : n - m < 1 := by exact_mod_cast h1
  have h4 : -1 < n - m := by exact_mod_cast h2
  have h5 : n - m = 0 := by omega
  rw [h5] at h
  simp at h
  linarith

/-- **C30** Idempotent and periodic. -/
theorem c30_idempotent_periodic (a : ℝ) :
    ceresNormalizeAngle (ceresNormalizeAngle a) = ceresNormalizeAngle a ∧
    ∀ n : ℤ, ceresNormalizeAngle (a + n * (2 * π)) = ceresNormalizeAngle a := by
  obtain ⟨h1, n0, h2⟩ := c30_normalize_angle_correct a
  constructor
  · exact c30_normalised_angle_unique (c30_normalize_angle_correct _) ⟨h1, 0, by simp⟩
  · intro n
    refine c30_normalised_angle_unique (c30_normalize_angle_correct _) ⟨h1, n0 - n, ?_⟩
    rw [h2]; push_cast; ring

/-- pi itself is mapped to -pi: the interval is open on the right. -/
example : ceresNormalizeAngle π = -π := by
  refine c30_normalised_angle_unique (c30_normalize_angle_correct π) ⟨⟨le_rfl, by linarith [pi_pos]⟩, -1, ?_⟩
  push_cast; ring

/-! ### C31 -/

/-- **C31** The constraint made from two scans names them in order, is not switchable, and leads from the pose of
the first exactly to the pose of the second. -/
theorem c31_constraint_reproduces_relative_pose (a b : Scan) (cov : Mat3) :
    let c := makeConstraint a b cov
    c.begin_ = a.id ∧ c.end_ = b.id ∧ c.switchable = false ∧ compose a.pose c.transform = b.pose := by
  refine ⟨rfl, rfl, rfl, ?_⟩
  have h := sin_sq_add_cos_sq a.pose.theta
  apply Pose2d.ext
  · simp only [compose, makeConstraint, Scan.getPose]
    linear_combination (b.pose.x - a.pose.x) * h
  · simp only [compose, makeConstraint, Scan.getPose]
    linear_combination (b.pose.y - a.pose.y) * h
  · simp only [compose, makeConstraint, Scan.getPose]; ring

/-- Two scans a metre apart with the first turned by 90 degrees. -/
example : (makeConstraint ((Scan.new 3).setPose ⟨1, 2, π / 2⟩) ((Scan.new 4).setPose ⟨1, 3, π⟩)
    fun _ _ => .fin 1).transform = ⟨1, 0, π - π / 2⟩ := by
  simp [makeConstraint, Scan.setPose, Scan.new, Scan.getPose]
  norm_num

/-! ### C32 -/

theorem poseError_fresh (a b : Scan) (cov : Mat3) :
    ∀ i, poseError (makeConstraint a b cov).transform a.pose b.pose i = 0 := by
  intro i
  fin_cases i
  · simp [poseError, makeConstraint, Scan.getPose]
  · simp [poseError, makeConstraint, Scan.getPose]
  · simp only [poseError, makeConstraint, Scan.getPose]
    show ceresNormalizeAngle (b.pose.theta - a.pose.theta - (b.pose.theta - a.pose.theta)) = 0
    rw [sub_self]
    exact c30_normalised_angle_unique (c30_normalize_angle_correct 0)
      ⟨⟨by linarith [pi_pos], pi_pos⟩, 0, by simp⟩

/-- **C32** At the poses a constraint was made from its error is zero, and so is the weighted residual for every
weight that consists of proper numbers. -/
theorem c32_fresh_constraint_has_zero_error (a b : Scan) (cov : Mat3) :
    (∀ i, poseError (makeConstraint a b cov).transform a.pose b.pose i = 0) ∧
    ∀ (w : Mat3) (w' : Matrix (Fin 3) (Fin 3) ℝ), IsReal w w' →
      IsRealVec (residual w (makeConstraint a b cov).transform a.pose b.pose) fun _ => 0 := by
  refine ⟨poseError_fresh a b cov, ?_⟩
  intro w w' hw i
  simp only [residual, hw i 0, hw i 1, hw i 2, poseError_fresh a b cov]
  simp

/-- **C32** Moving both poses by the same rigid motion changes no error and no residual. -/
theorem c32_frame_independent (w : Mat3) (t a b g : Pose2d) :
    poseError t (compose g a) (compose g b) = poseError t a b ∧
    residual w t (compose g a) (compose g b) = residual w t a b := by
  have h : poseError t (compose g a) (compose g b) = poseError t a b := by
    have hs := sin_sq_add_cos_sq g.theta
    funext i
    fin_cases i
    · simp only [poseError, compose]
      show cos (g.theta + a.theta) * _ + sin (g.theta + a.theta) * _ - _ = cos a.theta * _ + sin a.theta * _ - _
      rw [cos_add, sin_add]
      linear_combination (cos a.theta * (b.x - a.x) + sin a.theta * (b.y - a.y)) * hs
    · simp only [poseError, compose]
      show -sin (g.theta + a.theta) * _ + cos (g.theta + a.theta) * _ - _ = -sin a.theta * _ + cos a.theta * _ - _
      rw [cos_add, sin_add]
      linear_combination (-sin a.theta * (b.x - a.x) + cos a.theta * (b.y - a.y)) * hs
    · simp only [poseError, compose]
      show ceresNormalizeAngle _ = ceresNormalizeAngle _
      congr 1; ring
  exact ⟨h, by unfold residual; rw [h]⟩

/-- **C32** Headings only matter up to full turns. -/
theorem c32_full_turns_do_not_matter (w : Mat3) (t a b : Pose2d) (n m k : ℤ) :
    residual w { t with theta := t.theta + k * (2 * π) } { a with theta := a.theta + n * (2 * π) }
      { b with theta := b.theta + m * (2 * π) } = residual w t a b := by
  have h : poseError { t with theta := t.theta + k * (2 * π) } { a with theta := a.theta + n * (2 * π) }
      { b with theta := b.theta + m * (2 * π) } = poseError t a b := by
    funext i
    fin_cases i
    · simp [poseError, cos_add_int_mul_two_pi, sin_add_int_mul_two_pi]
    · simp [poseError, cos_add_int_mul_two_pi, sin_add_int_mul_two_pi]
    · simp only [poseError]
      show ceresNormalizeAngle _ = ceresNormalizeAngle _
      rw [← (c30_idempotent_periodic (b.theta - a.theta - t.theta)).2 (m - n - k)]
      congr 1; push_cast; ring
  unfold residual
  rw [h]

/-- A case with a non-zero error: the second pose is one metre too far along x. -/
example : poseError ⟨1, 0, 0⟩ ⟨0, 0, 0⟩ ⟨2, 0, 0⟩ 0 = 1 := by
  simp [poseError]; norm_num

/-! ### C33 -/

theorem det3 (a : Matrix (Fin 3) (Fin 3) ℝ) : a.det =
    (a 1 1 * a 2 2 - a 1 2 * a 2 1) * a 0 0 + (a 2 1 * a 0 2 - a 2 2 * a 0 1) * a 1 0 +
      (a 0 1 * a 1 2 - a 0 2 * a 1 1) * a 2 0 := by
  rw [Matrix.det_fin_three]; ring

/-- The inverse in numbers. -/
def realInverse (a : Matrix (Fin 3) (Fin 3) ℝ) : Matrix (Fin 3) (Fin 3) ℝ := fun i j =>
  (a (j + 1) (i + 1) * a (j + 2) (i + 2) - a (j + 1) (i + 2) * a (j + 2) (i + 1)) * (1 / a.det)

theorem inverse3_real {m : Mat3} {a : Matrix (Fin 3) (Fin 3) ℝ} (h : IsReal m a) (hd : a.det ≠ 0) :
    IsReal (inverse3 m) (realInverse a) := by
  intro i j
  have hc : ∀ i j, cofactor3 m i j =
      .fin (a (i + 1) (j + 1) * a (i + 2) (j + 2) - a (i + 1) (j + 2) * a (i + 2) (j + 1)) := by
    intro i j
    unfold cofactor3
    rw [h, h, h, h]
    rfl
  have hinv : invDet3 m = .fin (1 / a.det) := by
    unfold invDet3
    rw [hc, hc, hc, h, h, h]
    simp only [Fl.fin_mul, Fl.fin_add]
    have e : (a (0 + 1) (0 + 1) * a (0 + 2) (0 + 2) - a (0 + 1) (0 + 2) * a (0 + 2) (0 + 1)) * a 0 0 +
        (a (1 + 1) (0 + 1) * a (1 + 2) (0 + 2) - a (1 + 1) (0 + 2) * a (1 + 2) (0 + 1)) * a 1 0 +
        (a (2 + 1) (0 + 1) * a (2 + 2) (0 + 2) - a (2 + 1) (0 + 2) * a (2 + 2) (0 + 1)) * a 2 0 = a.det := by
      rw [det3]
      rfl
    rw [e, Fl.fin_div hd]
  unfold inverse3
  rw [hc, hinv]
  rfl

theorem realInverse_mul {a : Matrix (Fin 3) (Fin 3) ℝ} (hd : a.det ≠ 0) :
    realInverse a * a = 1 := by
  have hdet := Matrix.det_fin_three a
  have key : ∀ i j : Fin 3, (realInverse a * a) i j = (1 : Matrix (Fin 3) (Fin 3) ℝ) i j := by
    intro i j
    rw [Matrix.mul_apply, Fin.sum_univ_three]
    simp only [realInverse]
    generalize a.det = d at hd hdet
    fin_cases i <;> fin_cases j <;> simp [Matrix.one_apply] <;> field_simp <;> first | (rw [hdet]; ring) | ring
  ext i j
  exact key i j

/-- **C33** For every covariance of proper numbers that is invertible, information times covariance is the
identity (on both sides). -/
theorem c33_information_is_inverse (s d : Scan) {m : Mat3} {a : Matrix (Fin 3) (Fin 3) ℝ} (h : IsReal m a)
    (hd : a.det ≠ 0) : ∃ inf : Matrix (Fin 3) (Fin 3) ℝ,
      IsReal (makeConstraint s d m).information inf ∧ inf * a = 1 ∧ a * inf = 1 := by
  refine ⟨realInverse a, inverse3_real h hd, realInverse_mul hd, ?_⟩
  exact mul_eq_one_comm.mp (realInverse_mul hd)

/-- **C33** A symmetric covariance gives a symmetric information matrix, a positive definite one a positive
definite one. -/
theorem c33_information_definite (s d : Scan) {m : Mat3} {a : Matrix (Fin 3) (Fin 3) ℝ} (h : IsReal m a)
    (hp : a.PosDef) : ∃ inf : Matrix (Fin 3) (Fin 3) ℝ,
      IsReal (makeConstraint s d m).information inf ∧ inf.PosDef ∧ inf.transpose = inf := by
  have hd : a.det ≠ 0 := ((Matrix.isUnit_iff_isUnit_det a).mp hp.isUnit).ne_zero
  have e : realInverse a = a⁻¹ := (Matrix.inv_eq_left_inv (realInverse_mul hd)).symm
  have hq : (realInverse a).PosDef := by rw [e]; exact hp.inv
  refine ⟨realInverse a, inverse3_real h hd, hq, ?_⟩
  have := hq.isHermitian
  unfold Matrix.IsHermitian at this
  rw [Matrix.conjTranspose_eq_transpose_of_trivial] at this
  exact this

/-- **C33** A singular covariance gives no usable information: no entry is a proper number. -/
theorem c33_singular_covariance (s d : Scan) {m : Mat3} {a : Matrix (Fin 3) (Fin 3) ℝ} (h : IsReal m a)
    (hd : a.det = 0) : ∀ i j, ¬ ((makeConstraint s d m).information i j).isFinite := by
  intro i j
  have hc : ∀ i j, cofactor3 m i j =
      .fin (a (i + 1) (j + 1) * a (i + 2) (j + 2) - a (i + 1) (j + 2) * a (i + 2) (j + 1)) := by
    intro i j
    unfold cofactor3
    rw [h, h, h, h]
    rfl
  have hinv : invDet3 m = .pinf := by
    unfold invDet3
    rw [hc, hc, hc, h, h, h]
    simp only [Fl.fin_mul, Fl.fin_add]
    have e : (a (0 + 1) (0 + 1) * a (0 + 2) (0 + 2) - a (0 + 1) (0 + 2) * a (0 + 2) (0 + 1)) * a 0 0 +
        (a (1 + 1) (0 + 1) * a (1 + 2) (0 + 2) - a (1 + 1) (0 + 2) * a (1 + 2) (0 + 1)) * a 1 0 +
        (a (2 + 1) (0 + 1) * a (2 + 2) (0 + 2) - a (2 + 1) (0 + 2) * a (2 + 2) (0 + 1)) * a 2 0 = a.det := by
      rw [det3]
      rfl
    rw [e, hd, Fl.pos_div_zero one_pos]
  show ¬ (inverse3 m i j).isFinite
  unfold inverse3
  rw [hc, hinv]
  show ¬ (Fl.infMul true _).isFinite
  unfold Fl.infMul
  split
  · simp
  · split <;> simp

/-- A diagonal covariance. -/
example : ∃ inf : Matrix (Fin 3) (Fin 3) ℝ,
    IsReal (makeConstraint (Scan.new 0) (Scan.new 1)
      (fun i j => .fin (Matrix.diagonal ![1, 2, (4 : ℝ)] i j))).information inf ∧
    inf * Matrix.diagonal ![1, 2, 4] = 1 ∧ Matrix.diagonal ![1, 2, 4] * inf = 1 :=
  c33_information_is_inverse _ _ (fun _ _ => rfl) (by
    rw [Matrix.det_diagonal, Fin.prod_univ_three]
    simp)

end

end Ndt
