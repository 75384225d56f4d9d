import Verif.Proof.RoundedSolver
import Verif.Props.RoundedHeadingProps
import Verif.Model.RoundedPoints

/-! # Property C132: residuals in double precision -/

namespace Ndt

noncomputable section

open Spec Rounded

theorem ceresNormalizeAngle_zero {rd : ℝ → ℝ} (hrd : RoundsToNearest rd) : Rounded.ceresNormalizeAngle rd 0 = 0 := by
  have h0 : rd 0 = 0 := hrd.exact isDouble_zero
  have h1 : piD / (2 * piD) = 1 / 2 := by
    have := piD_pos.ne'
    field_simp
  have h2 : rd (1 / 2) = 1 / 2 := hrd.exact (by
    have := isDouble_dyadic (k := 1) (e := -1) (by norm_num) (by norm_num)
    norm_num at this ⊢
    exact this)
  unfold Rounded.ceresNormalizeAngle
  rw [zero_add, hrd.exact isDouble_piD, h1, h2]
  norm_num [h0]

/-- **C132** The residual of a new constraint, at the poses it was made of, is zero in double precision as well, exactly. -/
theorem c132_zero_at_creation {rd co si : ℝ → ℝ} (hrd : RoundsToNearest rd) (a b : Pose2d) (i : Fin 3) :
    Rounded.poseError rd co si (constraintTransform rd co si a b) a b i = 0 ∧
    ∀ L : Mat3, (∀ i j, ∃ x, L i j = .fin x) → Rounded.residual rd co si L (constraintTransform rd co si a b) a b i = .fin 0 := by
  have h0 : rd 0 = 0 := hrd.exact isDouble_zero
  have hz : ∀ i, Rounded.poseError rd co si (constraintTransform rd co si a b) a b i = 0 := by
    intro i
    fin_cases i
    · simp [Rounded.poseError, constraintTransform, h0]
    · simp [Rounded.poseError, constraintTransform, h0]
    · simp [Rounded.poseError, constraintTransform, h0, ceresNormalizeAngle_zero hrd]
  refine ⟨hz i, fun L hL => ?_⟩
  obtain ⟨x0, e0⟩ := hL i 0
  obtain ⟨x1, e1⟩ := hL i 1
  obtain ⟨x2, e2⟩ := hL i 2
  simp only [Rounded.residual, hz, e0, e1, e2, Fl.fin_mul, mul_zero, Fl.rounded_fin, h0, Fl.fin_add, add_zero]

/-- **C132** The residual computed in double precision is how far the second pose is from where the measurement has it, seen from the
first: the position within `3e-15` of the way between the poses and `1.3e-16` of the measurement, the heading within `5e-14` up to full turns,
and on the short way round up to `6e-14`. -/
theorem c132_residual {rd co si : ℝ → ℝ} (hrd : RoundsToNearest rd) (hcs : Accurate co si) (t a b : Pose2d) {D T : ℝ}
    (hx : |b.x - a.x| ≤ D) (hy : |b.y - a.y| ≤ D) (htx : |t.x| ≤ T) (hty : |t.y| ≤ T) (hth : |b.theta - a.theta| ≤ 50) (htt : |t.theta| ≤ 50) :
    |Rounded.poseError rd co si t a b 0 - (misfit t a b).x| ≤ 3e-15 * D + 1.3e-16 * T + 2e-29 ∧
    |Rounded.poseError rd co si t a b 1 - (misfit t a b).y| ≤ 3e-15 * D + 1.3e-16 * T + 2e-29 ∧
    |Rounded.poseError rd co si t a b 2| ≤ Real.pi + 6e-14 ∧
    ∃ k : ℤ, |Rounded.poseError rd co si t a b 2 - ((misfit t a b).theta + k * (2 * Real.pi))| ≤ 5e-14 := by
  have hD : 0 ≤ D := (abs_nonneg _).trans hx
  obtain ⟨u, v⟩ := way_near hrd hcs a b hx hy
  have hc := Real.abs_cos_le_one a.theta
  have hs := Real.abs_sin_le_one a.theta
  have hcs2 := Real.cos_sq_add_sin_sq a.theta
  have g : ∀ {X c : ℝ}, |c| ≤ 1 → |X| ≤ D → |c * X| ≤ D := by
    intro X c h1 h2
    rw [abs_mul]
    have := mul_le_mul h1 h2 (abs_nonneg _) zero_le_one
    linarith
  have g1 : |Real.cos a.theta * (b.x - a.x) + Real.sin a.theta * (b.y - a.y)| ≤ 2 * D :=
    (abs_add_le _ _).trans (by linarith [g hc hx, g hs hy])
  have g2 : |-Real.sin a.theta * (b.x - a.x) + Real.cos a.theta * (b.y - a.y)| ≤ 2 * D :=
    (abs_add_le _ _).trans (by linarith [g (by rwa [abs_neg] : |-Real.sin a.theta| ≤ 1) hx, g hc hy])
  have k1 := component_near hrd u g1 hD htx
  have k2 := component_near hrd v g2 hD hty
  have m1 : (misfit t a b).x = Real.cos a.theta * (b.x - a.x) + Real.sin a.theta * (b.y - a.y) - t.x := by
    simp only [misfit, compose]
    linear_combination (-t.x) * hcs2
  have m2 : (misfit t a b).y = -Real.sin a.theta * (b.x - a.x) + Real.cos a.theta * (b.y - a.y) - t.y := by
    simp only [misfit, compose]
    linear_combination (-t.y) * hcs2
  have m3 : (misfit t a b).theta = b.theta - a.theta - t.theta := by
    simp only [misfit, compose]
    ring
  have h1 := abs_le.mp (rd_near hrd hth)
  have hth' := abs_le.mp hth
  have htt' := abs_le.mp htt
  have h2 := abs_le.mp (rd_near hrd (x := rd (b.theta - a.theta) - t.theta) (X := 100.1) (by
    rw [abs_le]; norm_num at h1 ⊢; constructor <;> linarith [h1.1, h1.2]))
  obtain ⟨n1, k, n2⟩ := ceresNormalizeAngle_near hrd (a := rd (rd (b.theta - a.theta) - t.theta)) (by
    rw [abs_le]; norm_num at h1 h2 ⊢; constructor <;> linarith [h1.1, h1.2, h2.1, h2.2])
  rw [m1, m2, m3]
  refine ⟨k1, k2, n1, k, ?_⟩
  show |Rounded.ceresNormalizeAngle rd (rd (rd (b.theta - a.theta) - t.theta)) - _| ≤ _
  have n2' := abs_le.mp n2
  rw [abs_le]
  norm_num at h1 h2 n2' ⊢
  constructor <;> linarith [h1.1, h1.2, h2.1, h2.2, n2'.1, n2'.2]

/-- **C132** (where the comment at include/ndt_2d/ceres_solver_pose.hpp:58 fails) The largest double below `M_PI` is normalised to less than minus
pi. -/
theorem c132_below_minus_pi : ∃ a : ℝ, IsDouble a ∧ 0 ≤ a ∧ a < Real.pi ∧ Rounded.ceresNormalizeAngle rnd a < -Real.pi := by
  have h1 := Real.pi_gt_d20
  have h2 := Real.pi_lt_d20
  have hd : ∀ (k : ℤ) (e : ℕ), |k| < 2 ^ 53 → e ≤ 1074 → IsDouble (k / 2 ^ e) := by
    intro k e hk he
    have := isDouble_dyadic (k := k) (e := -(e : ℤ)) hk (by omega)
    rwa [zpow_neg, zpow_natCast, ← div_eq_mul_inv] at this
  refine ⟨7074237752028439 / 2 ^ 51, by simpa using hd 7074237752028439 51 (by norm_num) (by norm_num), by positivity, ?_, ?_⟩
  · refine lt_of_lt_of_le ?_ piD_le_pi
    unfold piD
    norm_num
  · have e1 : rnd (7074237752028439 / 2 ^ 51 + piD) = 2 * piD := by
      unfold piD
      rw [rnd_eval' (k := 7074237752028440) 50 (by norm_num) (by left; constructor <;> norm_num)
        (by right; exact ⟨Or.inl (by norm_num), by decide⟩)]
      norm_num
    have e2 : 2 * piD / (2 * piD) = 1 := div_self (by linarith [piD_pos])
    have e3 : rnd (2 * piD * 1) = 2 * piD := by
      rw [mul_one]
      refine rnd_rounds.exact ?_
      have := hd 884279719003555 47 (by norm_num) (by norm_num)
      unfold piD
      norm_num at this ⊢
      exact this
    have e4 : rnd (7074237752028439 / 2 ^ 51 - 2 * piD) = 7074237752028439 / 2 ^ 51 - 2 * piD := by
      refine rnd_rounds.exact ?_
      have := hd (-7074237752028441) 51 (by norm_num) (by norm_num)
      unfold piD
      norm_num at this ⊢
      exact this
    unfold Rounded.ceresNormalizeAngle
    rw [e1, e2, rnd_rounds.exact isDouble_one, Int.floor_one, Int.cast_one, e3, e4]
    unfold piD
    norm_num at h2 ⊢
    linarith

/-- A measurement of one metre ahead, and a robot that is there but for 12.5 cm to the left. -/
example : |Rounded.poseError rnd Demo.cosR Demo.sinR ⟨1, 0, 0⟩ ⟨10, 20, 0⟩ ⟨11, 20.125, 0⟩ 1 - 0.125| ≤ 1e-14 := by
  have := (c132_residual rnd_rounds accurate_demo ⟨1, 0, 0⟩ ⟨10, 20, 0⟩ ⟨11, 20.125, 0⟩ (D := 1) (T := 1) (by norm_num) (by norm_num)
    (by norm_num) (by norm_num) (by norm_num) (by norm_num)).2.1
  norm_num [misfit, compose] at this ⊢
  linarith

end

end Ndt
