import Verif.Model.RoundedSolver
import Verif.Proof.RoundedHeading
import Verif.Proof.RoundedPoints
import Verif.Spec.RoundedSolver

/-! # Helper lemmas for residuals in double precision -/

namespace Ndt.Rounded

open Spec

noncomputable section

/-- The way from `a` to `b` as seen from `a`. -/
theorem way_near {rd cosD sinD : ℝ → ℝ} (hrd : RoundsToNearest rd) (hlib : Accurate cosD sinD) (a b : Pose2d) {D : ℝ}
    (hx : |b.x - a.x| ≤ D) (hy : |b.y - a.y| ≤ D) :
    |rd (rd (cosD a.theta * rd (b.x - a.x)) + rd (sinD a.theta * rd (b.y - a.y))) -
        (Real.cos a.theta * (b.x - a.x) + Real.sin a.theta * (b.y - a.y))| ≤ 2e-15 * D + 1e-29 ∧
    |rd (rd (-sinD a.theta * rd (b.x - a.x)) + rd (cosD a.theta * rd (b.y - a.y))) -
        (-Real.sin a.theta * (b.x - a.x) + Real.cos a.theta * (b.y - a.y))| ≤ 2e-15 * D + 1e-29 := by
  have hD : 0 ≤ D := (abs_nonneg _).trans hx
  obtain ⟨c1, s1, c2, s2⟩ := lib_near hlib (a := a.theta) (h := a.theta) (H := 0) (by simp)
  have e1 := rd_near hrd hx
  have e2 := rd_near hrd hy
  have pr : ∀ {c g x X : ℝ}, |g| ≤ 1 → |c| ≤ 1.01 → |c - g| ≤ 0 + 2.3e-16 → |X| ≤ D → |x - X| ≤ 1.2e-16 * D + 1e-30 →
      |rd (c * x) - g * X| ≤ 8e-16 * D + 4e-30 := by
    intro c g x X hg hc hcg hX hxX
    have k1 : |x| ≤ 1.01 * D + 1e-30 := by
      have := abs_sub_abs_le_abs_sub x X
      norm_num at hxX ⊢
      linarith
    have k2 : |c * x| ≤ 1.03 * D + 2e-30 := by
      rw [abs_mul]
      have := mul_le_mul hc k1 (abs_nonneg _) (by norm_num)
      norm_num at this ⊢
      linarith
    have k3 := rd_near hrd k2
    have k4 : |c * (x - X)| ≤ 1.01 * (1.2e-16 * D + 1e-30) := by
      rw [abs_mul]; exact mul_le_mul hc hxX (abs_nonneg _) (by norm_num)
    have k5 : |(c - g) * X| ≤ (0 + 2.3e-16) * D := by
      rw [abs_mul]; exact mul_le_mul hcg hX (abs_nonneg _) (by norm_num)
    have e : rd (c * x) - g * X = (rd (c * x) - c * x) + c * (x - X) + (c - g) * X := by ring
    rw [e]
    have d1 := abs_add_le (rd (c * x) - c * x + c * (x - X)) ((c - g) * X)
    have d2 := abs_add_le (rd (c * x) - c * x) (c * (x - X))
    generalize |c * (x - X)| = A at *
    generalize |(c - g) * X| = B at *
    norm_num at k3 k4 k5 ⊢
    linarith
  have su : ∀ {t1 t2 g1 g2 : ℝ}, |t1 - g1| ≤ 8e-16 * D + 4e-30 → |t2 - g2| ≤ 8e-16 * D + 4e-30 → |g1| ≤ D → |g2| ≤ D →
      |rd (t1 + t2) - (g1 + g2)| ≤ 2e-15 * D + 1e-29 := by
    intro t1 t2 g1 g2 h1 h2 hg1 hg2
    have k1 : |t1 + t2| ≤ 2.1 * D + 1e-29 := by
      have m1 := abs_sub_abs_le_abs_sub t1 g1
      have m2 := abs_sub_abs_le_abs_sub t2 g2
      have m3 := abs_add_le t1 t2
      norm_num at h1 h2 ⊢
      linarith
    have k2 := rd_near hrd k1
    have e : rd (t1 + t2) - (g1 + g2) = (rd (t1 + t2) - (t1 + t2)) + (t1 - g1) + (t2 - g2) := by ring
    rw [e]
    have d1 := abs_add_le (rd (t1 + t2) - (t1 + t2) + (t1 - g1)) (t2 - g2)
    have d2 := abs_add_le (rd (t1 + t2) - (t1 + t2)) (t1 - g1)
    norm_num at h1 h2 k2 ⊢
    linarith
  have g : ∀ {X c : ℝ}, |c| ≤ 1 → |X| ≤ D → |c * X| ≤ D := by
    intro X c h1 h2
    rw [abs_mul]
    have := mul_le_mul h1 h2 (abs_nonneg _) zero_le_one
    linarith
  have hc0 := Real.abs_cos_le_one a.theta
  have hs0 := Real.abs_sin_le_one a.theta
  have hs0' : |(-Real.sin a.theta)| ≤ 1 := by rw [abs_neg]; exact hs0
  have s1' : |(-sinD a.theta) - (-Real.sin a.theta)| ≤ 0 + 2.3e-16 := by rw [neg_sub_neg, abs_sub_comm]; exact s1
  have u := su (pr hc0 c2 c1 hx e1) (pr hs0 s2 s1 hy e2) (g hc0 hx) (g hs0 hy)
  have v := su (pr hs0' (by rw [abs_neg]; exact s2) s1' hx e1) (pr hc0 c2 c1 hy e2) (g hs0' hx) (g hc0 hy)
  exact ⟨u, v⟩

/-- One component of the residual. -/
theorem component_near {rd : ℝ → ℝ} (hrd : RoundsToNearest rd) {w g t D T : ℝ} (hw : |w - g| ≤ 2e-15 * D + 1e-29) (hg : |g| ≤ 2 * D)
    (hD : 0 ≤ D) (ht : |t| ≤ T) : |rd (w - t) - (g - t)| ≤ 3e-15 * D + 1.3e-16 * T + 2e-29 := by
  have h1 := abs_sub_abs_le_abs_sub w g
  have h2 := abs_sub w t
  have h3 := rd_near hrd (x := w - t) (X := 2.1 * D + T + 1e-29) (by norm_num at hw ⊢; linarith)
  have h4 := abs_sub_le (rd (w - t)) (w - t) (g - t)
  have hT : 0 ≤ T := (abs_nonneg t).trans ht
  rw [sub_sub_sub_cancel_right] at h4
  norm_num at h3 hw ⊢
  linarith

/-- The normalisation of angles in the solver. -/
theorem ceresNormalizeAngle_near {rd : ℝ → ℝ} (hrd : RoundsToNearest rd) {a : ℝ} (ha : |a| ≤ 101) :
    |ceresNormalizeAngle rd a| ≤ Real.pi + 6e-14 ∧ ∃ k : ℤ, |ceresNormalizeAngle rd a - (a + k * (2 * Real.pi))| ≤ 3e-14 := by
  have hle := piD_le
  have hge := piD_ge
  have hpi := abs_le.mp piD_near
  have ha' := abs_le.mp ha
  have hb := abs_le.mp (rd_near hrd (x := a + piD) (X := 105) (by rw [abs_le]; constructor <;> linarith))
  unfold ceresNormalizeAngle
  set b := rd (a + piD)
  have hq0 : |b / (2 * piD)| ≤ 17 := by
    rw [abs_div, abs_of_pos (by linarith : 0 < 2 * piD), div_le_iff₀ (by linarith)]
    rw [abs_le]
    norm_num at hb
    constructor <;> linarith [hb.1, hb.2]
  have hq := abs_le.mp (rd_near hrd hq0)
  set q := rd (b / (2 * piD))
  set K := ⌊q⌋
  have k1 : (K : ℝ) ≤ q := Int.floor_le q
  have k2 : q < K + 1 := Int.lt_floor_add_one q
  have hqb := abs_le.mp hq0
  have hKb : |(K : ℝ)| ≤ 18.1 := by
    rw [abs_le]
    norm_num at hq
    constructor <;> linarith [hq.1, hq.2]
  have hp0 : |2 * piD * K| ≤ 114 := by
    rw [abs_mul, abs_of_pos (by linarith : 0 < 2 * piD)]
    have := mul_le_mul (by linarith : 2 * piD ≤ 6.2832) hKb (abs_nonneg _) (by norm_num)
    norm_num at this ⊢
    linarith
  have hp := abs_le.mp (rd_near hrd hp0)
  set p := rd (2 * piD * K)
  -- the remainder
  have e1 : 2 * piD * (b / (2 * piD)) = b := by
    have : (2 * piD) ≠ 0 := by linarith
    field_simp
  have m1 : 2 * piD * q ≤ b + 2 * 3.1416 * (1.2e-16 * 17 + 1e-30) := by
    have := mul_le_mul_of_nonneg_left hq.2 (by linarith : 0 ≤ 2 * piD)
    rw [mul_sub, e1] at this
    have h2 : 2 * piD * (1.2e-16 * 17 + 1e-30) ≤ 2 * 3.1416 * (1.2e-16 * 17 + 1e-30) := by norm_num at hle ⊢; linarith
    linarith
  have m2 : b - 2 * 3.1416 * (1.2e-16 * 17 + 1e-30) ≤ 2 * piD * q := by
    have := mul_le_mul_of_nonneg_left hq.1 (by linarith : 0 ≤ 2 * piD)
    rw [mul_sub, e1] at this
    have h2 : 2 * piD * (1.2e-16 * 17 + 1e-30) ≤ 2 * 3.1416 * (1.2e-16 * 17 + 1e-30) := by norm_num at hle ⊢; linarith
    linarith
  have n1 : 2 * piD * K ≤ 2 * piD * q := mul_le_mul_of_nonneg_left k1 (by linarith)
  have n2 : 2 * piD * q ≤ 2 * piD * K + 2 * piD := by
    have := mul_le_mul_of_nonneg_left k2.le (by linarith : 0 ≤ 2 * piD)
    linarith
  have hrem : |a - p| ≤ piD + 4.5e-14 := by
    rw [abs_le]
    norm_num at hb hp m1 m2 ⊢
    constructor <;> linarith [hb.1, hb.2, hp.1, hp.2]
  have hr := rd_near hrd (hrem.trans (by norm_num at hle ⊢; linarith : piD + 4.5e-14 ≤ 3.15))
  have hr' := abs_le.mp hr
  constructor
  · have hrem' := abs_le.mp hrem
    rw [abs_le]
    norm_num at hr' hrem' hpi ⊢
    constructor <;> linarith [hr'.1, hr'.2, hrem'.1, hrem'.2, hpi.1, hpi.2]
  · refine ⟨-K, ?_⟩
    have h5 : |2 * (piD - Real.pi) * K| ≤ 2 * 1.3e-16 * 18.1 := by
      rw [abs_mul, abs_mul, abs_two]
      exact mul_le_mul (mul_le_mul_of_nonneg_left piD_near (by norm_num)) hKb (abs_nonneg _) (by norm_num)
    have h5' := abs_le.mp h5
    rw [abs_le]
    push_cast
    norm_num at hr' hp h5' ⊢
    constructor <;> nlinarith [hr'.1, hr'.2, hp.1, hp.2, h5'.1, h5'.2]

end

end Ndt.Rounded
