import Verif.Model.RoundedPose
import Verif.Spec.RoundedPose
import Verif.Proof.Double
import Verif.Proof.Angles
import Mathlib.Analysis.Real.Pi.Bounds

/-! # Rounding of predicted poses -/

namespace Ndt.Rounded

noncomputable section

open Real Spec

theorem halfMin_tiny : halfMin ≤ 1e-30 := by
  unfold halfMin
  have : (2⁻¹ : ℝ) ^ 1075 ≤ 2⁻¹ ^ 100 := pow_le_pow_of_le_one (by norm_num) (by norm_num) (by norm_num)
  refine this.trans ?_
  norm_num

/-- The error of one operation, with round numbers. -/
theorem rd_near {rd : ℝ → ℝ} (hrd : RoundsToNearest rd) {x X : ℝ} (h : |x| ≤ X) : |rd x - x| ≤ 1.2e-16 * X + 1e-30 := by
  have h1 := hrd.error x
  have h2 := halfMin_tiny
  have h3 : (2⁻¹ : ℝ) ^ 53 * |x| ≤ 1.2e-16 * X := mul_le_mul (by norm_num) h (abs_nonneg _) (by norm_num)
  linarith

theorem piD_near : |piD - π| ≤ 1.3e-16 := by
  have h1 := pi_gt_d20
  have h2 := pi_lt_d20
  unfold piD
  rw [abs_le]
  constructor <;> norm_num at * <;> linarith

theorem piD_pos : 0 < piD := by unfold piD; norm_num
theorem piD_le : piD ≤ 3.1416 := by unfold piD; norm_num
theorem piD_ge : 3.1415 ≤ piD := by unfold piD; norm_num

theorem normalizeAngle_near {rd : ℝ → ℝ} (hrd : RoundsToNearest rd) {a : ℝ} (ha : |a| ≤ 7.1) :
    |normalizeAngle rd a| ≤ 3.15 ∧ ∃ n : ℤ, |normalizeAngle rd a - (a + n * (2 * π))| ≤ 3e-15 := by
  have hp := piD_pos
  have hle := piD_le
  have hge := piD_ge
  have hpi := abs_le.mp piD_near
  have ha' := abs_le.mp ha
  have hb := abs_le.mp (rd_near hrd (x := a + piD) (X := 10.25) (by rw [abs_le]; constructor <;> linarith))
  unfold normalizeAngle fmod
  dsimp only
  set b := rd (a + piD)
  have hx := abs_lt.mp (truncZ_abs_sub_lt (b / (2 * piD)))
  set k := truncZ (b / (2 * piD))
  have e : b - 2 * piD * k = 2 * piD * (b / (2 * piD) - k) := by field_simp
  have hr1 : b - 2 * piD * k < 2 * piD := by rw [e]; nlinarith [hx.2]
  have hr2 : -(2 * piD) < b - 2 * piD * k := by rw [e]; nlinarith [hx.1]
  -- the quotient is -1, 0 or 1, or 2
  have hk1 : (k : ℝ) < 3 := by nlinarith
  have hk2 : (-3 : ℝ) < k := by nlinarith
  have hk1' : k ≤ 2 := by have : k < 3 := by exact_mod_cast hk1
                          omega
  have hk2' : -2 ≤ k := by have : -3 < k := by exact_mod_cast hk2
                           omega
  have hk3 : (k : ℝ) ≤ 2 := by exact_mod_cast hk1'
  have hk4 : (-2 : ℝ) ≤ k := by exact_mod_cast hk2'
  have key : ∀ m : ℝ, |m| ≤ 3 → |2 * (piD - π) * m| ≤ 7.8e-16 := by
    intro m hm
    rw [abs_mul, abs_mul, abs_two]
    have := mul_le_mul piD_near hm (abs_nonneg _) (by norm_num)
    norm_num at this ⊢
    linarith
  norm_num at hb
  split
  · rename_i h0
    have h1 := rd_near hrd (x := b - 2 * piD * k + piD) (X := 3.1416) (by rw [abs_le]; constructor <;> linarith)
    have h1' := abs_le.mp h1
    constructor
    · rw [abs_le]
      norm_num at h1' ⊢
      constructor <;> linarith [h1'.1, h1'.2]
    · refine ⟨1 - k, ?_⟩
      have h2 := abs_le.mp (key (1 - k) (by rw [abs_le]; constructor <;> linarith))
      rw [abs_le]
      push_cast
      norm_num at h1' h2 ⊢
      constructor <;> nlinarith [h1'.1, h1'.2, hb.1, hb.2, h2.1, h2.2]
  · rename_i h0
    have h1 := rd_near hrd (x := b - 2 * piD * k - piD) (X := 3.1416) (by rw [abs_le]; constructor <;> linarith)
    have h1' := abs_le.mp h1
    constructor
    · rw [abs_le]
      norm_num at h1' ⊢
      constructor <;> linarith [h1'.1, h1'.2]
    · refine ⟨-k, ?_⟩
      have h2 := abs_le.mp (key (-k) (by rw [abs_le]; constructor <;> linarith))
      rw [abs_le]
      push_cast
      norm_num at h1' h2 ⊢
      constructor <;> nlinarith [h1'.1, h1'.2, hb.1, hb.2, h2.1, h2.2]

theorem shortest_near {rd : ℝ → ℝ} (hrd : RoundsToNearest rd) {a b : ℝ} (ha : |a| ≤ 3.5) (hb : |b| ≤ 3.5) :
    |shortestAngularDistance rd a b| ≤ 3.15 ∧
    ∃ n : ℤ, |shortestAngularDistance rd a b - (b - a + n * (2 * π))| ≤ 4e-15 := by
  unfold shortestAngularDistance
  have ha' := abs_le.mp ha
  have hb' := abs_le.mp hb
  have h1 := abs_le.mp (rd_near hrd (x := b - a) (X := 7) (by rw [abs_le]; constructor <;> linarith))
  obtain ⟨h2, n, h3⟩ := normalizeAngle_near hrd (a := rd (b - a)) (by
    rw [abs_le]; norm_num at h1 ha' hb' ⊢; constructor <;> linarith [h1.1, h1.2])
  refine ⟨h2, n, ?_⟩
  have h3' := abs_le.mp h3
  rw [abs_le]
  norm_num at h1 h3' ⊢
  constructor <;> linarith [h1.1, h1.2, h3'.1, h3'.2]

/-- One product of a coordinate with a cosine or sine. -/
theorem product_near {rd : ℝ → ℝ} (hrd : RoundsToNearest rd) {D c g L ε : ℝ} (hD : |D| ≤ L) (hg : |g| ≤ 1) (hc1 : |c| ≤ 1.01)
    (hc : |c - g| ≤ ε) : |rd (rd D * c) - D * g| ≤ L * (ε + 3e-16) + 4e-30 := by
  have hL : 0 ≤ L := (abs_nonneg D).trans hD
  have h1 := rd_near hrd hD
  have h2 : |rd D| ≤ 1.01 * L + 1e-30 := by
    have := abs_sub_abs_le_abs_sub (rd D) D
    norm_num at h1 ⊢
    linarith
  have h3 : |rd D * c| ≤ 1.03 * L + 2e-30 := by
    rw [abs_mul]
    have := mul_le_mul h2 hc1 (abs_nonneg _) (by norm_num; linarith)
    norm_num at this ⊢
    linarith
  have h4 := rd_near hrd h3
  have h5 : |rd D * c - D * g| ≤ (1.2e-16 * L + 1e-30) * 1.01 + L * ε := by
    rw [show rd D * c - D * g = (rd D - D) * c + D * (c - g) by ring]
    refine (abs_add_le _ _).trans (add_le_add ?_ ?_)
    · rw [abs_mul]; exact mul_le_mul h1 hc1 (abs_nonneg _) (by norm_num; linarith)
    · rw [abs_mul]; exact mul_le_mul hD hc (abs_nonneg _) hL
  have h6 := abs_sub_le (rd (rd D * c)) (rd D * c) (D * g)
  norm_num at h4 h5 ⊢
  linarith

/-- Two products added to a coordinate. -/
theorem sum_near {rd : ℝ → ℝ} (hrd : RoundsToNearest rd) {x t1 t2 g1 g2 B L δ : ℝ} (hx : |x| ≤ B)
    (h1 : |t1 - g1| ≤ δ) (h2 : |t2 - g2| ≤ δ) (hg1 : |g1| ≤ L) (hg2 : |g2| ≤ L) (hδ : δ ≤ L + 1e-28) :
    |rd (rd (x + t1) + t2) - (x + g1 + g2)| ≤ 2 * δ + 3e-16 * B + 8e-16 * L + 1e-29 := by
  have hL : 0 ≤ L := (abs_nonneg _).trans hg1
  have hB : 0 ≤ B := (abs_nonneg _).trans hx
  have a1 : |t1| ≤ 2 * L + 1e-28 := by
    have := abs_sub_abs_le_abs_sub t1 g1
    linarith
  have a2 : |t2| ≤ 2 * L + 1e-28 := by
    have := abs_sub_abs_le_abs_sub t2 g2
    linarith
  have b1 : |x + t1| ≤ B + (2 * L + 1e-28) := (abs_add_le _ _).trans (add_le_add hx a1)
  have c1 := rd_near hrd b1
  have b2 : |rd (x + t1) + t2| ≤ 1.01 * B + 4.1 * L + 3e-28 := by
    have e1 := abs_sub_abs_le_abs_sub (rd (x + t1)) (x + t1)
    have e2 := abs_add_le (rd (x + t1)) t2
    norm_num at c1 a2 b1 ⊢
    linarith
  have c2 := rd_near hrd b2
  have e : rd (rd (x + t1) + t2) - (x + g1 + g2) =
      (rd (rd (x + t1) + t2) - (rd (x + t1) + t2)) + (rd (x + t1) - (x + t1)) + (t1 - g1) + (t2 - g2) := by ring
  rw [e]
  have d1 := abs_add_le (rd (rd (x + t1) + t2) - (rd (x + t1) + t2) + (rd (x + t1) - (x + t1)) + (t1 - g1)) (t2 - g2)
  have d2 := abs_add_le (rd (rd (x + t1) + t2) - (rd (x + t1) + t2) + (rd (x + t1) - (x + t1))) (t1 - g1)
  have d3 := abs_add_le (rd (rd (x + t1) + t2) - (rd (x + t1) + t2)) (rd (x + t1) - (x + t1))
  norm_num at c1 c2 ⊢
  linarith

end

end Ndt.Rounded
