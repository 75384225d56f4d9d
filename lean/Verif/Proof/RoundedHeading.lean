import Verif.Proof.RoundedFilter
import Verif.Proof.RoundedPose
import Verif.Props.RoundedFilterProps
import Verif.Spec.RoundedHeading

/-! # Helper lemmas for mean headings in double precision -/

namespace Ndt.Rounded

open Spec

noncomputable section

/-- Two directions up to full turns, from the components of one along and across the other. -/
theorem turn_le {δ r x y : ℝ} (hr : 0 ≤ r) (hx : x = r * Real.cos δ) (hy : y = r * Real.sin δ) (hpos : 0 < x) :
    ∃ k : ℤ, |δ + k * (2 * Real.pi)| ≤ |y| / x := by
  have hr0 : 0 < r := by
    rcases hr.eq_or_lt with h | h
    · rw [← h, zero_mul] at hx; linarith
    · exact h
  have hcos : 0 < Real.cos δ := by
    by_contra h
    have := mul_nonpos_of_nonneg_of_nonpos hr (not_lt.mp h)
    linarith
  obtain ⟨k, hk⟩ : ∃ k : ℤ, δ + k * (2 * Real.pi) ∈ Set.Ioc (-Real.pi) (-Real.pi + 2 * Real.pi) := by
    obtain ⟨k, hk, -⟩ := existsUnique_add_zsmul_mem_Ioc (by positivity : (0 : ℝ) < 2 * Real.pi) δ (-Real.pi)
    exact ⟨k, by simpa using hk⟩
  refine ⟨k, ?_⟩
  set e := δ + k * (2 * Real.pi) with he
  have c1 : Real.cos e = Real.cos δ := Real.cos_add_int_mul_two_pi δ k
  have s1 : Real.sin e = Real.sin δ := Real.sin_add_int_mul_two_pi δ k
  have hp := Real.pi_pos
  have hlt : |e| < Real.pi / 2 := by
    by_contra h
    push Not at h
    have hle : |e| ≤ Real.pi := abs_le.mpr ⟨hk.1.le, by linarith [hk.2]⟩
    have : Real.cos |e| ≤ 0 := Real.cos_nonpos_of_pi_div_two_le_of_le h (by linarith)
    rw [Real.cos_abs, c1] at this
    linarith
  have h1 : |e| ≤ Real.tan |e| := Real.le_tan (abs_nonneg _) hlt
  refine h1.trans (le_of_eq ?_)
  rw [Real.tan_eq_sin_div_cos, Real.cos_abs, c1, hx, hy, abs_mul, abs_of_pos hr0]
  have : Real.sin |e| = |Real.sin δ| := by
    rw [← s1]
    rcases abs_cases e with ⟨h, h0⟩ | ⟨h, h0⟩
    · rw [h, abs_of_nonneg (Real.sin_nonneg_of_nonneg_of_le_pi h0 (by linarith [hk.2]))]
    · rw [h, Real.sin_neg, abs_of_nonpos (Real.sin_nonpos_of_nonpos_of_neg_pi_le h0.le hk.1.le)]
  rw [this]
  field_simp

/-- The direction of a vector that is near `R (cos mu, sin mu)`. -/
theorem arg_near {c s R mu ε : ℝ} (hε : 0 < ε) (hR : 0 < R) (hc : |c - R * Real.cos mu| ≤ ε) (hs : |s - R * Real.sin mu| ≤ ε) :
    ∃ k : ℤ, |Complex.arg ⟨c, s⟩ - mu + k * (2 * Real.pi)| ≤ 16 * ε / R := by
  have hcs := Real.cos_sq_add_sin_sq mu
  have b1 := Real.abs_cos_le_one mu
  have b2 := Real.abs_sin_le_one mu
  set φ := Complex.arg ⟨c, s⟩ with hφ
  by_cases hbig : R < 4 * ε
  · obtain ⟨k, hk, -⟩ := existsUnique_add_zsmul_mem_Ioc (by positivity : (0 : ℝ) < 2 * Real.pi) (φ - mu) (-Real.pi)
    refine ⟨k, ?_⟩
    have hk' : φ - mu + k * (2 * Real.pi) ∈ Set.Ioc (-Real.pi) (-Real.pi + 2 * Real.pi) := by simpa using hk
    have h1 : |φ - mu + k * (2 * Real.pi)| ≤ Real.pi := abs_le.mpr ⟨hk'.1.le, by linarith [hk'.2]⟩
    have h2 : (4 : ℝ) ≤ 16 * ε / R := by
      rw [le_div_iff₀ hR]
      linarith
    linarith [Real.pi_lt_d2]
  · push Not at hbig
    have e1 : |(c - R * Real.cos mu) * Real.cos mu| ≤ ε := by
      rw [abs_mul]; exact (mul_le_of_le_one_right (abs_nonneg _) b1).trans hc
    have e2 : |(s - R * Real.sin mu) * Real.sin mu| ≤ ε := by
      rw [abs_mul]; exact (mul_le_of_le_one_right (abs_nonneg _) b2).trans hs
    have e3 : |(s - R * Real.sin mu) * Real.cos mu| ≤ ε := by
      rw [abs_mul]; exact (mul_le_of_le_one_right (abs_nonneg _) b1).trans hs
    have e4 : |(c - R * Real.cos mu) * Real.sin mu| ≤ ε := by
      rw [abs_mul]; exact (mul_le_of_le_one_right (abs_nonneg _) b2).trans hc
    have hx : c * Real.cos mu + s * Real.sin mu = R + ((c - R * Real.cos mu) * Real.cos mu + (s - R * Real.sin mu) * Real.sin mu) := by
      linear_combination R * hcs
    have hx1 : R / 2 ≤ c * Real.cos mu + s * Real.sin mu := by
      rw [hx]
      linarith [(abs_le.mp e1).1, (abs_le.mp e2).1]
    have hy1 : |s * Real.cos mu - c * Real.sin mu| ≤ 2 * ε := by
      have : s * Real.cos mu - c * Real.sin mu = (s - R * Real.sin mu) * Real.cos mu - (c - R * Real.cos mu) * Real.sin mu := by ring
      rw [this]
      exact (abs_sub _ _).trans (by linarith)
    have p1 : c = ‖(⟨c, s⟩ : ℂ)‖ * Real.cos φ := (Complex.norm_mul_cos_arg ⟨c, s⟩).symm
    have p2 : s = ‖(⟨c, s⟩ : ℂ)‖ * Real.sin φ := (Complex.norm_mul_sin_arg ⟨c, s⟩).symm
    obtain ⟨k, hk⟩ := turn_le (δ := φ - mu) (r := ‖(⟨c, s⟩ : ℂ)‖) (x := c * Real.cos mu + s * Real.sin mu)
      (y := s * Real.cos mu - c * Real.sin mu) (norm_nonneg _)
      (by rw [Real.cos_sub]; nth_rewrite 1 [p1]; nth_rewrite 2 [p2]; ring)
      (by rw [Real.sin_sub]; nth_rewrite 1 [p2]; nth_rewrite 2 [p1]; ring) (by linarith)
    refine ⟨k, hk.trans ?_⟩
    rw [div_le_div_iff₀ (by linarith) hR]
    nlinarith

/-- Means of two quantities that differ little. -/
theorem weightedMean_near {f g : Pose2d → ℝ} {l : List (ℝ × Pose2d)} (h : Weighted l) {δ : ℝ} (hfg : ∀ a ∈ l, |f a.2 - g a.2| ≤ δ) :
    |weightedMean f l - weightedMean g l| ≤ δ := by
  have hS : 0 < total (·.1) l := lt_of_lt_of_le (by positivity) h.sum
  rw [weightedMean_eq, weightedMean_eq]
  refine (total_near (h := fun a => δ * (a.1 / total (·.1) l)) fun a ha => ?_).trans ?_
  · have hq := div_nonneg (h.nonneg a ha) hS.le
    rw [← mul_sub, abs_mul, abs_of_nonneg hq, mul_comm]
    exact mul_le_mul_of_nonneg_right (hfg a ha) hq
  · rw [total_mul, total_shares h.sum, mul_one]

/-- The mean of a cosine or sine. -/
theorem mean_trig {rd : ℝ → ℝ} (hrd : RoundsToNearest rd) {l : List (ℝ × Pose2d)} (h : Weighted l) {f g : Pose2d → ℝ}
    (hg : ∀ p, |g p| ≤ 1) (hfg : ∀ p, |f p - g p| ≤ 2⁻¹ ^ 52) :
    |mean rd f l - weightedMean g l| ≤ l.length * 2⁻¹ ^ 46 := by
  have hl := length_pos' h.sum
  have h1 := c115_mean hrd (f := f) (B := 2) (l := l) ⟨h.nonneg, h.sum, fun a _ => by
    have := abs_sub_abs_le_abs_sub (f a.2) (g a.2)
    have e1 := hg a.2
    have e2 := hfg a.2
    norm_num at e2
    linarith, by norm_num, h.count⟩
  have h2 := weightedMean_near h (f := f) (g := g) fun a _ => hfg a.2
  have h3 := abs_sub_le (mean rd f l) (weightedMean f l) (weightedMean g l)
  norm_num at h1 h2 ⊢
  linarith

theorem isDouble_piD : IsDouble piD := by
  have := isDouble_dyadic (k := 884279719003555) (e := -48) (by norm_num) (by norm_num)
  norm_num at this
  unfold piD
  norm_num
  exact this

theorem piD_le_pi : piD ≤ Real.pi := by
  have := Real.pi_gt_d20
  unfold piD
  norm_num at this ⊢
  linarith

/-- A normalised angle is at most half a turn, exactly. -/
theorem normalizeAngle_le {rd : ℝ → ℝ} (hrd : RoundsToNearest rd) (a : ℝ) : |normalizeAngle rd a| ≤ Real.pi := by
  refine le_trans ?_ piD_le_pi
  have hp := piD_pos
  have hx := abs_lt.mp (truncZ_abs_sub_lt (rd (a + piD) / (2 * piD)))
  have e : fmod (rd (a + piD)) (2 * piD) = 2 * piD * (rd (a + piD) / (2 * piD) - truncZ (rd (a + piD) / (2 * piD))) := by
    unfold fmod
    field_simp
  have h1 : fmod (rd (a + piD)) (2 * piD) < 2 * piD := by rw [e]; nlinarith [hx.2]
  have h2 : -(2 * piD) < fmod (rd (a + piD)) (2 * piD) := by rw [e]; nlinarith [hx.1]
  unfold normalizeAngle
  dsimp only
  split
  · exact abs_le.mpr ⟨hrd.ge_of_ge (isDouble_neg isDouble_piD) (by linarith), hrd.le_of_le isDouble_piD (by linarith)⟩
  · exact abs_le.mpr ⟨hrd.ge_of_ge (isDouble_neg isDouble_piD) (by linarith), hrd.le_of_le isDouble_piD (by linarith)⟩

theorem arccos_cos_near {x δ : ℝ} (h0 : 0 ≤ δ) (hδ : δ ≤ 1) (hx : |x| ≤ Real.pi + δ) : |(|x| - Real.arccos (Real.cos x))| ≤ 2 * δ := by
  have hp := Real.pi_gt_three
  rw [← Real.cos_abs]
  by_cases h : |x| ≤ Real.pi
  · rw [Real.arccos_cos (abs_nonneg _) h, sub_self, abs_zero]
    linarith
  · push Not at h
    rw [← Real.cos_two_pi_sub, Real.arccos_cos (by linarith) (by linarith), abs_le]
    constructor <;> linarith

/-- The computed angle between two headings. -/
theorem shortest_turn {rd : ℝ → ℝ} (hrd : RoundsToNearest rd) {a b : ℝ} (ha : |a| ≤ 3.5) (hb : |b| ≤ 3.5) :
    |shortestAngularDistance rd a b| ≤ Real.pi ∧ |(|shortestAngularDistance rd a b| - turnBetween a b)| ≤ 1.2e-14 := by
  have h1 : |shortestAngularDistance rd a b| ≤ Real.pi := normalizeAngle_le hrd _
  refine ⟨h1, ?_⟩
  obtain ⟨-, n, hn⟩ := shortest_near hrd ha hb
  set d := shortestAngularDistance rd a b
  have e1 : turnBetween a b = Real.arccos (Real.cos (b - a + n * (2 * Real.pi))) := by
    unfold turnBetween
    rw [Real.cos_add_int_mul_two_pi, ← Real.cos_neg, neg_sub]
  rw [e1]
  set x := b - a + n * (2 * Real.pi)
  have h2 := abs_abs_sub_abs_le_abs_sub d x
  have h2' := abs_le.mp (h2.trans hn)
  have h3 := arccos_cos_near (x := x) (δ := 4e-15) (by norm_num) (by norm_num) (by linarith [h2'.1])
  have h4 := abs_sub_le (|d|) (|x|) (Real.arccos (Real.cos x))
  have h5 := h2.trans hn
  norm_num at h3 h5 ⊢
  linarith

/-- One term `w x y` of a sum, computed in double precision. -/
theorem corr_term {rd : ℝ → ℝ} (hrd : RoundsToNearest rd) {r x y B : ℝ} (hB : 0 < B) (hx : |x| ≤ B) (hy : |y| ≤ B) :
    |rd (rd (r * x) * y) - r * (x * y)| ≤ 2⁻¹ ^ 51 * B ^ 2 * |r| + 2⁻¹ ^ 240 * (B ^ 2 + 1) := by
  have h1 : |r * x| ≤ |r| * B := by
    rw [abs_mul]; exact mul_le_mul_of_nonneg_left hx (abs_nonneg _)
  have h2 := rd_err hrd h1
  have hrB : 0 ≤ |r| * B := by positivity
  have h3 : |rd (r * x)| ≤ 1.1 * (|r| * B) + 2⁻¹ ^ 250 := by
    have := abs_sub_abs_le_abs_sub (rd (r * x)) (r * x)
    norm_num at h2 ⊢
    linarith
  have h4 : |rd (r * x) * y| ≤ (1.1 * (|r| * B) + 2⁻¹ ^ 250) * B := by
    rw [abs_mul]
    exact mul_le_mul h3 hy (abs_nonneg _) (by positivity)
  have h5 := rd_err hrd h4
  have h6 : |rd (r * x) * y - r * (x * y)| ≤ (2⁻¹ ^ 53 * (|r| * B) + 2⁻¹ ^ 250) * B := by
    rw [← mul_assoc, ← sub_mul, abs_mul]
    exact mul_le_mul h2 hy (abs_nonneg _) (by positivity)
  have h7 := abs_sub_le (rd (rd (r * x) * y)) (rd (r * x) * y) (r * (x * y))
  refine h7.trans ((add_le_add h5 h6).trans ?_)
  have q1 : (0 : ℝ) ≤ |r| * B ^ 2 := by positivity
  have q2 : 2⁻¹ ^ 53 * ((1.1 * (|r| * B) + 2⁻¹ ^ 250) * B) + 2⁻¹ ^ 250 + (2⁻¹ ^ 53 * (|r| * B) + 2⁻¹ ^ 250) * B
      = 2⁻¹ ^ 53 * 2.1 * (|r| * B ^ 2) + 2⁻¹ ^ 250 * ((1 + 2⁻¹ ^ 53) * B + 1) := by ring
  have q3 : (2⁻¹ : ℝ) ^ 53 * 2.1 * (|r| * B ^ 2) ≤ 2⁻¹ ^ 51 * B ^ 2 * |r| := by
    norm_num
    linarith
  have q4 : (2⁻¹ : ℝ) ^ 250 * ((1 + 2⁻¹ ^ 53) * B + 1) ≤ 2⁻¹ ^ 240 * (B ^ 2 + 1) := by
    have e1 : (1 + 2⁻¹ ^ 53) * B + 1 ≤ 2 * (B ^ 2 + 1) := by
      norm_num
      nlinarith [sq_nonneg (B - 1)]
    have e2 := mul_le_mul_of_nonneg_left e1 (by positivity : (0 : ℝ) ≤ 2⁻¹ ^ 250)
    refine e2.trans ?_
    have e3 : (2⁻¹ : ℝ) ^ 250 * (2 * (B ^ 2 + 1)) = 2⁻¹ ^ 249 * (B ^ 2 + 1) := by ring
    rw [e3]
    exact mul_le_mul_of_nonneg_right (pow_le_pow_of_le_one (by norm_num) (by norm_num) (by norm_num)) (by positivity)
  rw [q2]
  exact add_le_add q3 q4

end

end Ndt.Rounded
