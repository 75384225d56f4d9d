import Verif.Model.Angles

/-! # Lemmas about angles -/

namespace Ndt

noncomputable section

open Real

theorem truncZ_abs_sub_lt (x : ℝ) : |x - truncZ x| < 1 := by
  unfold truncZ
  split
  · rw [abs_lt]
    constructor <;> linarith [Int.floor_le x, Int.lt_floor_add_one x]
  · rw [abs_lt]
    constructor <;> linarith [Int.le_ceil x, Int.ceil_lt_add_one x]

theorem truncZ_le_of_nonneg {x : ℝ} (h : 0 ≤ x) : (truncZ x : ℝ) ≤ x := by
  rw [truncZ_of_nonneg h]; exact Int.floor_le x

theorem le_truncZ_of_neg {x : ℝ} (h : x < 0) : x ≤ (truncZ x : ℝ) := by
  unfold truncZ; rw [if_neg (by linarith)]; exact Int.le_ceil x

/-- `normalize_angle` is congruent to its argument. -/
theorem normalizeAngle_congr (a : ℝ) : ∃ n : ℤ, normalizeAngle a = a + n * (2 * π) := by
  unfold normalizeAngle fmod
  simp only
  split
  · exact ⟨1 - truncZ ((a + π) / (2 * π)), by push_cast; ring⟩
  · exact ⟨-truncZ ((a + π) / (2 * π)), by push_cast; ring⟩

/-- `normalize_angle` lies in (-pi, pi]. -/
theorem normalizeAngle_mem (a : ℝ) : -π < normalizeAngle a ∧ normalizeAngle a ≤ π := by
  have hp : 0 < 2 * π := by positivity
  have h := abs_lt.mp (truncZ_abs_sub_lt ((a + π) / (2 * π)))
  have e : a + π - 2 * π * truncZ ((a + π) / (2 * π)) =
      2 * π * ((a + π) / (2 * π) - truncZ ((a + π) / (2 * π))) := by
    field_simp
  unfold normalizeAngle fmod
  simp only
  rw [e]
  generalize (a + π) / (2 * π) - truncZ ((a + π) / (2 * π)) = d at *
  have l1 : -(2 * π) < 2 * π * d := by nlinarith [h.1]
  have l2 : 2 * π * d < 2 * π := by nlinarith [h.2]
  split
  · constructor <;> linarith
  · constructor <;> linarith

/-- Two angles in (-pi, pi] that are congruent are equal. -/
theorem angle_unique {a b : ℝ} (n : ℤ) (h : a = b + n * (2 * π)) (ha : -π < a ∧ a ≤ π) (hb : -π < b ∧ b ≤ π) :
    a = b := by
  have hp : 0 < 2 * π := by positivity
  have h1 : (n : ℝ) * (2 * π) < 1 * (2 * π) := by linarith
  have h2 : (-1 : ℝ) * (2 * π) < n * (2 * π) := by linarith
  have h3 := lt_of_mul_lt_mul_right h1 hp.le
  have h4 := lt_of_mul_lt_mul_right h2 hp.le
  have h5 : n < 1 := by exact_mod_cast h3
  have h6 : -1 < n := by exact_mod_cast h4
  have : n = 0 := by omega
  rw [h, this]; simp

theorem normalizeAngle_eq_of_congr {a b : ℝ} (n : ℤ) (h : a = b + n * (2 * π)) :
    normalizeAngle a = normalizeAngle b := by
  obtain ⟨k, hk⟩ := normalizeAngle_congr a
  obtain ⟨l, hl⟩ := normalizeAngle_congr b
  refine angle_unique (k + n - l) ?_ (normalizeAngle_mem a) (normalizeAngle_mem b)
  rw [hk, hl, h]; push_cast; ring

theorem normalizeAngle_of_mem {a : ℝ} (h : -π < a ∧ a ≤ π) : normalizeAngle a = a := by
  obtain ⟨n, hn⟩ := normalizeAngle_congr a
  exact angle_unique n hn (normalizeAngle_mem a) h

theorem normalizeAngle_neg_abs (a : ℝ) : |normalizeAngle (-a)| = |normalizeAngle a| := by
  by_cases h : normalizeAngle a = π
  · obtain ⟨n, hn⟩ := normalizeAngle_congr a
    have : normalizeAngle (-a) = π := by
      rw [normalizeAngle_eq_of_congr (b := π) (n - 1) (by push_cast; linarith),
        normalizeAngle_of_mem ⟨by linarith [pi_pos], le_rfl⟩]
    rw [this, h]
  · obtain ⟨n, hn⟩ := normalizeAngle_congr a
    have hm := normalizeAngle_mem a
    have : normalizeAngle (-a) = -normalizeAngle a := by
      rw [normalizeAngle_eq_of_congr (b := -normalizeAngle a) n (by rw [hn]; ring), normalizeAngle_of_mem]
      constructor
      · have := lt_of_le_of_ne hm.2 h
        linarith
      · linarith
    rw [this, abs_neg]

theorem cos_normalizeAngle (a : ℝ) : cos (normalizeAngle a) = cos a := by
  obtain ⟨n, hn⟩ := normalizeAngle_congr a
  rw [hn, cos_add_int_mul_two_pi]

theorem sin_normalizeAngle (a : ℝ) : sin (normalizeAngle a) = sin a := by
  obtain ⟨n, hn⟩ := normalizeAngle_congr a
  rw [hn, sin_add_int_mul_two_pi]

theorem norm_mk (x y : ℝ) : ‖(⟨x, y⟩ : ℂ)‖ = hypot x y := by
  rw [Complex.norm_def, Complex.normSq_mk, hypot]
  congr 1; ring

theorem hypot_mul_cos_atan2 (x y : ℝ) : hypot x y * cos (atan2 y x) = x := by
  rw [← norm_mk, atan2, Complex.norm_mul_cos_arg]

theorem hypot_mul_sin_atan2 (x y : ℝ) : hypot x y * sin (atan2 y x) = y := by
  rw [← norm_mk, atan2, Complex.norm_mul_sin_arg]

theorem atan2_mem (y x : ℝ) : -π < atan2 y x ∧ atan2 y x ≤ π := Complex.arg_mem_Ioc _

theorem hypot_nonneg (x y : ℝ) : 0 ≤ hypot x y := Real.sqrt_nonneg _

theorem hypot_sq (x y : ℝ) : hypot x y ^ 2 = x ^ 2 + y ^ 2 := Real.sq_sqrt (by positivity)

/-- `atan2` of a point at angle `t` on a circle of positive radius is `t` up to full turns. -/
theorem atan2_polar {r : ℝ} (hr : 0 < r) (t : ℝ) : atan2 (r * sin t) (r * cos t) = normalizeAngle t := by
  have h := Complex.arg_mul_cos_add_sin_mul_I (r := r) hr (θ := normalizeAngle t)
    (by exact normalizeAngle_mem t)
  rw [← h, atan2]
  congr 1
  apply Complex.ext <;> simp [← Complex.ofReal_cos, ← Complex.ofReal_sin, cos_normalizeAngle, sin_normalizeAngle]

/-- Two angles with the same cosine and sine differ by full turns. -/
theorem congr_of_cos_sin {a b : ℝ} (hc : cos a = cos b) (hs : sin a = sin b) : ∃ n : ℤ, a = b + n * (2 * π) := by
  have h : normalizeAngle a = normalizeAngle b := by
    rw [← atan2_polar one_pos a, ← atan2_polar one_pos b, hc, hs]
  obtain ⟨k, hk⟩ := normalizeAngle_congr a
  obtain ⟨l, hl⟩ := normalizeAngle_congr b
  refine ⟨l - k, ?_⟩
  push_cast
  linarith

/-- Yaw of the quaternion of a half angle. -/
theorem getYaw_half (t : ℝ) : getYaw ⟨sin (t / 2), cos (t / 2)⟩ = normalizeAngle t := by
  unfold getYaw
  have h1 : 2 * (cos (t / 2) * sin (t / 2)) = 1 * sin t := by
    have := sin_two_mul (t / 2)
    rw [show 2 * (t / 2) = t by ring] at this
    rw [this]; ring
  have h2 : cos (t / 2) ^ 2 - sin (t / 2) ^ 2 = 1 * cos t := by
    have := cos_two_mul' (t / 2)
    rw [show 2 * (t / 2) = t by ring] at this
    rw [this]; ring
  simp only
  rw [h1, h2, atan2_polar one_pos]

end

end Ndt
