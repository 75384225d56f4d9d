import Verif.Spec.Orientation
import Verif.Proof.Angles
import Mathlib.Tactic.LinearCombination
import Mathlib.Tactic.Linarith
import Mathlib.Tactic.NormNum
import Mathlib.Tactic.Positivity
import Mathlib.Tactic.FieldSimp

/-! # Helper lemmas about rotations in space -/

namespace Ndt

noncomputable section

open Spec

theorem upwards_eq (q : Quat) : upwards q = q.w ^ 2 + q.z ^ 2 - q.x ^ 2 - q.y ^ 2 := by
  simp only [upwards, rotate, qmul, qconj]
  ring

theorem rotate_x (q : Quat) (u v : ℝ) : (rotate q ⟨u, v, 0⟩).x =
    (q.w * q.w + q.x * q.x - q.y * q.y - q.z * q.z) * u + 2 * (q.x * q.y - q.w * q.z) * v := by
  simp only [rotate, qmul, qconj]
  ring

theorem rotate_y (q : Quat) (u v : ℝ) : (rotate q ⟨u, v, 0⟩).y =
    2 * (q.x * q.y + q.w * q.z) * u + (q.w * q.w - q.x * q.x + q.y * q.y - q.z * q.z) * v := by
  simp only [rotate, qmul, qconj]
  ring

/-- The error of a nearly flat mounting, in the entries of the matrix. -/
theorem flat_error {a b d e f g h s c u v : ℝ} (hc : 0 < c) (hcc : c ^ 2 = a ^ 2 + b ^ 2) (n1 : a ^ 2 + b ^ 2 + d ^ 2 = 1)
    (ho : a * e + b * f + d * g = 0) (hh : h = a * f - b * e) (hs : s ^ 2 = 1) (b1 : d ^ 2 ≤ 0.0032) (b2 : g ^ 2 ≤ 0.0032)
    (b3 : |s - h| ≤ 0.0016) :
    ((a / c - a) * u + (-(s * b / c) - e) * v) ^ 2 + ((b / c - b) * u + (s * a / c - f) * v) ^ 2 ≤
      (1 / 100) ^ 2 * (u ^ 2 + v ^ 2) := by
  have hcl : 0.9983 ≤ c := by
    by_contra hlt
    push Not at hlt
    nlinarith
  have hcu : c ≤ 1 := by nlinarith [sq_nonneg d]
  have hcne : c ≠ 0 := ne_of_gt hc
  -- in the frame of the first column
  have key : ((a / c - a) * u + (-(s * b / c) - e) * v) ^ 2 + ((b / c - b) * u + (s * a / c - f) * v) ^ 2 =
      ((1 - c) * u + d * g / c * v) ^ 2 + ((s - h / c) * v) ^ 2 := by
    have e1 : (a * ((a / c - a) * u + (-(s * b / c) - e) * v) + b * ((b / c - b) * u + (s * a / c - f) * v)) / c =
        (1 - c) * u + d * g / c * v := by
      field_simp
      linear_combination (c * u - u) * hcc - v * c * ho
    have e2 : (-b * ((a / c - a) * u + (-(s * b / c) - e) * v) + a * ((b / c - b) * u + (s * a / c - f) * v)) / c =
        (s - h / c) * v := by
      rw [hh]
      field_simp
      linear_combination (-s * v) * hcc
    rw [← e1, ← e2]
    field_simp
    linear_combination (((a - a * c) * u + (-(s * b) - e * c) * v) ^ 2 + ((b - b * c) * u + (s * a - f * c) * v) ^ 2) * hcc
  rw [key]
  have hi : 1 / c ≤ 1.00171 := by
    rw [div_le_iff₀ hc]; nlinarith
  have hi1 : 1 ≤ 1 / c := by
    rw [le_div_iff₀ hc]; linarith
  have k1 : (1 - c) ^ 2 ≤ 0.0017 ^ 2 := by
    apply pow_le_pow_left₀ (by linarith)
    linarith
  have k2 : (d * g / c) ^ 2 ≤ 0.0033 ^ 2 := by
    have : (d * g / c) ^ 2 = d ^ 2 * g ^ 2 * (1 / c) ^ 2 := by field_simp
    rw [this]
    have t1 : d ^ 2 * g ^ 2 ≤ 0.0032 * 0.0032 := mul_le_mul b1 b2 (sq_nonneg _) (by norm_num)
    have t2 : (1 / c) ^ 2 ≤ 1.00171 ^ 2 := pow_le_pow_left₀ (by linarith) hi 2
    calc d ^ 2 * g ^ 2 * (1 / c) ^ 2 ≤ 0.0032 * 0.0032 * 1.00171 ^ 2 :=
          mul_le_mul t1 t2 (sq_nonneg _) (by norm_num)
      _ ≤ 0.0033 ^ 2 := by norm_num
  have k3 : (s - h / c) ^ 2 ≤ 0.0034 ^ 2 := by
    have hb := abs_le.mp b3
    have hs1 : |s| = 1 := by
      rw [← abs_one, ← sq_eq_sq_iff_abs_eq_abs, hs, one_pow]
    have hh1 : |h| ≤ 1.0016 := by
      have : |h| ≤ |s| + |s - h| := by
        have := abs_sub_abs_le_abs_sub h s
        rw [abs_sub_comm] at this
        linarith
      linarith
    have : |s - h / c| ≤ 0.0034 := by
      have e : s - h / c = (s - h) - h * (1 / c - 1) := by ring
      rw [e]
      calc |(s - h) - h * (1 / c - 1)| ≤ |s - h| + |h * (1 / c - 1)| := abs_sub _ _
        _ = |s - h| + |h| * (1 / c - 1) := by rw [abs_mul, abs_of_nonneg (by linarith : 0 ≤ 1 / c - 1)]
        _ ≤ 0.0016 + 1.0016 * 0.00171 := by
            have := mul_le_mul hh1 (by linarith : 1 / c - 1 ≤ 0.00171) (by linarith) (by norm_num)
            linarith
        _ ≤ 0.0034 := by norm_num
    have := pow_le_pow_left₀ (abs_nonneg _) this 2
    rwa [sq_abs] at this
  have m1 : ((1 - c) * u + d * g / c * v) ^ 2 ≤ ((1 - c) ^ 2 + (d * g / c) ^ 2) * (u ^ 2 + v ^ 2) := by
    nlinarith [sq_nonneg ((1 - c) * v - d * g / c * u)]
  have m2 : ((s - h / c) * v) ^ 2 ≤ 0.0034 ^ 2 * (u ^ 2 + v ^ 2) := by
    rw [mul_pow]
    exact mul_le_mul k3 (by nlinarith [sq_nonneg u]) (sq_nonneg _) (by norm_num)
  have m3 : ((1 - c) ^ 2 + (d * g / c) ^ 2) * (u ^ 2 + v ^ 2) ≤ (0.0017 ^ 2 + 0.0033 ^ 2) * (u ^ 2 + v ^ 2) :=
    mul_le_mul_of_nonneg_right (add_le_add k1 k2) (by positivity)
  have : (0.0017 ^ 2 + 0.0033 ^ 2 + 0.0034 ^ 2 : ℝ) ≤ (1 / 100) ^ 2 := by norm_num
  have m4 := mul_le_mul_of_nonneg_right this (by positivity : 0 ≤ u ^ 2 + v ^ 2)
  linarith

/-- Away from the poles the heading is the direction of the first column. -/
theorem getYaw_off_pole {q : Quat} (h : UnitQ q) (hp : |2 * (q.x * q.z - q.w * q.y)| < 0.99999) :
    q.getYaw = atan2 (2 * (q.x * q.y + q.w * q.z)) (q.w * q.w + q.x * q.x - q.y * q.y - q.z * q.z) := by
  unfold UnitQ at h
  have e : q.x * q.x + q.y * q.y + q.z * q.z + q.w * q.w = 1 := by linear_combination h
  have hh := abs_lt.mp hp
  unfold Quat.getYaw
  simp only [e, div_one]
  rw [if_neg (by linarith [hh.2]), if_neg (by linarith [hh.1])]

/-- A rotation about a nearly vertical axis, or followed by a turn upside down (`s = -1`). -/
theorem beam_error {q : Quat} (h : UnitQ q) {s : ℝ} (hs : s ^ 2 = 1) (h1 : (q.x ^ 2 + q.y ^ 2) * (q.z ^ 2 + q.w ^ 2) ≤ 0.0008)
    (h2 : |s - (q.w ^ 2 + q.z ^ 2 - q.x ^ 2 - q.y ^ 2)| ≤ 0.0016) (u v : ℝ) :
    (Real.cos q.getYaw * u - Real.sin q.getYaw * (s * v) - (rotate q ⟨u, v, 0⟩).x) ^ 2 +
      (Real.sin q.getYaw * u + Real.cos q.getYaw * (s * v) - (rotate q ⟨u, v, 0⟩).y) ^ 2 ≤
      (1 / 100) ^ 2 * (u ^ 2 + v ^ 2) := by
  have hq := h
  unfold UnitQ at hq
  have d2 : (2 * (q.x * q.z - q.w * q.y)) ^ 2 ≤ 0.0032 := by
    nlinarith [sq_nonneg (q.x * q.w + q.y * q.z)]
  have g2 : (2 * (q.y * q.z + q.w * q.x)) ^ 2 ≤ 0.0032 := by
    nlinarith [sq_nonneg (q.y * q.w - q.x * q.z)]
  have hp : |2 * (q.x * q.z - q.w * q.y)| < 0.99999 := by
    rw [← sq_lt_sq₀ (abs_nonneg _) (by norm_num), sq_abs]
    linarith
  rw [getYaw_off_pole h hp, rotate_x, rotate_y]
  generalize ha : q.w * q.w + q.x * q.x - q.y * q.y - q.z * q.z = a
  generalize hb : 2 * (q.x * q.y + q.w * q.z) = b
  have n1 : a ^ 2 + b ^ 2 + (2 * (q.x * q.z - q.w * q.y)) ^ 2 = 1 := by
    rw [← ha, ← hb]
    linear_combination (q.x ^ 2 + q.y ^ 2 + q.z ^ 2 + q.w ^ 2 + 1) * hq
  have hc : 0 < hypot a b := Real.sqrt_pos.mpr (by linarith)
  have hcc : hypot a b ^ 2 = a ^ 2 + b ^ 2 := Real.sq_sqrt (by linarith)
  have ec : Real.cos (atan2 b a) = a / hypot a b := by
    rw [eq_div_iff (ne_of_gt hc), mul_comm]
    exact hypot_mul_cos_atan2 a b
  have es : Real.sin (atan2 b a) = b / hypot a b := by
    rw [eq_div_iff (ne_of_gt hc), mul_comm]
    exact hypot_mul_sin_atan2 a b
  rw [ec, es]
  have := flat_error (u := u) (v := v) (e := 2 * (q.x * q.y - q.w * q.z))
    (f := q.w * q.w - q.x * q.x + q.y * q.y - q.z * q.z) (g := 2 * (q.y * q.z + q.w * q.x))
    (h := q.w ^ 2 + q.z ^ 2 - q.x ^ 2 - q.y ^ 2) hc hcc n1
    (by rw [← ha, ← hb]; ring)
    (by rw [← ha, ← hb]; linear_combination -(q.w ^ 2 + q.z ^ 2 - q.x ^ 2 - q.y ^ 2) * hq) hs d2 g2 h2
  refine le_trans (le_of_eq ?_) this
  ring

end

end Ndt
