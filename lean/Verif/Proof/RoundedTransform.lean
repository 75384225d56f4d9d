import Verif.Proof.RoundedMotion
import Verif.Proof.RoundedPoints
import Verif.Model.RoundedTransform
import Verif.Spec.RoundedTransform

/-! # Lemmas about the published transform in double precision -/

namespace Ndt.Rounded

open Real Spec

noncomputable section

/-- A sum of two products, the factors of which are known up to errors. -/
theorem pair_near {rd : ℝ → ℝ} (hrd : RoundsToNearest rd) {a A a' A' x X x' X' P δ : ℝ} (hA : |A| ≤ 1) (ha : |a| ≤ 1.01) (haA : |a - A| ≤ 2.3e-16)
    (hA' : |A'| ≤ 1) (ha' : |a'| ≤ 1.01) (haA' : |a' - A'| ≤ 2.3e-16) (hx : |x - X| ≤ δ) (hX : |X| ≤ P) (hx' : |x' - X'| ≤ δ) (hX' : |X'| ≤ P)
    (hδ : δ ≤ P) : |rd (rd (a * x) + rd (a' * x')) - (A * X + A' * X')| ≤ 2.1 * δ + 1.3e-15 * P + 4e-30 := by
  have hP : 0 ≤ P := (abs_nonneg _).trans hX
  have hδ0 : 0 ≤ δ := (abs_nonneg _).trans hx
  have h1 := prod_near hrd hA ha haA hx hX hδ
  have h2 := prod_near hrd hA' ha' haA' hx' hX' hδ
  have b1 : |A * X| ≤ P := by rw [abs_mul]; exact (mul_le_mul hA hX (abs_nonneg _) zero_le_one).trans (by rw [one_mul])
  have b2 : |A' * X'| ≤ P := by rw [abs_mul]; exact (mul_le_mul hA' hX' (abs_nonneg _) zero_le_one).trans (by rw [one_mul])
  have e1 := abs_le.mp h1
  have e2 := abs_le.mp h2
  have e3 := abs_le.mp b1
  have e4 := abs_le.mp b2
  have h3 : |rd (a * x) + rd (a' * x')| ≤ 2.1 * P + 2.1 * δ + 3e-30 := by
    rw [abs_le]
    norm_num at e1 e2 ⊢
    constructor <;> linarith [e1.1, e1.2, e2.1, e2.2, e3.1, e3.2, e4.1, e4.2]
  have h4 := abs_le.mp (rd_near hrd h3)
  rw [abs_le]
  norm_num at e1 e2 h4 ⊢
  constructor <;> linarith [e1.1, e1.2, e2.1, e2.2, h4.1, h4.2]

/-- A number and its square root, for the larger component `h` of a unit vector `(h, k)`. -/
theorem halves_near {rd : ℝ → ℝ} (hrd : RoundsToNearest rd) {v d h k : ℝ} (hv : 0.9 ≤ v) (hv2 : v ≤ 4.1) (hvh : |v - 4 * h ^ 2| ≤ 7e-15)
    (hd : |d - 4 * (h * k)| ≤ 4e-15) (hk : h ^ 2 + k ^ 2 = 1) :
    ∃ p q, halves rd v d = (.fin p, .fin q) ∧ |p ^ 2 - h ^ 2| ≤ 3e-15 ∧ |q ^ 2 - k ^ 2| ≤ 2e-14 ∧ |p * q - h * k| ≤ 4e-15 := by
  obtain ⟨t, et, ht0, ht⟩ := sqrt_near hrd (show 0 ≤ v by norm_num at hv; linarith)
  have htv : |t ^ 2 - v| ≤ 1.3e-15 := by norm_num at ht hv2 ⊢; linarith
  have htv' := abs_le.mp htv
  have t1 : 0.94 ≤ t := by
    by_contra hc
    push Not at hc
    norm_num at hc htv' hv
    nlinarith [htv'.1]
  have t2 : t ≤ 2.03 := by
    by_contra hc
    push Not at hc
    norm_num at hc htv' hv2
    nlinarith [htv'.2]
  have tpos : 0 < t := lt_of_lt_of_le (by norm_num) t1
  have hkk : |h * k| ≤ 1 / 2 := by
    rw [abs_le]
    constructor <;> nlinarith [sq_nonneg (h + k), sq_nonneg (h - k)]
  refine ⟨rd (1 / 2 * t), rd (d * rd (1 / 2 / t)), ?_, ?_⟩
  · unfold halves
    simp only [et, Fl.fin_mul]
    rw [Fl.fin_div tpos.ne']
    rfl
  have hp : |rd (1 / 2 * t) - 1 / 2 * t| ≤ 1.3e-16 := by
    refine (rd_near hrd (X := 1.02) ?_).trans (by norm_num)
    rw [abs_of_pos (by positivity)]
    norm_num at t2 ⊢
    linarith
  have hi : 1 / 2 / t ≤ 0.54 := by
    rw [div_le_iff₀ tpos]
    norm_num at t1 ⊢
    linarith
  have hi0 : 0 < 1 / 2 / t := by positivity
  have hu : |rd (1 / 2 / t) - 1 / 2 / t| ≤ 7e-17 := (rd_near hrd (X := 0.54) (by rw [abs_of_pos hi0]; exact hi)).trans (by norm_num)
  have hd2 : |d| ≤ 2.1 := by
    have := abs_sub_abs_le_abs_sub d (4 * (h * k))
    rw [abs_mul 4, abs_of_pos (by norm_num : (0 : ℝ) < 4)] at this
    norm_num [-abs_mul] at hd ⊢
    linarith
  have hu2 : |rd (1 / 2 / t)| ≤ 0.55 := by
    have := abs_sub_abs_le_abs_sub (rd (1 / 2 / t)) (1 / 2 / t)
    rw [abs_of_pos hi0] at this
    refine le_trans (b := 1 / 2 / t + 7e-17) (by linarith) ?_
    refine (add_le_add_left hi _).trans (by norm_num)
  have hdu : |d * rd (1 / 2 / t)| ≤ 1.2 := by
    rw [abs_mul]
    exact (mul_le_mul hd2 hu2 (abs_nonneg _) (by norm_num)).trans (by norm_num)
  have hq1 := rd_near hrd hdu
  set p := rd (1 / 2 * t)
  set u := rd (1 / 2 / t)
  set q := rd (d * u)
  -- the smaller component
  set i := 1 / 2 / t with hidef
  have hit : i * t = 1 / 2 := by rw [hidef]; field_simp
  have hq : |q - 4 * (h * k) * i| ≤ 3e-15 := by
    have e : q - 4 * (h * k) * i = (q - d * u) + d * (u - i) + (d - 4 * (h * k)) * i := by ring
    have x1 : |d * (u - i)| ≤ 2.1 * 7e-17 := by rw [abs_mul]; exact mul_le_mul hd2 hu (abs_nonneg _) (by norm_num)
    have x2 : |(d - 4 * (h * k)) * i| ≤ 4e-15 * 0.54 := by
      rw [abs_mul, abs_of_pos hi0]
      exact mul_le_mul hd hi hi0.le (by norm_num)
    rw [e]
    refine (abs_add_three _ _ _).trans ?_
    refine (add_le_add_three hq1 x1 x2).trans ?_
    norm_num
  have hm : |4 * (h * k) * i| ≤ 1.08 := by
    rw [abs_mul, abs_mul, abs_of_pos hi0, abs_of_pos (by norm_num : (0 : ℝ) < 4)]
    have : |h * k| * i ≤ 1 / 2 * 0.54 := mul_le_mul hkk hi hi0.le (by norm_num)
    rw [mul_assoc]
    refine (mul_le_mul_of_nonneg_left this (by norm_num)).trans (by norm_num)
  set m := 4 * (h * k) * i with hmdef
  have hmt : m * t = 2 * (h * k) := by rw [hmdef]; linear_combination 4 * (h * k) * hit
  have ph : |p ^ 2 - 1 / 4 * t ^ 2| ≤ 3e-16 := by
    have e : p ^ 2 - 1 / 4 * t ^ 2 = (p - 1 / 2 * t) * (p - 1 / 2 * t + t) := by ring
    rw [e, abs_mul]
    have : |p - 1 / 2 * t + t| ≤ 2.04 := by
      refine (abs_add_le _ _).trans ?_
      rw [abs_of_pos tpos]
      exact (add_le_add hp t2).trans (by norm_num)
    exact (mul_le_mul hp this (abs_nonneg _) (by norm_num)).trans (by norm_num)
  refine ⟨?_, ?_, ?_⟩
  · have a1 := abs_le.mp ph
    have a2 := abs_le.mp hvh
    rw [abs_le]
    norm_num at a1 a2 htv' ⊢
    constructor <;> linarith [a1.1, a1.2, a2.1, a2.2, htv'.1, htv'.2]
  · have x1 : |q ^ 2 - m ^ 2| ≤ 7e-15 := by
      have e : q ^ 2 - m ^ 2 = (q - m) * (q - m + 2 * m) := by ring
      rw [e, abs_mul]
      have : |q - m + 2 * m| ≤ 2.2 := by
        refine (abs_add_le _ _).trans ?_
        rw [abs_mul 2, abs_of_pos (by norm_num : (0 : ℝ) < 2)]
        refine (add_le_add hq (mul_le_mul_of_nonneg_left hm (by norm_num))).trans (by norm_num)
      exact (mul_le_mul hq this (abs_nonneg _) (by norm_num)).trans (by norm_num)
    have x2 : |m ^ 2 - k ^ 2| ≤ 1.1e-14 := by
      have e : m ^ 2 - k ^ 2 = k ^ 2 * (4 * h ^ 2 - t ^ 2) * (4 * i ^ 2) := by
        have : m ^ 2 = 16 * h ^ 2 * k ^ 2 * i ^ 2 := by rw [hmdef]; ring
        rw [this]
        have e2 : i ^ 2 * t ^ 2 = 1 / 4 := by rw [← mul_pow, hit]; norm_num
        linear_combination (4 * k ^ 2) * e2
      have y1 : |4 * h ^ 2 - t ^ 2| ≤ 8.3e-15 := by
        have a2 := abs_le.mp hvh
        rw [abs_le]
        norm_num at a2 htv' ⊢
        constructor <;> linarith [a2.1, a2.2, htv'.1, htv'.2]
      have y2 : k ^ 2 ≤ 1 := by nlinarith [sq_nonneg h]
      have y3 : i ^ 2 ≤ 0.54 ^ 2 := pow_le_pow_left₀ hi0.le hi 2
      rw [e, abs_mul, abs_mul, abs_of_nonneg (sq_nonneg k), abs_of_nonneg (by positivity : 0 ≤ 4 * i ^ 2)]
      have z1 : k ^ 2 * |4 * h ^ 2 - t ^ 2| ≤ 1 * 8.3e-15 := mul_le_mul y2 y1 (abs_nonneg _) zero_le_one
      have z2 : 4 * i ^ 2 ≤ 4 * 0.54 ^ 2 := mul_le_mul_of_nonneg_left y3 (by norm_num)
      exact (mul_le_mul z1 z2 (by positivity) (by norm_num)).trans (by norm_num)
    have x3 := abs_sub_le (q ^ 2) (m ^ 2) (k ^ 2)
    refine x3.trans ((add_le_add x1 x2).trans (by norm_num))
  · have e : p * q - h * k = (p - 1 / 2 * t) * q + 1 / 2 * t * (q - m) := by linear_combination (1 / 2) * hmt
    have hq2 : |q| ≤ 1.1 := by
      have := abs_sub_abs_le_abs_sub q m
      refine le_trans (b := 1.08 + 3e-15) (by linarith) (by norm_num)
    have x1 : |(p - 1 / 2 * t) * q| ≤ 1.3e-16 * 1.1 := by rw [abs_mul]; exact mul_le_mul hp hq2 (abs_nonneg _) (by norm_num)
    have x2 : |1 / 2 * t * (q - m)| ≤ 1.02 * 3e-15 := by
      rw [abs_mul]
      refine mul_le_mul ?_ hq (abs_nonneg _) (by norm_num)
      rw [abs_of_pos (by positivity)]
      norm_num at t2 ⊢
      linarith
    rw [e]
    exact (abs_add_le _ _).trans ((add_le_add x1 x2).trans (by norm_num))

theorem turn_of_half {w z c s C S : ℝ} (ec : C = c ^ 2 - s ^ 2) (es : S = 2 * s * c) (e1 : s ^ 2 + c ^ 2 = 1) (hw : |w ^ 2 - c ^ 2| ≤ 2e-14)
    (hz : |z ^ 2 - s ^ 2| ≤ 2e-14) (hwz : |w * z - c * s| ≤ 4e-15) :
    |w ^ 2 + z ^ 2 - 1| ≤ 4e-14 ∧ |w ^ 2 - z ^ 2 - C| ≤ 4e-14 ∧ |2 * w * z - S| ≤ 8e-15 := by
  refine ⟨?_, ?_, ?_⟩
  · have e : w ^ 2 + z ^ 2 - 1 = (w ^ 2 - c ^ 2) + (z ^ 2 - s ^ 2) := by rw [← e1]; ring
    rw [e]
    exact (abs_add_le _ _).trans ((add_le_add hw hz).trans (by norm_num))
  · have e : w ^ 2 - z ^ 2 - C = (w ^ 2 - c ^ 2) - (z ^ 2 - s ^ 2) := by rw [ec]; ring
    rw [e]
    exact (abs_sub _ _).trans ((add_le_add hw hz).trans (by norm_num))
  · have e : 2 * w * z - S = 2 * (w * z - c * s) := by rw [es]; ring
    rw [e, abs_mul, abs_of_pos (by norm_num : (0 : ℝ) < 2)]
    exact (mul_le_mul_of_nonneg_left hwz (by norm_num)).trans (by norm_num)

/-- A matrix that is nearly a rotation gives nearly its quaternion. -/
theorem quat_near {rd : ℝ → ℝ} (hrd : RoundsToNearest rd) {a : Mat} {f : ℝ} (h00 : |a.planar.r00 - cos f| ≤ 1.8e-15)
    (h11 : |a.planar.r11 - cos f| ≤ 1.8e-15) (h10 : |a.planar.r10 - sin f| ≤ 1.8e-15) (h01 : |a.planar.r01 - -sin f| ≤ 1.8e-15)
    (h22 : |a.r22 - 1| ≤ 9.1e-16) :
    ∃ z w, a.quat rd = some (.fin z, .fin w) ∧ |w ^ 2 + z ^ 2 - 1| ≤ 4e-14 ∧ |w ^ 2 - z ^ 2 - cos f| ≤ 4e-14 ∧ |2 * w * z - sin f| ≤ 8e-15 := by
  have q00 := abs_le.mp h00
  have q11 := abs_le.mp h11
  have q10 := abs_le.mp h10
  have q01 := abs_le.mp h01
  have q22 := abs_le.mp h22
  have hc := abs_le.mp (abs_cos_le_one f)
  have hs := abs_le.mp (abs_sin_le_one f)
  have ec : cos f = cos (f / 2) ^ 2 - sin (f / 2) ^ 2 := by
    rw [← cos_two_mul']; congr 1; ring
  have es : sin f = 2 * sin (f / 2) * cos (f / 2) := by
    rw [← sin_two_mul]; congr 1; ring
  have e1 := sin_sq_add_cos_sq (f / 2)
  have d1 := abs_le.mp (rd_near hrd (x := a.planar.r10 - a.planar.r01) (X := 2.1) (by
    rw [abs_le]; norm_num at *; constructor <;> linarith [q10.1, q10.2, q01.1, q01.2]))
  have d2 : |rd (a.planar.r10 - a.planar.r01) - 2 * sin f| ≤ 4e-15 := by
    rw [abs_le]; norm_num at d1 q10 q01 ⊢; constructor <;> linarith [q10.1, q10.2, q01.1, q01.2, d1.1, d1.2]
  have r1 := abs_le.mp (rd_near hrd (x := a.planar.r11 + a.r22) (X := 2.1) (by
    rw [abs_le]; norm_num at q11 q22 hc ⊢; constructor <;> linarith [q11.1, q11.2, q22.1, q22.2]))
  have r2 := abs_le.mp (rd_near hrd (x := a.planar.r00 + rd (a.planar.r11 + a.r22)) (X := 3.1) (by
    rw [abs_le]; norm_num at q11 q22 q00 hc r1 ⊢; constructor <;> linarith [q11.1, q11.2, q22.1, q22.2, q00.1, q00.2, r1.1, r1.2]))
  have r3 : |rd (a.planar.r00 + rd (a.planar.r11 + a.r22)) - (1 + 2 * cos f)| ≤ 5.3e-15 := by
    rw [abs_le]; norm_num at q11 q22 q00 r1 r2 ⊢
    constructor <;> linarith [q11.1, q11.2, q22.1, q22.2, q00.1, q00.2, r1.1, r1.2, r2.1, r2.2]
  have q3 := abs_le.mp r3
  unfold Mat.quat
  dsimp only
  set d := rd (a.planar.r10 - a.planar.r01)
  set T := rd (a.planar.r00 + rd (a.planar.r11 + a.r22))
  by_cases hT : T > 0
  · rw [if_pos hT]
    have r4 := abs_le.mp (rd_near hrd (x := T + 1) (X := 4.1) (by
      rw [abs_le]; norm_num at q3 ⊢; constructor <;> linarith [q3.1, q3.2]))
    obtain ⟨w, z, e, hw, hz, hwz⟩ := halves_near hrd (v := rd (T + 1)) (d := d) (h := cos (f / 2)) (k := sin (f / 2))
      (by norm_num at r4 ⊢; linarith [r4.1]) (by norm_num at r4 q3 ⊢; linarith [r4.2, q3.2])
      (by
        have : 4 * cos (f / 2) ^ 2 = 2 + 2 * cos f := by rw [ec]; linear_combination 2 * e1
        rw [this, abs_le]; norm_num at r4 q3 ⊢; constructor <;> linarith [r4.1, r4.2, q3.1, q3.2])
      (by
        have : 4 * (cos (f / 2) * sin (f / 2)) = 2 * sin f := by rw [es]; ring
        rw [this]; exact d2) (by linarith)
    rw [e]
    refine ⟨z, w, rfl, ?_⟩
    exact turn_of_half ec es e1 (hw.trans (by norm_num)) hz hwz
  · rw [if_neg hT]
    push Not at hT
    have hcos : cos f ≤ -0.49 := by norm_num at q3 ⊢; linarith [q3.1]
    rw [if_pos (by
      split <;> norm_num at q22 q11 q00 hcos ⊢ <;> linarith [q22.1, q11.2, q00.2])]
    have r4 := abs_le.mp (rd_near hrd (x := a.r22 - a.planar.r00) (X := 2.1) (by
      rw [abs_le]; norm_num at q00 q22 hc ⊢; constructor <;> linarith [q00.1, q00.2, q22.1, q22.2]))
    have r5 := abs_le.mp (rd_near hrd (x := rd (a.r22 - a.planar.r00) - a.planar.r11) (X := 3.1) (by
      rw [abs_le]; norm_num at q00 q22 hc q11 r4 ⊢; constructor <;> linarith [q00.1, q00.2, q22.1, q22.2, q11.1, q11.2, r4.1, r4.2]))
    have r6 := abs_le.mp (rd_near hrd (x := rd (rd (a.r22 - a.planar.r00) - a.planar.r11) + 1) (X := 4.1) (by
      rw [abs_le]; norm_num at q00 q22 hc q11 r4 r5 ⊢
      constructor <;> linarith [q00.1, q00.2, q22.1, q22.2, q11.1, q11.2, r4.1, r4.2, r5.1, r5.2]))
    have r7 : |rd (rd (rd (a.r22 - a.planar.r00) - a.planar.r11) + 1) - (2 - 2 * cos f)| ≤ 6e-15 := by
      rw [abs_le]; norm_num at q00 q22 q11 r4 r5 r6 ⊢
      constructor <;> linarith [q00.1, q00.2, q22.1, q22.2, q11.1, q11.2, r4.1, r4.2, r5.1, r5.2, r6.1, r6.2]
    have q7 := abs_le.mp r7
    obtain ⟨z, w, e, hz, hw, hwz⟩ := halves_near hrd (v := rd (rd (rd (a.r22 - a.planar.r00) - a.planar.r11) + 1)) (d := d) (h := sin (f / 2))
      (k := cos (f / 2))
      (by norm_num at q7 hcos ⊢; linarith [q7.1]) (by norm_num at q7 ⊢; linarith [q7.2])
      (by
        have : 4 * sin (f / 2) ^ 2 = 2 - 2 * cos f := by rw [ec]; linear_combination 2 * e1
        rw [this]; exact r7.trans (by norm_num))
      (by
        have : 4 * (sin (f / 2) * cos (f / 2)) = 2 * sin f := by rw [es]; ring
        rw [this]; exact d2) e1
    rw [e]
    refine ⟨z, w, rfl, ?_⟩
    rw [mul_comm z w, mul_comm (sin (f / 2))] at hwz
    exact turn_of_half ec es e1 hw (hz.trans (by norm_num)) hwz

end

end Ndt.Rounded
