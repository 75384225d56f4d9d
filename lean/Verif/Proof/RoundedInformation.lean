import Verif.Model.RoundedInformation
import Verif.Proof.Rounded
import Verif.Proof.Double
import Verif.Spec.Solver

/-! # Rounding of the information of a constraint -/

namespace Ndt.Rounded

noncomputable section

open Spec

variable {rd : ℝ → ℝ}

theorem halfMin_far : halfMin ≤ 1e-20 * 1e-250 := by
  have h := halfMin_le (k := 1000) (by norm_num)
  refine h.trans ?_
  have h1 : (2⁻¹ : ℝ) ^ 1000 = ((2⁻¹ : ℝ) ^ 100) ^ 9 * 2⁻¹ ^ 100 := by rw [← pow_mul, ← pow_add]
  have h2 : (2⁻¹ : ℝ) ^ 100 ≤ 1e-29 := by norm_num
  rw [h1, mul_comm]
  refine mul_le_mul (h2.trans (by norm_num)) ?_ (by positivity) (by norm_num)
  calc ((2⁻¹ : ℝ) ^ 100) ^ 9 ≤ (1e-29) ^ 9 := pow_le_pow_left₀ (by positivity) h2 9
    _ ≤ (1e-29) ^ 8 * 1e-18 := by
      rw [pow_succ]
      exact mul_le_mul_of_nonneg_left (by norm_num) (by positivity)
    _ = 1e-250 := by norm_num

/-- The error of one operation with a result that is far from underflow. -/
theorem rd_far (hrd : RoundsToNearest rd) {x X : ℝ} (h : |x| ≤ X) (hX : 1e-250 ≤ X) : |rd x - x| ≤ 1.2e-16 * X := by
  have h1 := hrd.error x
  have h2 := halfMin_far
  have h3 : (2⁻¹ : ℝ) ^ 53 * |x| ≤ 1.11023e-16 * X := mul_le_mul (by norm_num) h (abs_nonneg _) (by norm_num)
  have h4 : (0 : ℝ) < 1e-250 := by norm_num
  generalize (1e-250 : ℝ) = q at *
  have h5 : (1e-20 : ℝ) * q ≤ 1e-20 * X := by gcongr
  norm_num at h3 h1 h2 h5 ⊢
  linarith

/-- The cofactor of a matrix of numbers. -/
def cof (a : Matrix (Fin 3) (Fin 3) ℝ) (i j : Fin 3) : ℝ :=
  a (i + 1) (j + 1) * a (i + 2) (j + 2) - a (i + 1) (j + 2) * a (i + 2) (j + 1)

theorem cofactor3_near (hrd : RoundsToNearest rd) {m : Mat3} {a : Matrix (Fin 3) (Fin 3) ℝ} (h : IsReal m a) {B : ℝ} (hB : 1e-60 ≤ B)
    (ha : ∀ i j, |a i j| ≤ B) (i j : Fin 3) :
    |cof a i j| ≤ 2 * B ^ 2 ∧ ∃ c, cofactor3 rd m i j = .fin c ∧ |c - cof a i j| ≤ 4.9e-16 * B ^ 2 := by
  have hB0 : 0 < B := lt_of_lt_of_le (by norm_num) hB
  have hb : (1e-120 : ℝ) ≤ B ^ 2 := by
    have := pow_le_pow_left₀ (by norm_num) hB 2
    norm_num at this ⊢; linarith
  have prod : ∀ i j k l, |a i j * a k l| ≤ B ^ 2 := fun i j k l => by
    rw [abs_mul, pow_two]
    exact mul_le_mul (ha _ _) (ha _ _) (abs_nonneg _) hB0.le
  have big : ∀ c : ℝ, 1 ≤ c → (1e-250 : ℝ) ≤ c * B ^ 2 := fun c hc => by
    have : (1 : ℝ) * B ^ 2 ≤ c * B ^ 2 := by gcongr
    norm_num at this hb ⊢; linarith
  have p := prod (i + 1) (j + 1) (i + 2) (j + 2)
  have q := prod (i + 1) (j + 2) (i + 2) (j + 1)
  have h1 := rd_far hrd p (by simpa using big 1 le_rfl)
  have h2 := rd_far hrd q (by simpa using big 1 le_rfl)
  rw [abs_le] at p q h1 h2
  have h3 := rd_far hrd (x := rd (a (i + 1) (j + 1) * a (i + 2) (j + 2)) - rd (a (i + 1) (j + 2) * a (i + 2) (j + 1))) (X := 2.0001 * B ^ 2)
    (by rw [abs_le]; norm_num at h1 h2 ⊢; constructor <;> linarith [p.1, p.2, q.1, q.2, h1.1, h1.2, h2.1, h2.2]) (big _ (by norm_num))
  rw [abs_le] at h3
  refine ⟨by unfold cof; rw [abs_le]; constructor <;> linarith [p.1, p.2, q.1, q.2],
    rd (rd (a (i + 1) (j + 1) * a (i + 2) (j + 2)) - rd (a (i + 1) (j + 2) * a (i + 2) (j + 1))), ?_, ?_⟩
  · unfold cofactor3
    rw [h, h, h, h]
    simp only [Fl.fin_mul, Fl.rounded_fin, Fl.fin_sub]
  · unfold cof
    rw [abs_le]
    norm_num at h1 h2 h3 ⊢
    constructor <;> linarith [h1.1, h1.2, h2.1, h2.2, h3.1, h3.2]

theorem sumThree_near (hrd : RoundsToNearest rd) (packets : Bool) {x y z x' y' z' M E : ℝ} (hM : 1e-250 ≤ M) (hE : E ≤ 0.001 * M) (hx : |x| ≤ M)
    (hy : |y| ≤ M) (hz : |z| ≤ M) (ex : |x' - x| ≤ E) (ey : |y' - y| ≤ E) (ez : |z' - z| ≤ E) :
    ∃ s, sum3 rd packets (.fin x') (.fin y') (.fin z') = .fin s ∧ |s - (x + y + z)| ≤ 3 * E + 6.1e-16 * M := by
  rw [abs_le] at *
  cases packets
  · have h1 := rd_far hrd (x := y' + z') (X := 2.01 * M)
      (by rw [abs_le]; constructor <;> norm_num at hE ⊢ <;> linarith [hy.1, hy.2, hz.1, hz.2, ey.1, ey.2, ez.1, ez.2])
      (by norm_num at hM ⊢; linarith)
    rw [abs_le] at h1
    have h2 := rd_far hrd (x := x' + rd (y' + z')) (X := 3.02 * M)
      (by rw [abs_le]; norm_num at h1 hE hM ⊢; constructor <;>
            linarith [hx.1, hx.2, hy.1, hy.2, hz.1, hz.2, ex.1, ex.2, ey.1, ey.2, ez.1, ez.2, h1.1, h1.2])
      (by norm_num at hM ⊢; linarith)
    rw [abs_le] at h2
    refine ⟨rd (x' + rd (y' + z')), by simp only [sum3, Bool.false_eq_true, if_false, Fl.fin_add, Fl.rounded_fin], ?_⟩
    rw [abs_le]
    norm_num at h1 h2 hM ⊢
    constructor <;> linarith [ex.1, ex.2, ey.1, ey.2, ez.1, ez.2, h1.1, h1.2, h2.1, h2.2]
  · have h1 := rd_far hrd (x := x' + y') (X := 2.01 * M)
      (by rw [abs_le]; constructor <;> norm_num at hE ⊢ <;> linarith [hy.1, hy.2, hx.1, hx.2, ey.1, ey.2, ex.1, ex.2])
      (by norm_num at hM ⊢; linarith)
    rw [abs_le] at h1
    have h2 := rd_far hrd (x := rd (x' + y') + z') (X := 3.02 * M)
      (by rw [abs_le]; norm_num at h1 hE hM ⊢; constructor <;>
            linarith [hx.1, hx.2, hy.1, hy.2, hz.1, hz.2, ex.1, ex.2, ey.1, ey.2, ez.1, ez.2, h1.1, h1.2])
      (by norm_num at hM ⊢; linarith)
    rw [abs_le] at h2
    refine ⟨rd (rd (x' + y') + z'), by simp only [sum3, if_true, Fl.fin_add, Fl.rounded_fin], ?_⟩
    rw [abs_le]
    norm_num at h1 h2 hM ⊢
    constructor <;> linarith [ex.1, ex.2, ey.1, ey.2, ez.1, ez.2, h1.1, h1.2, h2.1, h2.2]

theorem det_cof (a : Matrix (Fin 3) (Fin 3) ℝ) : a.det = cof a 0 0 * a 0 0 + cof a 1 0 * a 1 0 + cof a 2 0 * a 2 0 := by
  rw [Matrix.det_fin_three]
  simp only [cof, Fin.isValue, Fin.reduceAdd, zero_add]
  ring

theorem det3_near (hrd : RoundsToNearest rd) (packets : Bool) {m : Mat3} {a : Matrix (Fin 3) (Fin 3) ℝ} (h : IsReal m a) {B : ℝ}
    (hB : 1e-60 ≤ B) (ha : ∀ i j, |a i j| ≤ B) :
    |a.det| ≤ 6 * B ^ 3 ∧ ∃ d, det3 rd packets m = .fin d ∧ |d - a.det| ≤ 3.5e-15 * B ^ 3 := by
  have hB0 : 0 < B := lt_of_lt_of_le (by norm_num) hB
  have hb : (1e-180 : ℝ) ≤ B ^ 3 := by
    have := pow_le_pow_left₀ (by norm_num) hB 3
    norm_num at this ⊢; linarith
  have e3 : B ^ 3 = B ^ 2 * B := by ring
  have term : ∀ k, |cof a k 0 * a k 0| ≤ 2 * B ^ 3 ∧
      ∃ t, Fl.rounded rd (cofactor3 rd m k 0 * m k 0) = .fin t ∧ |t - cof a k 0 * a k 0| ≤ 7.4e-16 * B ^ 3 := by
    intro k
    obtain ⟨c1, c, hc, c2⟩ := cofactor3_near hrd h hB ha k 0
    have g1 : |cof a k 0 * a k 0| ≤ 2 * B ^ 3 := by
      rw [abs_mul, e3, ← mul_assoc]
      exact mul_le_mul c1 (ha _ _) (abs_nonneg _) (by positivity)
    have g2 : |(c - cof a k 0) * a k 0| ≤ 4.9e-16 * B ^ 3 := by
      rw [abs_mul, e3, ← mul_assoc]
      exact mul_le_mul c2 (ha _ _) (abs_nonneg _) (by positivity)
    have e : c * a k 0 = cof a k 0 * a k 0 + (c - cof a k 0) * a k 0 := by ring
    have g3 := rd_far hrd (x := c * a k 0) (X := 2.01 * B ^ 3) (by
      rw [e]
      refine (abs_add_le _ _).trans ?_
      norm_num [-abs_mul] at g2 hb ⊢; linarith) (by norm_num at hb ⊢; linarith)
    refine ⟨g1, rd (c * a k 0), by rw [hc, h, Fl.fin_mul, Fl.rounded_fin], ?_⟩
    rw [abs_le] at *
    norm_num at g2 g3 hb ⊢
    constructor <;> linarith [g2.1, g2.2, g3.1, g3.2]
  obtain ⟨a0, t0, b0, c0⟩ := term 0
  obtain ⟨a1, t1, b1, c1⟩ := term 1
  obtain ⟨a2, t2, b2, c2⟩ := term 2
  obtain ⟨s, hs, hs2⟩ := sumThree_near hrd packets (M := 2 * B ^ 3) (E := 7.4e-16 * B ^ 3) (by norm_num at hb ⊢; linarith)
    (by norm_num at hb ⊢; linarith) a0 a1 a2 c0 c1 c2
  rw [det_cof]
  refine ⟨?_, s, ?_, ?_⟩
  · rw [abs_le] at *
    constructor <;> linarith [a0.1, a0.2, a1.1, a1.2, a2.1, a2.2]
  · unfold det3
    simp only [b0, b1, b2]
    exact hs
  · refine hs2.trans ?_
    norm_num at hb ⊢; linarith

/-- Every entry of the inverse, for a matrix of condition `κ`. -/
theorem inverse3_near (hrd : RoundsToNearest rd) (packets : Bool) {m : Mat3} {a : Matrix (Fin 3) (Fin 3) ℝ} (h : IsReal m a) {B κ : ℝ}
    (hB : 1e-60 ≤ B) (hB' : B ≤ 1e60) (ha : ∀ i j, |a i j| ≤ B) (hκ : B ^ 3 ≤ κ * |a.det|) (hκ2 : κ ≤ 1e13) (i j : Fin 3) :
    ∃ v, inverse3 rd packets m i j = .fin v ∧ |v - cof a j i / a.det| ≤ 1.4e-14 * κ ^ 2 / B := by
  have hB0 : 0 < B := lt_of_lt_of_le (by norm_num) hB
  obtain ⟨d0, d, hd, d1⟩ := det3_near hrd packets h hB ha
  obtain ⟨c0, c, hc, c1⟩ := cofactor3_near hrd h hB ha j i
  have hb3 : 0 < B ^ 3 := by positivity
  have hD : 0 < |a.det| := by
    rcases (abs_nonneg a.det).lt_or_eq with g | g
    · exact g
    · rw [← g] at hκ; linarith
  have hdet : a.det ≠ 0 := abs_pos.mp hD
  have hκ0 : 1 / 6 ≤ κ := by
    by_contra hlt
    push Not at hlt
    have : κ * |a.det| < 1 / 6 * |a.det| := by gcongr
    linarith
  -- relative errors
  obtain ⟨T, hT⟩ : ∃ T, T = 1 / |a.det| := ⟨_, rfl⟩
  have hT0 : 0 < T := by rw [hT]; positivity
  have dT : |a.det| * T = 1 := by rw [hT]; field_simp
  have d2 : |d - a.det| ≤ 3.5e-15 * κ * |a.det| := by
    have : 3.5e-15 * B ^ 3 ≤ 3.5e-15 * (κ * |a.det|) := by gcongr
    linarith
  have d3 : |d - a.det| ≤ 0.035 * |a.det| := by
    refine d2.trans ?_
    have : 3.5e-15 * κ ≤ 0.035 := by norm_num at hκ2 ⊢; linarith
    exact mul_le_mul_of_nonneg_right this hD.le
  have d4 : 0.965 * |a.det| ≤ |d| := by
    have := abs_sub_abs_le_abs_sub a.det d
    rw [abs_sub_comm] at this
    norm_num at d3 ⊢; linarith
  have hd0 : d ≠ 0 := by
    intro h0
    rw [h0, abs_zero] at d4
    norm_num at d4; linarith
  have i1 : |1 / d| ≤ 1.0363 * T := by
    rw [abs_div, abs_one, div_le_iff₀ (abs_pos.mpr hd0)]
    calc (1 : ℝ) ≤ 1.0363 * 0.965 := by norm_num
      _ = 1.0363 * T * (0.965 * |a.det|) := by rw [show 1.0363 * T * (0.965 * |a.det|) = 1.0363 * 0.965 * (|a.det| * T) by ring, dT]; ring
      _ ≤ 1.0363 * T * |d| := by gcongr
  have i2 : |1 / d - 1 / a.det| ≤ 3.63e-15 * κ * T := by
    have e : 1 / d - 1 / a.det = -(d - a.det) * (1 / d) * (1 / a.det) := by field_simp; ring
    have e2 : |1 / a.det| = T := by rw [abs_div, abs_one, hT]
    rw [e, abs_mul, abs_mul, abs_neg, e2]
    calc |d - a.det| * |1 / d| * T ≤ (3.5e-15 * κ * |a.det|) * (1.0363 * T) * T := by gcongr
      _ = 3.5e-15 * 1.0363 * κ * T * (|a.det| * T) := by ring
      _ ≤ 3.63e-15 * κ * T := by
        rw [dT, mul_one]
        have : (0 : ℝ) ≤ κ * T := by positivity
        nlinarith
  have hTB : 1 ≤ 6 * B ^ 3 * T := by
    have := mul_le_mul_of_nonneg_right d0 hT0.le
    rw [dT] at this; exact this
  have hB2 : B ^ 2 * T ≤ κ / B := by
    rw [le_div_iff₀ hB0]
    have := mul_le_mul_of_nonneg_right hκ hT0.le
    rw [mul_assoc, dT, mul_one] at this
    linarith [show B ^ 2 * T * B = B ^ 3 * T by ring]
  -- the product
  obtain ⟨r, hr⟩ : ∃ r, r = rd (1 / d) := ⟨_, rfl⟩
  have hT1 : (1e-250 : ℝ) ≤ 1.0363 * T := by
    have : B ^ 3 * T ≤ 1e180 * T := by
      gcongr
      exact (pow_le_pow_left₀ hB0.le hB' 3).trans (by norm_num)
    norm_num at this ⊢; linarith
  have r1 := rd_far hrd i1 hT1
  rw [← hr] at r1
  have r2 : |r| ≤ 1.04 * T := by
    have := abs_sub_abs_le_abs_sub r (1 / d)
    norm_num at r1 i1 this ⊢; linarith
  have r3 : |r - 1 / a.det| ≤ 4.5e-15 * κ * T := by
    have := abs_sub_le r (1 / d) (1 / a.det)
    have g : T ≤ 6 * (κ * T) := by nlinarith
    norm_num at r1 i2 this ⊢; linarith
  have hT2 : 0 < B ^ 2 * T := by positivity
  have p1 : |c * r - cof a j i / a.det| ≤ 1.22e-14 * κ * (B ^ 2 * T) := by
    have e : c * r - cof a j i / a.det = (c - cof a j i) * r + cof a j i * (r - 1 / a.det) := by ring
    rw [e]
    refine (abs_add_le _ _).trans ?_
    rw [abs_mul, abs_mul]
    have q1 : |c - cof a j i| * |r| ≤ 4.9e-16 * B ^ 2 * (1.04 * T) := by gcongr
    have q2 : |cof a j i| * |r - 1 / a.det| ≤ 2 * B ^ 2 * (4.5e-15 * κ * T) := by gcongr
    have g : B ^ 2 * T ≤ 6 * (κ * (B ^ 2 * T)) := by nlinarith
    have e1 : 4.9e-16 * B ^ 2 * (1.04 * T) = 5.096e-16 * (B ^ 2 * T) := by ring
    have e2 : 2 * B ^ 2 * (4.5e-15 * κ * T) = 9e-15 * (κ * (B ^ 2 * T)) := by ring
    rw [e1] at q1
    rw [e2] at q2
    have g0 : 0 ≤ κ * (B ^ 2 * T) := by positivity
    norm_num at q1 q2 ⊢; linarith
  have p2 : |c * r| ≤ 2.2 * (B ^ 2 * T) := by
    have c2 : |c| ≤ 2.001 * B ^ 2 := by
      have := abs_sub_abs_le_abs_sub c (cof a j i)
      have hb2 : 0 < B ^ 2 := by positivity
      norm_num at c1 this ⊢; linarith
    rw [abs_mul]
    calc |c| * |r| ≤ 2.001 * B ^ 2 * (1.04 * T) := by gcongr
      _ ≤ 2.2 * (B ^ 2 * T) := by nlinarith
  have p3 := rd_far hrd p2 (by
    have : B ^ 2 * T * B ≤ B ^ 2 * T * 1e60 := by gcongr
    have e : B ^ 2 * T * B = B ^ 3 * T := by ring
    rw [e] at this
    norm_num at this ⊢; linarith)
  refine ⟨rd (c * r), ?_, ?_⟩
  · unfold inverse3
    rw [hc, hd, Fl.fin_div hd0, Fl.rounded_fin, ← hr, Fl.fin_mul, Fl.rounded_fin]
  · have := abs_sub_le (rd (c * r)) (c * r) (cof a j i / a.det)
    have g : B ^ 2 * T ≤ 6 * (κ * (B ^ 2 * T)) := by nlinarith
    have f : 1.4e-14 * κ * (B ^ 2 * T) ≤ 1.4e-14 * κ ^ 2 / B := by
      calc 1.4e-14 * κ * (B ^ 2 * T) ≤ 1.4e-14 * κ * (κ / B) := by gcongr
        _ = 1.4e-14 * κ ^ 2 / B := by ring
    refine le_trans ?_ f
    have g0 : 0 ≤ κ * (B ^ 2 * T) := by positivity
    rw [mul_assoc] at p1 ⊢
    norm_num at p1 p3 this ⊢; linarith

/-! ### The Cholesky factor -/

/-- A square root. -/
theorem sqrt_far (hrd : RoundsToNearest rd) {p : ℝ} (hp : 1e-240 ≤ p) :
    0 < rd (√p) ∧ 0.99 * √p ≤ rd (√p) ∧ rd (√p) ≤ 1.001 * √p ∧ |rd (√p) ^ 2 - p| ≤ 2.5e-16 * p := by
  have hp0 : 0 < p := lt_of_lt_of_le (by norm_num) hp
  have h0 : 0 < √p := Real.sqrt_pos.mpr hp0
  have h1 : (1e-120 : ℝ) ≤ √p := Real.le_sqrt_of_sq_le (le_trans (by norm_num) hp)
  have h2 := rd_far hrd (abs_of_pos h0).le (by norm_num at h1 ⊢; linarith)
  have h3 := Real.sq_sqrt hp0.le
  have e : rd (√p) ^ 2 - p = (rd (√p) - √p) * (2 * √p + (rd (√p) - √p)) := by
    linear_combination h3
  have h4 : |rd (√p) ^ 2 - p| ≤ 1.2e-16 * √p * (2.01 * √p) := by
    rw [e, abs_mul]
    refine mul_le_mul h2 ?_ (abs_nonneg _) (by positivity)
    refine (abs_add_le _ _).trans ?_
    rw [abs_of_pos (by positivity : 0 < 2 * √p)]
    norm_num at h2 ⊢; linarith
  have h5 : 1.2e-16 * √p * (2.01 * √p) ≤ 2.5e-16 * p := by
    rw [show 1.2e-16 * √p * (2.01 * √p) = 2.412e-16 * √p ^ 2 by ring, h3]
    gcongr; norm_num
  rw [abs_le] at h2
  norm_num at h2
  refine ⟨?_, ?_, ?_, h4.trans h5⟩ <;> norm_num <;> linarith [h2.1, h2.2]

/-- What the factorisation needs to know of a symmetric matrix: its entries, and that its quadratic form is at least `l` times the square of the length. -/
structure Pos (a : Matrix (Fin 3) (Fin 3) ℝ) (l D W : ℝ) : Prop where
  symm : ∀ i j, a i j = a j i
  diag : ∀ i, a i i ≤ D
  size : 1e-200 ≤ D
  root : W ^ 2 = D
  pos : 0 < W
  low : 1e-14 * D ≤ l
  form : ∀ x y z : ℝ, l * (x ^ 2 + y ^ 2 + z ^ 2) ≤
    a 0 0 * x ^ 2 + a 1 1 * y ^ 2 + a 2 2 * z ^ 2 + 2 * (a 1 0 * (x * y) + a 2 0 * (x * z) + a 2 1 * (y * z))

namespace Pos

variable {a : Matrix (Fin 3) (Fin 3) ℝ} {l D W : ℝ}

theorem l_pos (h : Pos a l D W) : 1e-214 ≤ l := by
  have h1 := h.size
  have h2 := h.low
  norm_num at h1 h2 ⊢
  linarith

/-- The first column of the factor. -/
theorem first (h : Pos a l D W) (hrd : RoundsToNearest rd) :
    ∃ x l1 l2 : ℝ, rd (√(a 0 0)) = x ∧ rd (a 1 0 / x) = l1 ∧ rd (a 2 0 / x) = l2 ∧ 0 < a 0 0 ∧ 0 < x ∧ x ≤ 1.001 * W ∧
      |l1| ≤ 1.02 * W ∧ |l2| ≤ 1.02 * W ∧
      |x ^ 2 - a 0 0| ≤ 2.5e-16 * D ∧ |l1 * x - a 1 0| ≤ 1.3e-16 * D ∧ |l2 * x - a 2 0| ≤ 1.3e-16 * D := by
  have hl := h.l_pos
  have hl0 : 0 < l := lt_of_lt_of_le (by norm_num) hl
  have hW := h.pos
  have hD := h.root
  have f0 := h.form 1 0 0
  have ha : l ≤ a 0 0 := by norm_num at f0; linarith
  have ha0 : 0 < a 0 0 := hl0.trans_le ha
  obtain ⟨s1, s2, s3, s4⟩ := sqrt_far hrd (p := a 0 0) (le_trans (by norm_num at hl ⊢; linarith) ha)
  have sW : √(a 0 0) ≤ W := Real.sqrt_le_iff.mpr ⟨hW.le, by rw [hD]; exact h.diag 0⟩
  have hs := Real.sq_sqrt ha0.le
  have hs0 : 0 < √(a 0 0) := Real.sqrt_pos.mpr ha0
  -- entries off the diagonal
  have off : ∀ b d : ℝ, d ≤ D → (∀ x y : ℝ, 0 ≤ a 0 0 * x ^ 2 + d * y ^ 2 + 2 * (b * (x * y))) → |b| ≤ √(a 0 0) * W := by
    intro b d hd hq
    have q := hq (-b) (a 0 0)
    have q1 : a 0 0 * b ^ 2 ≤ a 0 0 * (a 0 0 * d) := by nlinarith
    have q2 : b ^ 2 ≤ a 0 0 * d := le_of_mul_le_mul_left q1 ha0
    have q3 : b ^ 2 ≤ (√(a 0 0) * W) ^ 2 := by
      rw [mul_pow, hs, hD]
      exact q2.trans (by gcongr)
    exact abs_le_of_sq_le_sq q3 (by positivity)
  have o1 := off (a 1 0) (a 1 1) (h.diag 1) (fun x y => by
    have := h.form x y 0
    have : 0 ≤ l * (x ^ 2 + y ^ 2 + 0 ^ 2) := by positivity
    linarith)
  have o2 := off (a 2 0) (a 2 2) (h.diag 2) (fun x y => by
    have := h.form x 0 y
    have : 0 ≤ l * (x ^ 2 + 0 ^ 2 + y ^ 2) := by positivity
    linarith)
  have hWs : (1e-100 : ℝ) ≤ W := by
    by_contra hlt
    push Not at hlt
    have : W ^ 2 < (1e-100) ^ 2 := pow_lt_pow_left₀ hlt hW.le (by norm_num)
    have := h.size
    norm_num at *
    linarith
  set x := rd (√(a 0 0)) with hx
  have col : ∀ b : ℝ, |b| ≤ √(a 0 0) * W → |rd (b / x)| ≤ 1.02 * W ∧ |rd (b / x) * x - b| ≤ 1.3e-16 * D := by
    intro b hb
    have g1 : |b / x| ≤ 1.0102 * W := by
      rw [abs_div, abs_of_pos s1, div_le_iff₀ s1]
      calc |b| ≤ √(a 0 0) * W := hb
        _ ≤ 1.0102 * W * (0.99 * √(a 0 0)) := by nlinarith [mul_pos hs0 hW]
        _ ≤ 1.0102 * W * x := by gcongr
    have g2 := rd_far hrd g1 (by norm_num at hWs ⊢; linarith)
    constructor
    · have := abs_sub_abs_le_abs_sub (rd (b / x)) (b / x)
      norm_num at g1 g2 this ⊢; linarith
    · have e : rd (b / x) * x - b = (rd (b / x) - b / x) * x := by field_simp
      rw [e, abs_mul, abs_of_pos s1]
      calc |rd (b / x) - b / x| * x ≤ 1.2e-16 * (1.0102 * W) * (1.001 * W) := by
            gcongr
            exact s3.trans (by gcongr)
        _ ≤ 1.3e-16 * D := by rw [← hD]; nlinarith [sq_nonneg W]
  refine ⟨x, _, _, rfl, rfl, rfl, ha0, s1, s3.trans (by gcongr), (col _ o1).1, (col _ o2).1, ?_, (col _ o1).2, (col _ o2).2⟩
  exact s4.trans (by gcongr; exact h.diag 0)

theorem err2 {e E u v : ℝ} (h : |e| ≤ E) : 2 * e * (u * v) ≤ E * (u ^ 2 + v ^ 2) := by
  rw [abs_le] at h
  nlinarith [mul_nonneg (sub_nonneg.mpr h.2) (sq_nonneg (u + v)), mul_nonneg (by linarith [h.1] : 0 ≤ E + e) (sq_nonneg (u - v))]

/-- What remains of the form after the first column is out. -/
theorem rest (h : Pos a l D W) {x l1 l2 : ℝ} (hx : 0 < x) (e0 : |x ^ 2 - a 0 0| ≤ 2.5e-16 * D) (e1 : |l1 * x - a 1 0| ≤ 1.3e-16 * D)
    (e2 : |l2 * x - a 2 0| ≤ 1.3e-16 * D) (β γ : ℝ) :
    0.9 * l * (β ^ 2 + γ ^ 2) ≤ (a 1 1 - l1 ^ 2) * β ^ 2 + (a 2 2 - l2 ^ 2) * γ ^ 2 + 2 * (a 2 1 - l2 * l1) * (β * γ) := by
  have hl0 : 0 < l := lt_of_lt_of_le (by norm_num) h.l_pos
  obtain ⟨s, hs⟩ : ∃ s, x * s = -(l1 * β + l2 * γ) := ⟨-(l1 * β + l2 * γ) / x, by field_simp⟩
  have f := h.form s β γ
  have g0 := err2 (e := a 0 0 - x ^ 2) (E := 2.5e-16 * D) (u := s) (v := s) (by rwa [abs_sub_comm] at e0)
  have g1 := err2 (e := a 1 0 - l1 * x) (E := 1.3e-16 * D) (u := s) (v := β) (by rwa [abs_sub_comm] at e1)
  have g2 := err2 (e := a 2 0 - l2 * x) (E := 1.3e-16 * D) (u := s) (v := γ) (by rwa [abs_sub_comm] at e2)
  have id : a 0 0 * s ^ 2 + a 1 1 * β ^ 2 + a 2 2 * γ ^ 2 + 2 * (a 1 0 * (s * β) + a 2 0 * (s * γ) + a 2 1 * (β * γ)) =
      (a 1 1 - l1 ^ 2) * β ^ 2 + (a 2 2 - l2 ^ 2) * γ ^ 2 + 2 * (a 2 1 - l2 * l1) * (β * γ) +
        1 / 2 * (2 * (a 0 0 - x ^ 2) * (s * s)) + 2 * (a 1 0 - l1 * x) * (s * β) + 2 * (a 2 0 - l2 * x) * (s * γ) := by
    linear_combination (x * s + (l1 * β + l2 * γ)) * hs
  rw [id] at f
  have lo := h.low
  have hs2 := sq_nonneg s
  have hb2 := sq_nonneg β
  have hg2 := sq_nonneg γ
  have k : 5.1e-16 * D * (s ^ 2 + β ^ 2 + γ ^ 2) ≤ 0.1 * l * (s ^ 2 + β ^ 2 + γ ^ 2) := by
    have := h.size
    refine mul_le_mul_of_nonneg_right ?_ (by positivity)
    norm_num at lo this ⊢; linarith
  have hD : 0 ≤ D := le_trans (by norm_num) h.size
  have k1 := mul_nonneg hD hs2
  have k2 := mul_nonneg hD hb2
  have k3 := mul_nonneg hD hg2
  have k4 := mul_nonneg hl0.le hs2
  norm_num at g0 g1 g2 k f ⊢
  linarith

set_option maxHeartbeats 1000000 in
/-- The second column of the factor. -/
theorem second (h : Pos a l D W) (hrd : RoundsToNearest rd) {x l1 l2 : ℝ} (hx : 0 < x) (b1 : |l1| ≤ 1.02 * W) (b2 : |l2| ≤ 1.02 * W)
    (e0 : |x ^ 2 - a 0 0| ≤ 2.5e-16 * D) (e1 : |l1 * x - a 1 0| ≤ 1.3e-16 * D) (e2 : |l2 * x - a 2 0| ≤ 1.3e-16 * D) :
    ∃ p y l3 : ℝ, rd (a 1 1 - rd (l1 * l1)) = p ∧ rd (√p) = y ∧ rd (rd (a 2 1 - rd (l2 * l1)) / y) = l3 ∧ 0 < p ∧ 0 < y ∧ |l3| ≤ 1.05 * W ∧
      |y ^ 2 + l1 ^ 2 - a 1 1| ≤ 5.5e-16 * D ∧ |l3 * y + l2 * l1 - a 2 1| ≤ 5.6e-16 * D := by
  have hl := h.l_pos
  have hl0 : 0 < l := lt_of_lt_of_le (by norm_num) hl
  have hW := h.pos
  have hD := h.root
  have lo := h.low
  have sz := h.size
  have hD0 : 0 < D := lt_of_lt_of_le (by norm_num) sz
  have big : ∀ c : ℝ, 0.01 ≤ c → (1e-250 : ℝ) ≤ c * D := fun c hc => by
    have : 0.01 * D ≤ c * D := by gcongr
    norm_num at this sz ⊢; linarith
  have hWs : (1e-100 : ℝ) ≤ W := by
    by_contra hlt
    push Not at hlt
    have : W ^ 2 < (1e-100) ^ 2 := pow_lt_pow_left₀ hlt hW.le (by norm_num)
    norm_num at *
    linarith
  have R := h.rest hx e0 e1 e2
  have sq : ∀ {u v : ℝ}, |u| ≤ 1.02 * W → |v| ≤ 1.02 * W → |u * v| ≤ 1.05 * D := by
    intro u v hu hv
    rw [abs_mul]
    calc |u| * |v| ≤ 1.02 * W * (1.02 * W) := by gcongr
      _ ≤ 1.05 * D := by rw [← hD]; nlinarith [sq_nonneg W]
  -- the pivot
  have r1 := R 1 0
  have u1 : 0.9 * l ≤ a 1 1 - l1 ^ 2 := by norm_num at r1 ⊢; linarith
  have a11 : a 1 1 ≤ D := h.diag 1
  have s1 := sq b1 b1
  have t1 := rd_far hrd s1 (big _ (by norm_num))
  have n1 : 0 ≤ rd (l1 * l1) := hrd.nonneg (mul_self_nonneg _)
  have q1 : l1 * l1 = l1 ^ 2 := by ring
  have sqn := sq_nonneg l1
  have t2 := rd_far hrd (x := a 1 1 - rd (l1 * l1)) (X := 1.01 * D) (by
    rw [abs_le] at t1 ⊢
    norm_num at t1 u1 ⊢
    constructor <;> linarith [t1.1, t1.2]) (big _ (by norm_num))
  set p := rd (a 1 1 - rd (l1 * l1)) with hp
  have t3 : |p - (a 1 1 - l1 ^ 2)| ≤ 2.6e-16 * D := by
    rw [abs_le] at t1 t2 ⊢
    norm_num at t1 t2 ⊢
    constructor <;> linarith [t1.1, t1.2, t2.1, t2.2]
  have hp1 : 0.87 * l ≤ p := by
    rw [abs_le] at t3
    norm_num at t3 u1 lo ⊢
    linarith [t3.1]
  have hp2 : p ≤ 1.0001 * D := by
    rw [abs_le] at t3
    norm_num at t3 u1 lo ⊢
    linarith [t3.2]
  have hp0 : 0 < p := lt_of_lt_of_le (by positivity) hp1
  obtain ⟨y1, y2, y3, y4⟩ := sqrt_far hrd (p := p) (by norm_num at hl hp1 ⊢; linarith)
  set y := rd (√p) with hy
  have hsq := Real.sq_sqrt hp0.le
  have hs0 : 0 < √p := Real.sqrt_pos.mpr hp0
  have yW : y ≤ 1.002 * W := by
    have : √p ≤ 1.0001 * W := Real.sqrt_le_iff.mpr ⟨by positivity, by rw [mul_pow, hD]; norm_num at hp2 ⊢; linarith⟩
    norm_num at y3 this ⊢; linarith
  have e3 : |y ^ 2 + l1 ^ 2 - a 1 1| ≤ 5.5e-16 * D := by
    have : 2.5e-16 * p ≤ 2.5e-16 * (1.0001 * D) := by gcongr
    rw [abs_le] at t3 y4 ⊢
    norm_num at t3 y4 this ⊢
    constructor <;> linarith [t3.1, t3.2, y4.1, y4.2]
  -- the entry below
  have hv : (a 2 1 - l2 * l1) ^ 2 ≤ (a 1 1 - l1 ^ 2) * (a 2 2 - l2 ^ 2) := by
    have q := R (-(a 2 1 - l2 * l1)) (a 1 1 - l1 ^ 2)
    have q0 : 0 ≤ 0.9 * l * ((-(a 2 1 - l2 * l1)) ^ 2 + (a 1 1 - l1 ^ 2) ^ 2) := by positivity
    have hA : 0 < a 1 1 - l1 ^ 2 := lt_of_lt_of_le (by positivity) u1
    have q2 : (a 1 1 - l1 ^ 2) * (a 2 1 - l2 * l1) ^ 2 ≤ (a 1 1 - l1 ^ 2) * ((a 1 1 - l1 ^ 2) * (a 2 2 - l2 ^ 2)) := by nlinarith
    exact le_of_mul_le_mul_left q2 hA
  have r2 := R 0 1
  have u2 : 0 ≤ a 2 2 - l2 ^ 2 := by norm_num at r2; linarith
  have u3 : a 2 2 - l2 ^ 2 ≤ D := by have := h.diag 2; linarith [sq_nonneg l2]
  have u4 : a 1 1 - l1 ^ 2 ≤ 1.04 * p := by
    rw [abs_le] at t3
    norm_num at t3 hp1 lo ⊢
    linarith [t3.1]
  have w1 : |a 2 1 - l2 * l1| ≤ 1.02 * (√p * W) := by
    refine abs_le_of_sq_le_sq ?_ (by positivity)
    calc (a 2 1 - l2 * l1) ^ 2 ≤ (a 1 1 - l1 ^ 2) * (a 2 2 - l2 ^ 2) := hv
      _ ≤ 1.04 * p * D := by gcongr
      _ ≤ (1.02 * (√p * W)) ^ 2 := by
        rw [mul_pow, mul_pow, hsq, hD]
        have : 0 ≤ p * D := by positivity
        norm_num; linarith
  have s2 := sq b2 b1
  have v1 := rd_far hrd s2 (big _ (by norm_num))
  have wD : |a 2 1 - l2 * l1| ≤ 1.03 * D := by
    refine w1.trans ?_
    have : √p ≤ 1.0001 * W := Real.sqrt_le_iff.mpr ⟨by positivity, by rw [mul_pow, hD]; norm_num at hp2 ⊢; linarith⟩
    calc 1.02 * (√p * W) ≤ 1.02 * (1.0001 * W * W) := by gcongr
      _ ≤ 1.03 * D := by rw [← hD]; nlinarith [sq_nonneg W]
  have v2 := rd_far hrd (x := a 2 1 - rd (l2 * l1)) (X := 1.04 * D) (by
    rw [abs_le] at v1 wD ⊢
    norm_num at v1 wD ⊢
    constructor <;> linarith [v1.1, v1.2, wD.1, wD.2]) (big _ (by norm_num))
  set z := rd (a 2 1 - rd (l2 * l1)) with hz
  have v3 : |z - (a 2 1 - l2 * l1)| ≤ 2.6e-16 * D := by
    rw [abs_le] at v1 v2 ⊢
    norm_num at v1 v2 ⊢
    constructor <;> linarith [v1.1, v1.2, v2.1, v2.2]
  have ps : 9e-8 * W ≤ √p := by
    refine Real.le_sqrt_of_sq_le ?_
    rw [mul_pow, hD]
    norm_num at hp1 lo ⊢; linarith
  have v4 : |z / y| ≤ 1.04 * W := by
    rw [abs_div, abs_of_pos y1, div_le_iff₀ y1]
    have g1 : |z| ≤ 1.02 * (√p * W) + 2.6e-16 * D := by
      have := abs_sub_abs_le_abs_sub z (a 2 1 - l2 * l1)
      linarith
    have g2 : 2.6e-16 * D ≤ 1e-8 * (√p * W) := by
      have : 9e-8 * W * W ≤ √p * W := by gcongr
      rw [← hD]
      norm_num at this ⊢; nlinarith
    have g3 : 1.04 * W * (0.99 * √p) ≤ 1.04 * W * y := by gcongr
    have g4 := mul_pos hs0 hW
    norm_num at g1 g2 g3 ⊢
    nlinarith
  have v5 := rd_far hrd v4 (by norm_num at hWs ⊢; linarith)
  refine ⟨p, y, rd (z / y), rfl, rfl, rfl, hp0, y1, ?_, e3, ?_⟩
  · have := abs_sub_abs_le_abs_sub (rd (z / y)) (z / y)
    norm_num at v4 v5 this ⊢; linarith
  · have e : rd (z / y) * y + l2 * l1 - a 2 1 = (rd (z / y) - z / y) * y + (z - (a 2 1 - l2 * l1)) := by field_simp; ring
    rw [e]
    refine (abs_add_le _ _).trans ?_
    rw [abs_mul, abs_of_pos y1]
    have : |rd (z / y) - z / y| * y ≤ 1.2e-16 * (1.04 * W) * (1.002 * W) := by gcongr
    have f : 1.2e-16 * (1.04 * W) * (1.002 * W) ≤ 1.3e-16 * D := by rw [← hD]; nlinarith [sq_nonneg W]
    norm_num at this f v3 ⊢; linarith

/-- The last pivot. -/
theorem third (h : Pos a l D W) (hrd : RoundsToNearest rd) {x l1 l2 y l3 : ℝ} (hx : 0 < x) (hy : 0 < y)
    (e0 : |x ^ 2 - a 0 0| ≤ 2.5e-16 * D) (e1 : |l1 * x - a 1 0| ≤ 1.3e-16 * D) (e2 : |l2 * x - a 2 0| ≤ 1.3e-16 * D)
    (e3 : |y ^ 2 + l1 ^ 2 - a 1 1| ≤ 5.5e-16 * D) (e4 : |l3 * y + l2 * l1 - a 2 1| ≤ 5.6e-16 * D) :
    ∃ p z : ℝ, rd (a 2 2 - rd (rd (l2 * l2) + rd (l3 * l3))) = p ∧ rd (√p) = z ∧ 0 < p ∧ 0 < z ∧
      |z ^ 2 + l3 ^ 2 + l2 ^ 2 - a 2 2| ≤ 1e-15 * D := by
  have hl := h.l_pos
  have hl0 : 0 < l := lt_of_lt_of_le (by norm_num) hl
  have hW := h.pos
  have hD := h.root
  have lo := h.low
  have sz := h.size
  have hD0 : 0 < D := lt_of_lt_of_le (by norm_num) sz
  have big : ∀ c : ℝ, 0.01 ≤ c → (1e-250 : ℝ) ≤ c * D := fun c hc => by
    have : 0.01 * D ≤ c * D := by gcongr
    norm_num at this sz ⊢; linarith
  have R := h.rest hx e0 e1 e2
  -- the rest of the form, at the point where the second column vanishes too
  obtain ⟨β, hβ⟩ : ∃ β, y * β = -l3 := ⟨-l3 / y, by field_simp⟩
  have r := R β 1
  have g3 := err2 (e := a 1 1 - (y ^ 2 + l1 ^ 2)) (E := 5.5e-16 * D) (u := β) (v := β) (by rwa [abs_sub_comm] at e3)
  have g4 := err2 (e := a 2 1 - (l3 * y + l2 * l1)) (E := 5.6e-16 * D) (u := β) (v := 1) (by rwa [abs_sub_comm] at e4)
  have id : (a 1 1 - l1 ^ 2) * β ^ 2 + (a 2 2 - l2 ^ 2) * 1 ^ 2 + 2 * (a 2 1 - l2 * l1) * (β * 1) =
      a 2 2 - l2 ^ 2 - l3 ^ 2 + 1 / 2 * (2 * (a 1 1 - (y ^ 2 + l1 ^ 2)) * (β * β)) + 2 * (a 2 1 - (l3 * y + l2 * l1)) * (β * 1) := by
    linear_combination (y * β + l3) * hβ
  rw [id] at r
  have hb2 := sq_nonneg β
  have k2 := mul_nonneg hD0.le hb2
  have k : 1.2e-15 * D * (β ^ 2 + 1) ≤ 0.12 * l * (β ^ 2 + 1) := by
    refine mul_le_mul_of_nonneg_right ?_ (by positivity)
    norm_num at lo ⊢; linarith
  have k4 := mul_nonneg hl0.le hb2
  have u : 0.7 * l ≤ a 2 2 - l2 ^ 2 - l3 ^ 2 := by
    norm_num at r g3 g4 k ⊢
    linarith
  have a22 := h.diag 2
  have n2 := sq_nonneg l2
  have n3 := sq_nonneg l3
  have m2 : l2 ^ 2 ≤ D := by norm_num at u; linarith
  have m3 : l3 ^ 2 ≤ D := by norm_num at u; linarith
  have m23 : l2 ^ 2 + l3 ^ 2 ≤ D := by norm_num at u; linarith
  have q2 : l2 * l2 = l2 ^ 2 := by ring
  have q3 : l3 * l3 = l3 ^ 2 := by ring
  rw [q2, q3]
  have t2 := rd_far hrd (x := l2 ^ 2) (X := 1 * D) (by rw [abs_of_nonneg n2]; linarith) (big _ (by norm_num))
  have t3 := rd_far hrd (x := l3 ^ 2) (X := 1 * D) (by rw [abs_of_nonneg n3]; linarith) (big _ (by norm_num))
  rw [abs_le] at t2 t3
  have t4 := rd_far hrd (x := rd (l2 ^ 2) + rd (l3 ^ 2)) (X := 1.01 * D) (by
    rw [abs_le]
    norm_num at t2 t3 ⊢
    constructor <;> linarith [t2.1, t2.2, t3.1, t3.2]) (big _ (by norm_num))
  rw [abs_le] at t4
  have t5 := rd_far hrd (x := a 2 2 - rd (rd (l2 ^ 2) + rd (l3 ^ 2))) (X := 1.02 * D) (by
    rw [abs_le]
    norm_num at t2 t3 t4 u ⊢
    constructor <;> linarith [t2.1, t2.2, t3.1, t3.2, t4.1, t4.2]) (big _ (by norm_num))
  rw [abs_le] at t5
  set p := rd (a 2 2 - rd (rd (l2 ^ 2) + rd (l3 ^ 2))) with hp
  have t6 : |p - (a 2 2 - l2 ^ 2 - l3 ^ 2)| ≤ 4.9e-16 * D := by
    rw [abs_le]
    norm_num at t2 t3 t4 t5 ⊢
    constructor <;> linarith [t2.1, t2.2, t3.1, t3.2, t4.1, t4.2, t5.1, t5.2]
  rw [abs_le] at t6
  have hp1 : 0.6 * l ≤ p := by norm_num at t6 u lo ⊢; linarith [t6.1]
  have hp2 : p ≤ 1.01 * D := by norm_num at t6 u lo ⊢; linarith [t6.2]
  obtain ⟨z1, z2, z3, z4⟩ := sqrt_far hrd (p := p) (by norm_num at hl hp1 ⊢; linarith)
  refine ⟨p, rd (√p), rfl, rfl, lt_of_lt_of_le (by positivity) hp1, z1, ?_⟩
  have : 2.5e-16 * p ≤ 2.5e-16 * (1.01 * D) := by gcongr
  rw [abs_le] at z4 ⊢
  norm_num at t6 z4 this ⊢
  constructor <;> linarith [t6.1, t6.2, z4.1, z4.2]

end Pos

end

end Ndt.Rounded
