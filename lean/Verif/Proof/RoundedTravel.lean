import Verif.Model.RoundedTravel
import Verif.Proof.RoundedMotion
import Verif.Proof.RoundedHeading
import Verif.Proof.Orientation

/-! # Lemmas about travel and headings in double precision -/

namespace Ndt.Rounded

noncomputable section

open Real Spec

/-! ### Distances -/

theorem square_near {rd : ℝ → ℝ} (hrd : RoundsToNearest rd) {X m : ℝ} (hm : 1e-6 ≤ m) :
    |rd (rd X * rd X) - X ^ 2| ≤ 3.9e-16 * X ^ 2 + 1e-17 * m ^ 2 := by
  have h1 := rd_near hrd (le_refl |X|)
  set a := |X| with ha
  have a0 : 0 ≤ a := abs_nonneg X
  have hX : X ^ 2 = a ^ 2 := (sq_abs X).symm
  have m0 : 0 < m := lt_of_lt_of_le (by norm_num) hm
  have hm2 : 1e-12 ≤ m ^ 2 := by
    have := mul_le_mul hm hm (by norm_num) m0.le
    norm_num at this ⊢
    nlinarith
  have ham : a ≤ 5e5 * (a ^ 2 + m ^ 2) := by
    have e1 : a * 1e-6 ≤ a * m := mul_le_mul_of_nonneg_left hm a0
    have e2 := sq_nonneg (a - m)
    norm_num at e1 ⊢
    nlinarith
  set e := rd X - X with he
  have e1 : rd X * rd X - X ^ 2 = e * (2 * X + e) := by rw [he]; ring
  have h2 : |2 * X + e| ≤ 2.1 * a + 1e-30 := by
    have := abs_add_le (2 * X) e
    rw [abs_mul, abs_of_pos (by norm_num : (0 : ℝ) < 2)] at this
    norm_num at h1 ⊢
    linarith
  have h3 : |rd X * rd X - X ^ 2| ≤ (1.2e-16 * a + 1e-30) * (2.1 * a + 1e-30) := by
    rw [e1, abs_mul]
    exact mul_le_mul h1 h2 (abs_nonneg _) (by positivity)
  have h4 : (1.2e-16 * a + 1e-30) * (2.1 * a + 1e-30) ≤ 2.53e-16 * a ^ 2 + 2e-18 * m ^ 2 := by
    have : (1.2e-16 * a + 1e-30) * (2.1 * a + 1e-30) = 2.52e-16 * a ^ 2 + (1.2e-46 + 2.1e-30) * a + 1e-60 := by ring
    rw [this]
    have q := sq_nonneg a
    norm_num at ham hm2 ⊢
    linarith
  have h5 := h3.trans h4
  have h6 : |rd X * rd X| ≤ 1.01 * a ^ 2 + 1e-3 * m ^ 2 := by
    have := abs_sub_abs_le_abs_sub (rd X * rd X) (X ^ 2)
    rw [abs_of_nonneg (sq_nonneg X), hX] at this
    rw [hX] at h5
    have q := sq_nonneg a
    have q2 := sq_nonneg m
    norm_num [-abs_mul] at this h5 ⊢
    linarith
  have h7 := rd_near hrd h6
  have h8 := abs_sub_le (rd (rd X * rd X)) (rd X * rd X) (X ^ 2)
  rw [hX] at h5 h8 ⊢
  have q := sq_nonneg a
  norm_num [-abs_mul] at h5 h7 h8 hm2 ⊢
  linarith

/-- The square of the distance. -/
theorem sqDist_near {rd : ℝ → ℝ} (hrd : RoundsToNearest rd) {m : ℝ} (hm : 1e-6 ≤ m) (a b : Pose2d) :
    |sqDist rd a b - ((b.x - a.x) ^ 2 + (b.y - a.y) ^ 2)| ≤ 5.2e-16 * ((b.x - a.x) ^ 2 + (b.y - a.y) ^ 2) + 3e-17 * m ^ 2 := by
  have hx := square_near hrd (X := b.x - a.x) hm
  have hy := square_near hrd (X := b.y - a.y) hm
  have m0 : 0 < m := lt_of_lt_of_le (by norm_num) hm
  have hm2 : 1e-12 ≤ m ^ 2 := by
    have := mul_le_mul hm hm (by norm_num) m0.le
    norm_num at this ⊢
    nlinarith
  unfold sqDist
  simp only
  set p := rd (rd (b.x - a.x) * rd (b.x - a.x))
  set q := rd (rd (b.y - a.y) * rd (b.y - a.y))
  have q1 := sq_nonneg (b.x - a.x)
  have q2 := sq_nonneg (b.y - a.y)
  set X := (b.x - a.x) ^ 2
  set Y := (b.y - a.y) ^ 2
  have hx' := abs_le.mp hx
  have hy' := abs_le.mp hy
  have h1 := rd_near hrd (x := p + q) (X := 1.01 * (X + Y) + 1e-3 * m ^ 2) (by
    rw [abs_le]
    norm_num at hx' hy' hm2 ⊢
    constructor <;> linarith [hx'.1, hx'.2, hy'.1, hy'.2])
  have h1' := abs_le.mp h1
  rw [abs_le]
  norm_num at hx' hy' h1' hm2 ⊢
  constructor <;> linarith [hx'.1, hx'.2, hy'.1, hy'.2, h1'.1, h1'.2]

theorem threshold_near {rd : ℝ → ℝ} (hrd : RoundsToNearest rd) {m : ℝ} (hm : 1e-6 ≤ m) : |rd (m * m) - m ^ 2| ≤ 1.3e-16 * m ^ 2 := by
  have m0 : 0 < m := lt_of_lt_of_le (by norm_num) hm
  have hm2 : 1e-12 ≤ m ^ 2 := by
    have := mul_le_mul hm hm (by norm_num) m0.le
    norm_num at this ⊢
    nlinarith
  have h := rd_near hrd (x := m * m) (X := m ^ 2) (by rw [← pow_two, abs_of_nonneg (sq_nonneg m)])
  rw [← pow_two] at h ⊢
  norm_num at h hm2 ⊢
  linarith

theorem far_enough {rd : ℝ → ℝ} (hrd : RoundsToNearest rd) {m : ℝ} (hm : 1e-6 ≤ m) {a b : Pose2d}
    (h : (1 + 1e-15) * m ≤ √((b.x - a.x) ^ 2 + (b.y - a.y) ^ 2)) : rd (m * m) ≤ sqDist rd a b := by
  have m0 : 0 < m := lt_of_lt_of_le (by norm_num) hm
  have h1 := abs_le.mp (sqDist_near hrd hm a b)
  have h2 := abs_le.mp (threshold_near hrd hm)
  set D := (b.x - a.x) ^ 2 + (b.y - a.y) ^ 2
  have h3 : ((1 + 1e-15) * m) ^ 2 ≤ D := by
    rw [Real.le_sqrt' (by positivity)] at h
    exact h
  have e : ((1 + 1e-15) * m) ^ 2 = (1 + 1e-15) ^ 2 * m ^ 2 := by ring
  rw [e] at h3
  have q := sq_nonneg m
  norm_num at h1 h2 h3 ⊢
  linarith [h1.1, h2.2]

theorem near_enough {rd : ℝ → ℝ} (hrd : RoundsToNearest rd) {m : ℝ} (hm : 1e-6 ≤ m) {a b : Pose2d}
    (h : √((b.x - a.x) ^ 2 + (b.y - a.y) ^ 2) ≤ (1 - 1e-15) * m) : sqDist rd a b < rd (m * m) := by
  have m0 : 0 < m := lt_of_lt_of_le (by norm_num) hm
  have h1 := abs_le.mp (sqDist_near hrd hm a b)
  have h2 := abs_le.mp (threshold_near hrd hm)
  set D := (b.x - a.x) ^ 2 + (b.y - a.y) ^ 2
  have h3 : D ≤ ((1 - 1e-15) * m) ^ 2 := by
    rw [Real.sqrt_le_left (by norm_num; positivity)] at h
    exact h
  have e : ((1 - 1e-15) * m) ^ 2 = (1 - 1e-15) ^ 2 * m ^ 2 := by ring
  rw [e] at h3
  have q : 0 < m ^ 2 := by positivity
  norm_num at h1 h2 h3 ⊢
  linarith [h1.2, h2.1]

/-! ### Headings -/

/-- The direction of a vector next to one of length `R`. -/
theorem arg_near' {c s R mu ε : ℝ} (hε : 0 ≤ ε) (hR : 0 < R) (hsmall : 100 * ε ≤ R) (hc : |c - R * cos mu| ≤ ε) (hs : |s - R * sin mu| ≤ ε) :
    ∃ k : ℤ, |Complex.arg ⟨c, s⟩ - mu + k * (2 * π)| ≤ 2.1 * ε / R := by
  have hcs := cos_sq_add_sin_sq mu
  have b1 := abs_cos_le_one mu
  have b2 := abs_sin_le_one mu
  set φ := Complex.arg ⟨c, s⟩ with hφ
  have e1 : |(c - R * cos mu) * cos mu| ≤ ε := by
    rw [abs_mul]; exact (mul_le_of_le_one_right (abs_nonneg _) b1).trans hc
  have e2 : |(s - R * sin mu) * sin mu| ≤ ε := by
    rw [abs_mul]; exact (mul_le_of_le_one_right (abs_nonneg _) b2).trans hs
  have e3 : |(s - R * sin mu) * cos mu| ≤ ε := by
    rw [abs_mul]; exact (mul_le_of_le_one_right (abs_nonneg _) b1).trans hs
  have e4 : |(c - R * cos mu) * sin mu| ≤ ε := by
    rw [abs_mul]; exact (mul_le_of_le_one_right (abs_nonneg _) b2).trans hc
  have hx : c * cos mu + s * sin mu = R + ((c - R * cos mu) * cos mu + (s - R * sin mu) * sin mu) := by
    linear_combination R * hcs
  have hx1 : 0.98 * R ≤ c * cos mu + s * sin mu := by
    rw [hx]
    linarith [(abs_le.mp e1).1, (abs_le.mp e2).1]
  have hy1 : |s * cos mu - c * sin mu| ≤ 2 * ε := by
    have : s * cos mu - c * sin mu = (s - R * sin mu) * cos mu - (c - R * cos mu) * sin mu := by ring
    rw [this]
    exact (abs_sub _ _).trans (by linarith)
  have p1 : c = ‖(⟨c, s⟩ : ℂ)‖ * cos φ := (Complex.norm_mul_cos_arg ⟨c, s⟩).symm
  have p2 : s = ‖(⟨c, s⟩ : ℂ)‖ * sin φ := (Complex.norm_mul_sin_arg ⟨c, s⟩).symm
  obtain ⟨k, hk⟩ := turn_le (δ := φ - mu) (r := ‖(⟨c, s⟩ : ℂ)‖) (x := c * cos mu + s * sin mu)
    (y := s * cos mu - c * sin mu) (norm_nonneg _)
    (by rw [cos_sub]; nth_rewrite 1 [p1]; nth_rewrite 2 [p2]; ring)
    (by rw [sin_sub]; nth_rewrite 1 [p2]; nth_rewrite 2 [p1]; ring) (by linarith)
  refine ⟨k, hk.trans ?_⟩
  have hx0 : 0 < c * cos mu + s * sin mu := lt_of_lt_of_le (by linarith) hx1
  rw [div_le_div_iff₀ hx0 hR]
  have t1 := mul_le_mul_of_nonneg_right hy1 hR.le
  have t2 := mul_le_mul_of_nonneg_left hx1 (mul_nonneg (by norm_num : (0 : ℝ) ≤ 2.1) hε)
  nlinarith

/-- A rounded product of components next to others. -/
theorem comp_near {rd : ℝ → ℝ} (hrd : RoundsToNearest rd) {a b u v δ : ℝ} (hδ0 : 0 ≤ δ) (hδ : δ ≤ 1e-3) (ha : |a - u| ≤ δ) (hb : |b - v| ≤ δ)
    (hu : |u| ≤ 1) (hv : |v| ≤ 1) : |rd (a * b) - u * v| ≤ 2.001 * δ + 1.3e-16 := by
  have e : a * b - u * v = (a - u) * v + u * (b - v) + (a - u) * (b - v) := by ring
  have h1 : |(a - u) * v| ≤ δ * 1 := by rw [abs_mul]; exact mul_le_mul ha hv (abs_nonneg _) hδ0
  have h2 : |u * (b - v)| ≤ 1 * δ := by rw [abs_mul]; exact mul_le_mul hu hb (abs_nonneg _) (by norm_num)
  have h3 : |(a - u) * (b - v)| ≤ δ * 1e-3 := by
    rw [abs_mul]; exact mul_le_mul ha (hb.trans hδ) (abs_nonneg _) hδ0
  have h4 : |a * b - u * v| ≤ 2.001 * δ := by
    rw [e]
    have t1 := abs_add_le ((a - u) * v + u * (b - v)) ((a - u) * (b - v))
    have t2 := abs_add_le ((a - u) * v) (u * (b - v))
    norm_num [-abs_mul] at h3 ⊢
    linarith
  have h5 : |u * v| ≤ 1 := by rw [abs_mul]; exact mul_le_one₀ hu (abs_nonneg _) hv
  have h6 : |a * b| ≤ 1.003 := by
    have := abs_sub_abs_le_abs_sub (a * b) (u * v)
    norm_num [-abs_mul] at h4 hδ ⊢
    linarith
  have h7 := rd_near hrd h6
  have h8 := abs_sub_le (rd (a * b)) (a * b) (u * v)
  norm_num [-abs_mul] at h4 h7 ⊢
  linarith

/-- A rounded sum. -/
theorem addition_near {rd : ℝ → ℝ} (hrd : RoundsToNearest rd) {a b u v α β B : ℝ} (ha : |a - u| ≤ α) (hb : |b - v| ≤ β)
    (hB : |u + v| + α + β ≤ B) : |rd (a + b) - (u + v)| ≤ α + β + 1.2e-16 * B + 1e-30 := by
  have e : a + b - (u + v) = (a - u) + (b - v) := by ring
  have h1 : |a + b - (u + v)| ≤ α + β := by rw [e]; exact (abs_add_le _ _).trans (add_le_add ha hb)
  have h2 : |a + b| ≤ B := by
    have := abs_sub_abs_le_abs_sub (a + b) (u + v)
    linarith
  have h3 := rd_near hrd h2
  have h4 := abs_sub_le (rd (a + b)) (a + b) (u + v)
  linarith

/-- The components of `q` are next to those of `u`. -/
structure NearQ (δ : ℝ) (q u : Quat) : Prop where
  x : |q.x - u.x| ≤ δ
  y : |q.y - u.y| ≤ δ
  z : |q.z - u.z| ≤ δ
  w : |q.w - u.w| ≤ δ

theorem unitQ_comp {u : Quat} (h : UnitQ u) : |u.x| ≤ 1 ∧ |u.y| ≤ 1 ∧ |u.z| ≤ 1 ∧ |u.w| ≤ 1 := by
  unfold UnitQ at h
  refine ⟨?_, ?_, ?_, ?_⟩ <;> (rw [← sq_le_one_iff_abs_le_one]; nlinarith [sq_nonneg u.x, sq_nonneg u.y, sq_nonneg u.z, sq_nonneg u.w])

/-- The sine that is passed to `atan2`. -/
theorem yaw_sin {rd : ℝ → ℝ} (hrd : RoundsToNearest rd) {q u : Quat} {δ : ℝ} (hu : UnitQ u) (h : NearQ δ q u) (hδ0 : 0 ≤ δ) (hδ : δ ≤ 1e-4) :
    |rd (2 * rd (rd (q.x * q.y) + rd (q.w * q.z))) - 2 * (u.x * u.y + u.w * u.z)| ≤ 8.1 * δ + 1.5e-15 := by
  obtain ⟨x1, y1, z1, w1⟩ := unitQ_comp hu
  have p1 := comp_near hrd hδ0 (hδ.trans (by norm_num)) h.x h.y x1 y1
  have p2 := comp_near hrd hδ0 (hδ.trans (by norm_num)) h.w h.z w1 z1
  have hs : |u.x * u.y + u.w * u.z| ≤ 1 / 2 := by
    unfold UnitQ at hu
    rw [abs_le]
    constructor <;> nlinarith [sq_nonneg (u.x + u.y), sq_nonneg (u.x - u.y), sq_nonneg (u.w + u.z), sq_nonneg (u.w - u.z)]
  have p3 := addition_near hrd p1 p2 (B := 0.51) (by norm_num at hδ hs ⊢; linarith)
  set S := u.x * u.y + u.w * u.z
  set t := rd (rd (q.x * q.y) + rd (q.w * q.z))
  have p3' := abs_le.mp p3
  have hs' := abs_le.mp hs
  have p4 := rd_near hrd (x := 2 * t) (X := 1.02) (by
    rw [abs_le]
    norm_num at p3' hδ ⊢
    constructor <;> linarith [p3'.1, p3'.2])
  have p4' := abs_le.mp p4
  rw [abs_le]
  norm_num at p3' p4' ⊢
  constructor <;> linarith [p3'.1, p3'.2, p4'.1, p4'.2]

/-- The cosine that is passed to `atan2`. -/
theorem yaw_cos {rd : ℝ → ℝ} (hrd : RoundsToNearest rd) {q u : Quat} {δ : ℝ} (hu : UnitQ u) (h : NearQ δ q u) (hδ0 : 0 ≤ δ) (hδ : δ ≤ 1e-4) :
    |rd (rd (rd (rd (q.w * q.w) + rd (q.x * q.x)) - rd (q.y * q.y)) - rd (q.z * q.z)) -
      (u.w * u.w + u.x * u.x - u.y * u.y - u.z * u.z)| ≤ 8.1 * δ + 1.5e-15 := by
  obtain ⟨x1, y1, z1, w1⟩ := unitQ_comp hu
  have pw := comp_near hrd hδ0 (hδ.trans (by norm_num)) h.w h.w w1 w1
  have px := comp_near hrd hδ0 (hδ.trans (by norm_num)) h.x h.x x1 x1
  have py := comp_near hrd hδ0 (hδ.trans (by norm_num)) h.y h.y y1 y1
  have pz := comp_near hrd hδ0 (hδ.trans (by norm_num)) h.z h.z z1 z1
  unfold UnitQ at hu
  have sw := mul_self_nonneg u.w
  have sx := mul_self_nonneg u.x
  have sy := mul_self_nonneg u.y
  have sz := mul_self_nonneg u.z
  have hu' : u.x * u.x + u.y * u.y + u.z * u.z + u.w * u.w = 1 := by linear_combination hu
  have neg : ∀ {a b c : ℝ}, |a - b| ≤ c → |-a - -b| ≤ c := fun {a b c} h => by rwa [neg_sub_neg, abs_sub_comm]
  have s1 := addition_near hrd pw px (B := 1.01) (by
    rw [abs_of_nonneg (by linarith)]; norm_num at hδ ⊢; linarith)
  have s2 := addition_near hrd s1 (neg py) (B := 1.01) (by
    have : |u.w * u.w + u.x * u.x + -(u.y * u.y)| ≤ 1 := by rw [abs_le]; constructor <;> linarith
    norm_num at hδ this ⊢; linarith)
  have s3 := addition_near hrd s2 (neg pz) (B := 1.01) (by
    have : |u.w * u.w + u.x * u.x + -(u.y * u.y) + -(u.z * u.z)| ≤ 1 := by rw [abs_le]; constructor <;> linarith
    norm_num at hδ this ⊢; linarith)
  rw [← sub_eq_add_neg, ← sub_eq_add_neg, ← sub_eq_add_neg, ← sub_eq_add_neg] at s3
  refine s3.trans ?_
  norm_num
  linarith

/-- The number that tells the poles. -/
theorem yaw_sarg {rd : ℝ → ℝ} (hrd : RoundsToNearest rd) {q u : Quat} {δ : ℝ} (hu : UnitQ u) (h : NearQ δ q u) (hδ0 : 0 ≤ δ) (hδ : δ ≤ 1e-4)
    (hp : |2 * (u.x * u.z - u.w * u.y)| ≤ 0.8) :
    |rd (rd (-2 * rd (rd (q.x * q.z) - rd (q.w * q.y))) /
      rd (rd (rd (rd (q.x * q.x) + rd (q.y * q.y)) + rd (q.z * q.z)) + rd (q.w * q.w)))| ≤ 0.9 := by
  obtain ⟨x1, y1, z1, w1⟩ := unitQ_comp hu
  have pw := comp_near hrd hδ0 (hδ.trans (by norm_num)) h.w h.w w1 w1
  have px := comp_near hrd hδ0 (hδ.trans (by norm_num)) h.x h.x x1 x1
  have py := comp_near hrd hδ0 (hδ.trans (by norm_num)) h.y h.y y1 y1
  have pz := comp_near hrd hδ0 (hδ.trans (by norm_num)) h.z h.z z1 z1
  have p1 := comp_near hrd hδ0 (hδ.trans (by norm_num)) h.x h.z x1 z1
  have p2 := comp_near hrd hδ0 (hδ.trans (by norm_num)) h.w h.y w1 y1
  unfold UnitQ at hu
  have sw := mul_self_nonneg u.w
  have sx := mul_self_nonneg u.x
  have sy := mul_self_nonneg u.y
  have sz := mul_self_nonneg u.z
  have hu' : u.x * u.x + u.y * u.y + u.z * u.z + u.w * u.w = 1 := by linear_combination hu
  have s1 := addition_near hrd px py (B := 1.01) (by
    rw [abs_of_nonneg (by linarith)]; norm_num at hδ ⊢; linarith)
  have s2 := addition_near hrd s1 pz (B := 1.01) (by
    rw [abs_of_nonneg (by linarith)]; norm_num at hδ ⊢; linarith)
  have s3 := addition_near hrd s2 pw (B := 1.01) (by
    rw [abs_of_nonneg (by linarith)]; norm_num at hδ ⊢; linarith)
  rw [hu'] at s3
  set n := rd (rd (rd (rd (q.x * q.x) + rd (q.y * q.y)) + rd (q.z * q.z)) + rd (q.w * q.w))
  have hn : 0.99 ≤ n := by
    have := (abs_le.mp s3).1
    norm_num at this hδ ⊢
    linarith
  have hp' := abs_le.mp hp
  have neg : |-rd (q.w * q.y) - -(u.w * u.y)| ≤ 2.001 * δ + 1.3e-16 := by rwa [neg_sub_neg, abs_sub_comm]
  have t1 := addition_near hrd p1 neg (B := 0.41) (by
    have : |u.x * u.z + -(u.w * u.y)| ≤ 0.4 := by
      rw [abs_le]; norm_num at hp' ⊢; constructor <;> linarith [hp'.1, hp'.2]
    norm_num at this hδ ⊢; linarith)
  rw [← sub_eq_add_neg, ← sub_eq_add_neg] at t1
  set d := rd (rd (q.x * q.z) - rd (q.w * q.y))
  have t1' := abs_le.mp t1
  have hd : |(-2) * d| ≤ 0.81 := by
    rw [abs_le]
    norm_num at t1' hp' hδ ⊢
    constructor <;> linarith [t1'.1, t1'.2, hp'.1, hp'.2]
  have hd2 := rd_near hrd hd
  have hd3 : |rd (-2 * d)| ≤ 0.82 := by
    have := abs_sub_abs_le_abs_sub (rd (-2 * d)) (-2 * d)
    norm_num [-abs_mul] at hd hd2 this ⊢
    linarith
  have hq : |rd (-2 * d) / n| ≤ 0.84 := by
    rw [abs_div, abs_of_pos (lt_of_lt_of_le (by norm_num) hn), div_le_iff₀ (lt_of_lt_of_le (by norm_num) hn)]
    norm_num at hn hd3 ⊢
    linarith
  have h3 := rd_near hrd hq
  have := abs_sub_abs_le_abs_sub (rd (rd (-2 * d) / n)) (rd (-2 * d) / n)
  norm_num [-abs_mul, -abs_div] at hq h3 this ⊢
  linarith

/-- A heading read from a quaternion next to a unit quaternion that is not tilted too much. -/
theorem yaw_near {rd : ℝ → ℝ} {at2 : ℝ → ℝ → ℝ} (hrd : RoundsToNearest rd) (hat : AccurateAtan2 at2) {q u : Quat} {δ : ℝ} (hu : UnitQ u)
    (h : NearQ δ q u) (hδ0 : 0 ≤ δ) (hδ : δ ≤ 1e-4) (hp : |2 * (u.x * u.z - u.w * u.y)| ≤ 0.8) :
    |getYaw rd at2 q| ≤ π ∧ ∃ k : ℤ, |getYaw rd at2 q - (u.getYaw + k * (2 * π))| ≤ 30 * δ + 7e-15 := by
  have hs := yaw_sin hrd hu h hδ0 hδ
  have hc := yaw_cos hrd hu h hδ0 hδ
  have hsarg := abs_le.mp (yaw_sarg hrd hu h hδ0 hδ hp)
  have c1 : 0.95 ≤ rd 0.99999 := by
    have := (abs_le.mp (rd_near hrd (x := 0.99999) (X := 1) (by rw [abs_le]; constructor <;> norm_num))).1
    norm_num at this ⊢; linarith
  have c2 : rd (-0.99999) ≤ -0.95 := by
    have := (abs_le.mp (rd_near hrd (x := -0.99999) (X := 1) (by rw [abs_le]; constructor <;> norm_num))).2
    norm_num at this ⊢; linarith
  unfold getYaw
  simp only
  rw [if_neg (by norm_num at hsarg c2 ⊢; linarith [hsarg.1]), if_neg (by norm_num at hsarg c1 ⊢; linarith [hsarg.2])]
  refine ⟨hat.range _ _, ?_⟩
  rw [getYaw_off_pole hu (lt_of_le_of_lt hp (by norm_num))]
  set s := rd (2 * _)
  set c := rd (_ - rd (q.z * q.z))
  set A := 2 * (u.x * u.y + u.w * u.z)
  set B := u.w * u.w + u.x * u.x - u.y * u.y - u.z * u.z
  have hAB : A ^ 2 + B ^ 2 = 1 - (2 * (u.x * u.z - u.w * u.y)) ^ 2 := by
    unfold UnitQ at hu
    have : (1 : ℝ) = (u.x ^ 2 + u.y ^ 2 + u.z ^ 2 + u.w ^ 2) ^ 2 := by rw [hu]; norm_num
    rw [this]
    simp only [A, B]
    ring
  have hsq : (2 * (u.x * u.z - u.w * u.y)) ^ 2 ≤ 0.8 ^ 2 := sq_le_sq' (by linarith [(abs_le.mp hp).1]) (abs_le.mp hp).2
  set R := ‖(⟨B, A⟩ : ℂ)‖ with hR
  have hR2 : R ^ 2 = A ^ 2 + B ^ 2 := by
    rw [hR, ← Complex.normSq_eq_norm_sq, Complex.normSq_mk]; ring
  have hRge : 0.6 ≤ R := by
    have : (0.6 : ℝ) ^ 2 ≤ R ^ 2 := by rw [hR2, hAB]; norm_num at hsq ⊢; linarith
    exact le_of_sq_le_sq this (norm_nonneg _)
  have e1 : B = R * cos (Complex.arg ⟨B, A⟩) := (Complex.norm_mul_cos_arg ⟨B, A⟩).symm
  have e2 : A = R * sin (Complex.arg ⟨B, A⟩) := (Complex.norm_mul_sin_arg ⟨B, A⟩).symm
  have hε : 100 * (8.1 * δ + 1.5e-15) ≤ R := by norm_num at hδ hRge ⊢; linarith
  obtain ⟨k, hk⟩ := arg_near' (c := c) (s := s) (mu := Complex.arg ⟨B, A⟩) (ε := 8.1 * δ + 1.5e-15) (by positivity)
    (lt_of_lt_of_le (by norm_num) hRge) hε (by rw [← e1]; exact hc) (by rw [← e2]; exact hs)
  have hne : c ≠ 0 ∨ s ≠ 0 := by
    by_contra hcon
    push Not at hcon
    rw [hcon.1] at hc
    rw [hcon.2] at hs
    have h1 : A ^ 2 ≤ 0.1 ^ 2 := by
      have := abs_le.mp hs
      norm_num at hδ this
      apply sq_le_sq' <;> norm_num <;> linarith [this.1, this.2]
    have h2 : B ^ 2 ≤ 0.1 ^ 2 := by
      have := abs_le.mp hc
      norm_num at hδ this
      apply sq_le_sq' <;> norm_num <;> linarith [this.1, this.2]
    norm_num at h1 h2 hsq hAB
    linarith
  obtain ⟨k2, hk2⟩ := hat.near s c hne
  have hfrac : 2.1 * (8.1 * δ + 1.5e-15) / R ≤ 28.5 * δ + 5.3e-15 := by
    rw [div_le_iff₀ (lt_of_lt_of_le (by norm_num) hRge)]
    have := mul_le_mul_of_nonneg_left hRge (by positivity : 0 ≤ 28.5 * δ + 5.3e-15)
    norm_num at this ⊢
    linarith
  refine ⟨k2 - k, ?_⟩
  unfold atan2 at hk2 ⊢
  have e : at2 s c - (Complex.arg ⟨B, A⟩ + ((k2 - k : ℤ) : ℝ) * (2 * π)) =
      (at2 s c - (Complex.arg ⟨c, s⟩ + k2 * (2 * π))) + (Complex.arg ⟨c, s⟩ - Complex.arg ⟨B, A⟩ + k * (2 * π)) := by
    push_cast; ring
  rw [e]
  refine (abs_add_le _ _).trans ((add_le_add hk2 (hk.trans hfrac)).trans ?_)
  norm_num
  linarith

end

end Ndt.Rounded
