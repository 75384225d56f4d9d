import Verif.Proof.RoundedScore
import Verif.Proof.RoundedInformation
import Verif.Spec.RoundedGauss

/-! # Helper lemmas: the score of a cell in double precision is that of its points -/

namespace Ndt.Rounded

open Spec

variable {rd : ℝ → ℝ}

/-- Eigenvalues and entries of a positive matrix. -/
theorem eig_facts {a b d s : ℝ} (hs : 0 < s) (hf : ∀ v w, s * (v ^ 2 + w ^ 2) ≤ v ^ 2 * a + 2 * (v * w) * b + w ^ 2 * d) :
    s ≤ eigMin a b d ∧ s ≤ a ∧ s ≤ d ∧ a ≤ eigMax a b d ∧ d ≤ eigMax a b d ∧ |b| ≤ eigMax a b d / 2 := by
  have ha : s ≤ a := by simpa using hf 1 0
  have hd : s ≤ d := by simpa using hf 0 1
  have h1 := eig_add a b d
  have h2 := eig_mul a b d
  have hl : s ≤ eigMin a b d := by
    set l := eigMin a b d with hl
    have hchar : (l - a) * (l - d) = b ^ 2 := by
      have : l * (a + d - l) = a * d - b * b := by rw [← h2, ← h1]; ring
      nlinarith
    have h := hf b (l - a)
    have e : b ^ 2 * a + 2 * (b * (l - a)) * b + (l - a) ^ 2 * d = l * (b ^ 2 + (l - a) ^ 2) := by
      have : (l - a) * (b ^ 2 - (l - a) * (l - d)) = 0 := by rw [hchar]; ring
      linarith
    rw [e] at h
    by_cases h0 : b ^ 2 + (l - a) ^ 2 = 0
    · have : l - a = 0 := by nlinarith [sq_nonneg b, sq_nonneg (l - a)]
      linarith
    · have : 0 < b ^ 2 + (l - a) ^ 2 := lt_of_le_of_ne (by positivity) (Ne.symm h0)
      exact le_of_mul_le_mul_right h this
  have q1 : |a - d| ≤ Real.sqrt ((a - d) ^ 2 + 4 * b ^ 2) := Real.abs_le_sqrt (by nlinarith [sq_nonneg b])
  have q2 : |2 * b| ≤ Real.sqrt ((a - d) ^ 2 + 4 * b ^ 2) := Real.abs_le_sqrt (by nlinarith [sq_nonneg (a - d)])
  rw [abs_mul, abs_of_pos (by norm_num : (0 : ℝ) < 2)] at q2
  have q3 := abs_le.mp q1
  refine ⟨hl, ha, hd, ?_, ?_, ?_⟩
  · unfold eigMax; linarith
  · unfold eigMax; linarith
  · unfold eigMin at hl
    unfold eigMax
    linarith

theorem sqrt_lipschitz (x y x' y' : ℝ) : |Real.sqrt (x' ^ 2 + 4 * y' ^ 2) - Real.sqrt (x ^ 2 + 4 * y ^ 2)| ≤ |x' - x| + 2 * |y' - y| := by
  have e : ∀ x y : ℝ, Real.sqrt (x ^ 2 + 4 * y ^ 2) = ‖(⟨x, 2 * y⟩ : ℂ)‖ := by
    intro x y
    rw [Complex.norm_def, Complex.normSq_mk]
    congr 1
    ring
  rw [e, e]
  refine (abs_norm_sub_norm_le _ _).trans ((Complex.norm_le_abs_re_add_abs_im _).trans ?_)
  simp only [Complex.sub_re, Complex.sub_im]
  rw [← mul_sub, abs_mul, abs_of_pos (by norm_num : (0 : ℝ) < 2)]

/-- Eigenvalues change no more than three times as much as the entries. -/
theorem eig_lipschitz {a b d a' b' d' δ : ℝ} (ha : |a' - a| ≤ δ) (hb : |b' - b| ≤ δ) (hd : |d' - d| ≤ δ) :
    |eigMax a' b' d' - eigMax a b d| ≤ 3 * δ ∧ |eigMin a' b' d' - eigMin a b d| ≤ 3 * δ := by
  have h := sqrt_lipschitz (a - d) b (a' - d') b'
  have h1 : |a' - d' - (a - d)| ≤ 2 * δ := by
    have : a' - d' - (a - d) = (a' - a) - (d' - d) := by ring
    rw [this]
    exact (abs_sub _ _).trans (by linarith)
  have h2 := abs_le.mp (h.trans (by linarith : _ ≤ 4 * δ))
  have h3 := abs_le.mp ha
  have h4 := abs_le.mp hd
  unfold eigMax eigMin
  exact ⟨abs_le.mpr ⟨by linarith, by linarith⟩, abs_le.mpr ⟨by linarith, by linarith⟩⟩

/-- The limited determinant is not small. -/
theorem limitedDet_facts {a b d s : ℝ} (hs : 0 < s) (hl : s ≤ eigMin a b d) :
    s * eigMax a b d ≤ limitedDet a b d ∧ eigMax a b d * eigMax a b d ≤ 1000 * limitedDet a b d ∧
      limitedDet a b d = max (eigMin a b d * eigMax a b d) (eigMax a b d * eigMax a b d / 1000) := by
  have hL : 0 < eigMax a b d := lt_of_lt_of_le (hs.trans_le hl) (eigMin_le_eigMax a b d)
  unfold limitedDet
  refine ⟨mul_le_mul_of_nonneg_right (hl.trans (le_max_left _ _)) hL.le, ?_, ?_⟩
  · have := mul_le_mul_of_nonneg_right (le_max_right (eigMin a b d) (eigMax a b d / 1000)) hL.le
    linarith
  · rw [max_mul_of_nonneg _ _ hL.le]
    congr 1
    ring

theorem inv_rel {T D κ : ℝ} (hD : 0 < D) (h : |T - D| ≤ κ * D) (hκ : κ ≤ 1 / 10) : 0 < T ∧ 9 / 10 * D ≤ T ∧ |D / T - 1| ≤ 1.12 * κ := by
  have h1 := abs_le.mp h
  have h2 : κ * D ≤ 1 / 10 * D := mul_le_mul_of_nonneg_right hκ hD.le
  have hT : 9 / 10 * D ≤ T := by linarith
  have hT0 : 0 < T := by linarith
  have hk : 0 ≤ κ := by
    by_contra hn
    have := mul_neg_of_neg_of_pos (not_le.mp hn) hD
    have := abs_nonneg (T - D)
    linarith
  refine ⟨hT0, hT, ?_⟩
  have e : D / T - 1 = -(T - D) / T := by field_simp; ring
  rw [e, abs_div, abs_neg, abs_of_pos hT0, div_le_iff₀ hT0]
  have h3 := mul_le_mul_of_nonneg_left hT hk
  norm_num
  linarith

/-- The larger eigenvalue times a thousandth of it, as the code computes it. -/
theorem thousandth (hr : RoundsToNearest rd) {g : ℝ} (hg : 1e-20 ≤ g) :
    |rd (rd 0.001 * g) - g / 1000| ≤ 3e-16 * (g / 1000) ∧ |rd (rd (rd 0.001 * g) * g) - g * g / 1000| ≤ 5e-16 * (g * g / 1000) := by
  have hg0 : 0 < g := lt_of_lt_of_le (by norm_num) hg
  have h1 := rd_far hr (x := 0.001) (X := 0.001) (by norm_num) (by norm_num)
  have hP : (1e-40 : ℝ) ≤ g * g := le_trans (by norm_num) (mul_le_mul hg hg (by norm_num) hg0.le)
  have h2 : |rd 0.001 * g - g / 1000| ≤ 1.2e-16 * (g / 1000) := by
    have e : rd 0.001 * g - g / 1000 = (rd 0.001 - 0.001) * g := by ring
    rw [e, abs_mul, abs_of_pos hg0]
    refine (mul_le_mul_of_nonneg_right h1 hg0.le).trans (le_of_eq (by ring))
  have h3 : |rd 0.001 * g| ≤ 1.01 * (g / 1000) := by
    rw [abs_le] at h2 ⊢
    norm_num at h2 ⊢
    constructor <;> linarith
  have h4 := rd_far hr h3 (by norm_num at hg ⊢; linarith)
  have h5 : |rd (rd 0.001 * g) - g / 1000| ≤ 3e-16 * (g / 1000) := by
    rw [abs_le] at h2 h4 ⊢
    norm_num at h2 h4 ⊢
    constructor <;> linarith
  refine ⟨h5, ?_⟩
  have h6 : |rd (rd 0.001 * g) * g - g * g / 1000| ≤ 3e-16 * (g * g / 1000) := by
    have e : rd (rd 0.001 * g) * g - g * g / 1000 = (rd (rd 0.001 * g) - g / 1000) * g := by ring
    rw [e, abs_mul, abs_of_pos hg0]
    refine (mul_le_mul_of_nonneg_right h5 hg0.le).trans (le_of_eq (by ring))
  have hgg : 0 < g * g := mul_pos hg0 hg0
  generalize g * g = P at *
  have h7 : |rd (rd 0.001 * g) * g| ≤ 1.01 * (P / 1000) := by
    rw [abs_le] at h6 ⊢
    norm_num at h6 ⊢
    constructor <;> linarith
  have h8 := rd_far hr h7 (by norm_num at hP ⊢; linarith)
  rw [abs_le] at h6 h8 ⊢
  norm_num at h6 h8 ⊢
  constructor <;> linarith

/-- The determinant that `compute` divides by, in either branch, is near the limited determinant. `S` is the least spread times the larger
eigenvalue, `P` the square of the latter. -/
theorem special_det {t τ s l L g m y T D : ℝ} (ht : 1e-14 ≤ t) (ht2 : t ≤ 3e-4) (hτ : 0 ≤ τ) (hτ2 : τ ≤ 2e-5) (hs : 0 < s) (hsL : s ≤ L)
    (hg : |g - L| ≤ 4 * (t * s) + τ * L) (hm : |m - l| ≤ 4 * (t * s) + τ * L) (hy : |y - g / 1000| ≤ 3e-16 * (g / 1000))
    (hT : |T - g * g / 1000| ≤ 5e-16 * (g * g / 1000)) (hD : D = max (l * L) (L * L / 1000)) (hD1 : s * L ≤ D) (hD2 : L * L ≤ 1000 * D)
    (hmy : m < y) : |T - D| ≤ (18 * t + 1006 * τ) * D := by
  have hL0 : 0 < L := hs.trans_le hsL
  have hD0 : 0 < D := lt_of_lt_of_le (mul_pos hs hL0) hD1
  have hts : t * s ≤ t * L := mul_le_mul_of_nonneg_left hsL (by linarith)
  have hν : 4 * (t * s) + τ * L ≤ 0.0013 * L := by
    have h1 := mul_le_mul_of_nonneg_right ht2 hL0.le
    have h2 := mul_le_mul_of_nonneg_right hτ2 hL0.le
    norm_num at h1 h2 ⊢
    linarith
  have g1 := abs_le.mp hg
  have gL : g ≤ 1.01 * L := by norm_num at hν ⊢; linarith
  have gL' : 0.99 * L ≤ g := by norm_num at hν ⊢; linarith
  have g0 : 0 < g := by norm_num at gL'; linarith
  -- the square of the larger eigenvalue
  have sq : |g * g - L * L| ≤ 2.01 * ((4 * (t * s) + τ * L) * L) := by
    have e : g * g - L * L = (g - L) * (g + L) := by ring
    rw [e, abs_mul, abs_of_pos (by linarith : 0 < g + L)]
    have := mul_le_mul hg (by linarith : g + L ≤ 2.01 * L) (by linarith) (by nlinarith)
    linarith
  have gg : g * g ≤ 1.03 * (L * L) := by
    have := (abs_le.mp sq).2
    have h2 := mul_le_mul_of_nonneg_right hν hL0.le
    have hLL := mul_pos hL0 hL0
    norm_num at this h2 ⊢
    linarith
  have tP : t * (s * L) ≤ t * D := mul_le_mul_of_nonneg_left hD1 (by linarith)
  have τP : τ * (L * L) ≤ τ * (1000 * D) := mul_le_mul_of_nonneg_left hD2 hτ
  have tP2 : t * (s * L) ≤ t * (L * L) := mul_le_mul_of_nonneg_left (mul_le_mul_of_nonneg_right hsL hL0.le) (by linarith)
  have tP3 : t * (L * L) ≤ t * (1000 * D) := mul_le_mul_of_nonneg_left hD2 (by linarith)
  have uD : 1e-14 * D ≤ t * D := mul_le_mul_of_nonneg_right ht hD0.le
  have tD : 0 ≤ t * D := mul_nonneg (by linarith) hD0.le
  have τD : 0 ≤ τ * D := mul_nonneg hτ hD0.le
  have e1 : (4 * (t * s) + τ * L) * L = 4 * (t * (s * L)) + τ * (L * L) := by ring
  rw [e1] at sq
  have s1 := abs_le.mp sq
  have T1 := abs_le.mp hT
  -- the smaller one
  have up : l * L - L * L / 1000 ≤ 10 * (t * D) + 1003 * (τ * D) := by
    have m1 := abs_le.mp hm
    have y1 := abs_le.mp hy
    have : l ≤ g / 1000 + 3e-16 * (g / 1000) + 4 * (t * s) + τ * L := by linarith
    have := mul_le_mul_of_nonneg_right this hL0.le
    have h2 := mul_le_mul_of_nonneg_right g1.2 hL0.le
    have h3 := mul_le_mul_of_nonneg_right gL hL0.le
    norm_num at this h3 uD ⊢
    linarith
  have low : L * L / 1000 ≤ D := by linarith
  rw [abs_le]
  have hD3 : D ≤ L * L / 1000 + (10 * (t * D) + 1003 * (τ * D)) := by
    have : D ≤ max (l * L) (L * L / 1000) := hD.le
    refine this.trans (max_le ?_ ?_)
    · linarith
    · linarith
  clear hg hm hy hT hD hts hν sq up
  norm_num at s1 T1 uD gg ⊢
  constructor <;> linarith

theorem regular_det (hr : RoundsToNearest rd) {t τ s a b d a' b' d' g m y l L D : ℝ} (ht : 1e-14 ≤ t) (ht2 : t ≤ 3e-4) (hτ : 0 ≤ τ) (hτ2 : τ ≤ 2e-5)
    (hs : 1e-12 ≤ s) (hsL : s ≤ L) (hg : |g - L| ≤ 4 * (t * s) + τ * L) (hm : |m - l| ≤ 4 * (t * s) + τ * L)
    (hy : |y - g / 1000| ≤ 3e-16 * (g / 1000)) (hD : D = max (l * L) (L * L / 1000)) (hD1 : s * L ≤ D) (hD2 : L * L ≤ 1000 * D)
    (hmy : y ≤ m) (ha : |a' - a| ≤ t * s) (hb : |b' - b| ≤ t * s) (hd : |d' - d| ≤ t * s) (a0 : 0 ≤ a) (d0 : 0 ≤ d) (aL : a ≤ L) (dL : d ≤ L)
    (bL : |b| ≤ L / 2) (had : a + d ≤ 2 * L) (hdet : l * L = a * d - b * b) :
    |rd (rd (a' * d') - rd (b' * b')) - D| ≤ (58 * t + 1004 * τ) * D := by
  have hs0 : 0 < s := lt_of_lt_of_le (by norm_num) hs
  have hL0 : 0 < L := hs0.trans_le hsL
  have hLL := mul_pos hL0 hL0
  have hD0 : 0 < D := lt_of_lt_of_le (mul_pos hs0 hL0) hD1
  have hts : t * s ≤ t * L := mul_le_mul_of_nonneg_left hsL (by linarith)
  have hts0 : 0 ≤ t * s := mul_nonneg (by linarith) hs0.le
  have htL : t * L ≤ 0.0003 * L := by
    refine mul_le_mul_of_nonneg_right (ht2.trans (by norm_num)) hL0.le
  have g1 := abs_le.mp hg
  have tP : t * (s * L) ≤ t * D := mul_le_mul_of_nonneg_left hD1 (by linarith)
  have τP : τ * (L * L) ≤ τ * (1000 * D) := mul_le_mul_of_nonneg_left hD2 hτ
  have uD : 1e-14 * D ≤ t * D := mul_le_mul_of_nonneg_right ht hD0.le
  have tD : 0 ≤ t * D := mul_nonneg (by linarith) hD0.le
  have τD : 0 ≤ τ * D := mul_nonneg hτ hD0.le
  have gL : g ≤ 1.01 * L := by
    have h2 := mul_le_mul_of_nonneg_right hτ2 hL0.le
    norm_num at h2 htL ⊢; linarith
  -- the smaller eigenvalue is not much less than a thousandth of the larger one
  have low : L * L / 1000 - l * L ≤ 10 * (t * D) + 1003 * (τ * D) := by
    have m1 := abs_le.mp hm
    have y1 := abs_le.mp hy
    have : g / 1000 - 3e-16 * (g / 1000) - 4 * (t * s) - τ * L ≤ l := by linarith
    have := mul_le_mul_of_nonneg_right this hL0.le
    have h2 := mul_le_mul_of_nonneg_right g1.1 hL0.le
    have h3 := mul_le_mul_of_nonneg_right gL hL0.le
    norm_num at this h3 uD ⊢
    linarith
  have near : |l * L - D| ≤ 10 * (t * D) + 1003 * (τ * D) := by
    have h1 : l * L ≤ D := hD ▸ le_max_left _ _
    have h2 : D ≤ l * L + (10 * (t * D) + 1003 * (τ * D)) := by
      have : D ≤ max (l * L) (L * L / 1000) := hD.le
      exact this.trans (max_le (by linarith) (by linarith))
    rw [abs_le]
    constructor <;> linarith
  -- the entries
  have pr : ∀ {x x' y y' : ℝ}, |x' - x| ≤ t * s → |y' - y| ≤ t * s → |x| + |y| ≤ 2 * L → |x' * y' - x * y| ≤ 2.001 * (t * (s * L)) := by
    intro x x' y y' hx hy hxy
    have e : x' * y' - x * y = (x' - x) * y + x * (y' - y) + (x' - x) * (y' - y) := by ring
    rw [e]
    refine (abs_add_le _ _).trans ((add_le_add (abs_add_le _ _) le_rfl).trans ?_)
    rw [abs_mul, abs_mul, abs_mul]
    have k1 := mul_le_mul_of_nonneg_right hx (abs_nonneg y)
    have k2 := mul_le_mul_of_nonneg_left hy (abs_nonneg x)
    have k3 := mul_le_mul hx (hy.trans (hts.trans htL)) (abs_nonneg _) hts0
    have k4 := mul_le_mul_of_nonneg_left hxy hts0
    have k5 := mul_nonneg hts0 hL0.le
    norm_num at k3 ⊢
    linarith
  have p1 := pr ha hd (by rw [abs_of_nonneg a0, abs_of_nonneg d0]; exact had)
  have p2 := pr hb hb (by linarith)
  have hP : (1e-24 : ℝ) ≤ L * L := le_trans (by norm_num) (mul_le_mul (hs.trans hsL) (hs.trans hsL) (by norm_num) hL0.le)
  have tLL : t * (s * L) ≤ 0.0003 * (L * L) := by
    have := mul_le_mul_of_nonneg_right (hts.trans htL) hL0.le
    norm_num at this ⊢
    linarith
  have z1 : |a' * d'| ≤ 1.01 * (L * L) := by
    have h1 := mul_le_mul aL dL d0 hL0.le
    have h2 := mul_nonneg a0 d0
    rw [abs_le] at p1 ⊢
    norm_num at p1 tLL ⊢
    constructor <;> linarith
  have z2 : |b' * b'| ≤ 0.26 * (L * L) := by
    have h1 := mul_le_mul bL bL (abs_nonneg _) (by linarith)
    rw [abs_mul_abs_self] at h1
    have h2 := mul_self_nonneg b
    rw [abs_le] at p2 ⊢
    norm_num at p2 tLL ⊢
    constructor <;> linarith
  have r1 := rd_far hr z1 (by norm_num at hP ⊢; linarith)
  have r2 := rd_far hr z2 (by norm_num at hP ⊢; linarith)
  have z3 : |rd (a' * d') - rd (b' * b')| ≤ 1.3 * (L * L) := by
    rw [abs_le] at r1 r2 z1 z2 ⊢
    norm_num at r1 r2 z1 z2 ⊢
    constructor <;> linarith
  have r3 := rd_far hr z3 (by norm_num at hP ⊢; linarith)
  rw [hdet] at near
  clear hg hm hy hD hD1 ha hb hd pr low g1 gL z1 z2 z3 hP
  rw [abs_le] at r1 r2 r3 p1 p2 near ⊢
  norm_num at r1 r2 r3 p1 p2 near uD ⊢
  constructor <;> linarith

/-- The information of a cell in double precision: the entries of the covariance times a number that is near the inverse of the limited
determinant. -/
theorem information_limited (hr : RoundsToNearest rd) {t τ s a b d a' b' d' : ℝ} {ev : ℝ × ℝ} (ht : 1e-14 ≤ t) (ht2 : t ≤ 3e-4) (hτ : 0 ≤ τ)
    (hτ2 : τ ≤ 2e-5) (hs : 1e-12 ≤ s) (hf : ∀ v w, s * (v ^ 2 + w ^ 2) ≤ v ^ 2 * a + 2 * (v * w) * b + w ^ 2 * d)
    (ha : |a' - a| ≤ t * s) (hb : |b' - b| ≤ t * s) (hd : |d' - d| ≤ t * s) (hM : eigMax a b d ≤ 1e20)
    (he1 : |max ev.1 ev.2 - eigMax a' b' d'| ≤ τ * eigMax a' b' d') (he2 : |min ev.1 ev.2 - eigMin a' b' d'| ≤ τ * eigMax a' b' d') :
    ∃ w, |limitedDet a b d * w - 1| ≤ 70 * t + 1200 * τ ∧ informationOf rd ev ⟨a', b', b', d'⟩ =
      ⟨.fin (rd (d' * w)), .fin (rd (-b' * w)), .fin (rd (-b' * w)), .fin (rd (a' * w))⟩ := by
  have hs0 : 0 < s := lt_of_lt_of_le (by norm_num) hs
  obtain ⟨f1, f2, f3, f4, f5, f6⟩ := eig_facts hs0 hf
  obtain ⟨d1, d2, d3⟩ := limitedDet_facts (a := a) (b := b) (d := d) hs0 f1
  obtain ⟨l1, l2⟩ := eig_lipschitz ha hb hd
  have hadd := eig_add a b d
  have hmul := eig_mul a b d
  have hle := eigMin_le_eigMax a b d
  generalize eigMax a' b' d' = L' at *
  generalize eigMin a' b' d' = l' at *
  generalize eigMax a b d = L at *
  generalize eigMin a b d = l at *
  generalize limitedDet a b d = D at *
  have hsL : s ≤ L := f1.trans hle
  have hL0 : 0 < L := hs0.trans_le hsL
  have hD0 : 0 < D := lt_of_lt_of_le (mul_pos hs0 hL0) d1
  have hts0 : 0 ≤ t * s := mul_nonneg (by linarith) hs0.le
  have hlg : (if ev.1 > ev.2 then ev.1 else ev.2) = max ev.1 ev.2 := by
    split
    · rw [max_eq_left (by linarith)]
    · rw [max_eq_right (by linarith)]
  have hsm : (if ev.1 > ev.2 then ev.2 else ev.1) = min ev.1 ev.2 := by
    split
    · rw [min_eq_right (by linarith)]
    · rw [min_eq_left (by linarith)]
  have hL' : τ * L' ≤ τ * L + t * s := by
    have h1 : L' ≤ L + 3 * (t * s) := by linarith [(abs_le.mp l1).2]
    have h2 := mul_le_mul_of_nonneg_left h1 hτ
    have h3 := mul_le_mul_of_nonneg_right hτ2 hts0
    norm_num at h3
    linarith
  have hg : |max ev.1 ev.2 - L| ≤ 4 * (t * s) + τ * L := by
    rw [abs_le] at he1 l1 ⊢
    constructor <;> linarith
  have hm : |min ev.1 ev.2 - l| ≤ 4 * (t * s) + τ * L := by
    rw [abs_le] at he2 l2 ⊢
    constructor <;> linarith
  have hg20 : 1e-20 ≤ max ev.1 ev.2 := by
    have h1 := mul_le_mul ht2 hsL hs0.le (by norm_num)
    have h2 := mul_le_mul_of_nonneg_right hτ2 hL0.le
    have h3 := (abs_le.mp hg).1
    generalize max ev.1 ev.2 = g at *
    norm_num at h1 h2 hs ⊢
    linarith
  obtain ⟨hy, hT⟩ := thousandth hr hg20
  have hκ : 58 * t + 1006 * τ ≤ 1 / 10 := by norm_num at ht2 hτ2 ⊢; linarith
  have hDlow : (1e-24 : ℝ) ≤ D := by
    refine le_trans ?_ d1
    exact le_trans (by norm_num) (mul_le_mul hs (hs.trans hsL) (by norm_num) hs0.le)
  by_cases hb' : min ev.1 ev.2 < rd (rd 0.001 * max ev.1 ev.2)
  · have key := special_det ht ht2 hτ hτ2 hs0 hsL hg hm hy hT d3 d1 d2 hb'
    obtain ⟨k1, k2, k3⟩ := inv_rel hD0 (κ := 58 * t + 1006 * τ) (key.trans (mul_le_mul_of_nonneg_right (by linarith) hD0.le)) hκ
    refine ⟨1 / rd (rd (rd 0.001 * max ev.1 ev.2) * max ev.1 ev.2), ?_, ?_⟩
    · rw [mul_one_div]
      refine k3.trans ?_
      norm_num at ht ⊢
      linarith
    · simp only [informationOf, hlg, hsm, if_pos hb', Fl.fin_div k1.ne', Fl.rounded_fin, mul_one_div]
  · have key := regular_det hr ht ht2 hτ hτ2 hs hsL hg hm hy d3 d1 d2 (not_lt.mp hb') ha hb hd (hs0.le.trans f2) (hs0.le.trans f3) f4 f5 f6
      (by linarith) hmul
    obtain ⟨k1, k2, k3⟩ := inv_rel hD0 (κ := 58 * t + 1006 * τ) (key.trans (mul_le_mul_of_nonneg_right (by linarith) hD0.le)) hκ
    refine ⟨rd (1 / rd (rd (a' * d') - rd (b' * b'))), ?_, ?_⟩
    · set T := rd (rd (a' * d') - rd (b' * b')) with hTd
      have hlow : 1e-250 ≤ 1 / T := by
        have hT1 : T ≤ 1e41 := by
          have hl' : l ≤ L := hle
          have h1 : D ≤ L * L := by
            rw [d3]
            refine max_le (mul_le_mul_of_nonneg_right hle hL0.le) ?_
            linarith [mul_pos hL0 hL0]
          have h2 : L * L ≤ 1e20 * 1e20 := mul_le_mul hM hM hL0.le (by norm_num)
          have h3 := (abs_le.mp key).2
          have h4 : (58 * t + 1004 * τ) * D ≤ 1 / 10 * D := mul_le_mul_of_nonneg_right (by linarith) hD0.le
          norm_num at h2 ⊢
          linarith
        refine le_trans ?_ (one_div_le_one_div_of_le k1 hT1)
        norm_num
      have e := rd_far hr (x := 1 / T) (X := 1 / T) (by rw [abs_of_pos (by positivity)]) hlow
      have e2 : D * rd (1 / T) - 1 = (D / T - 1) + D * (rd (1 / T) - 1 / T) := by ring
      rw [e2]
      refine (abs_add_le _ _).trans ?_
      rw [abs_mul, abs_of_pos hD0]
      have e3 := mul_le_mul_of_nonneg_left e hD0.le
      have e4 : D * (1.2e-16 * (1 / T)) = 1.2e-16 * (D / T) := by ring
      rw [e4] at e3
      have e5 : D / T ≤ 2 := by
        rw [div_le_iff₀ k1]
        linarith
      norm_num at ht e3 k3 ⊢
      linarith
    · simp only [informationOf, hlg, hsm, if_neg hb', inverse2, Fl.fin_div k1.ne', Fl.rounded_fin, Fl.fin_mul]

/-- What `score` computes for its exponent, with both signs. See `form_near`. -/
theorem form_both (hr : Spec.RoundsToNearest rd) {q0 q1 i00 i01 i11 j00 j01 j11 W Q δ : ℝ}
    (h00 : Near j00 i00 W 1.01 halfMin) (h01 : Near j01 i01 W 1.01 halfMin) (h11 : Near j11 i11 W 1.01 halfMin)
    (hQ1 : 1 ≤ Q) (h0 : |q0| ≤ Q) (h1 : |q1| ≤ Q) (hη : halfMin ≤ δ) (hδ : halfMin * (2 * W + halfMin + Q) ≤ δ) :
    |rd (rd (rd (rd (rd (-0.5 * q0) * j00) + rd (rd (-0.5 * q1) * j01)) * q0) +
        rd (rd (rd (rd (-0.5 * q0) * j01) + rd (rd (-0.5 * q1) * j11)) * q1)) -
      -0.5 * (q0 ^ 2 * i00 + 2 * (q0 * q1) * i01 + q1 ^ 2 * i11)| ≤ 7 * ulp * (q0 ^ 2 + q1 ^ 2) * W + 213 * (δ * Q) := by
  have hη0 := halfMin_pos
  have hδ0 : 0 ≤ δ := hη0.le.trans hη
  have hW := h00.A_nonneg
  have hδQ : δ ≤ δ * Q := le_mul_of_one_le_right hδ0 hQ1
  have half : ∀ q : ℝ, |q| ≤ Q → Near (rd (-0.5 * q)) (-0.5 * q) (0.5 * |q|) 1.01 halfMin := by
    intro q hq
    have h := (Near.exact (-0.5 * q)).round hr (by norm_num)
    have e : |(-0.5 : ℝ) * q| = 0.5 * |q| := by rw [abs_mul]; norm_num
    rw [e] at h
    exact h.weaken (by norm_num) (by norm_num) (by linarith)
  have entry : ∀ q j i : ℝ, |q| ≤ Q → Near j i W 1.01 halfMin →
      Near (rd (rd (-0.5 * q) * j)) (-0.5 * q * i) (0.5 * |q| * W) 3.06 (3 * δ) := by
    intro q j i hq hj
    refine (((half q hq).mul hj (by norm_num)).round hr (by norm_num)).weaken (by norm_num) (by norm_num) ?_
    have := mul_le_mul_of_nonneg_left hq hη0.le
    linarith
  have row : ∀ j j' i i' : ℝ, Near j i W 1.01 halfMin → Near j' i' W 1.01 halfMin →
      Near (rd (rd (rd (-0.5 * q0) * j) + rd (rd (-0.5 * q1) * j'))) (-0.5 * q0 * i + -0.5 * q1 * i')
        (0.5 * |q0| * W + 0.5 * |q1| * W) 4.07 (13 * δ) := by
    intro j j' i i' hj hj'
    exact (((entry q0 j i h0 hj).add (entry q1 j' i' h1 hj')).round hr (by norm_num)).weaken (by norm_num) (by norm_num)
      (by linarith)
  have term : ∀ r s A q : ℝ, |q| ≤ Q → Near r s A 4.07 (13 * δ) → Near (rd (r * q)) (s * q) (A * |q|) 5.13 (53 * (δ * Q)) := by
    intro r s A q hq hs
    refine ((hs.mul (Near.exact q) (by norm_num)).round hr (by norm_num)).weaken (by norm_num) (by norm_num) ?_
    have := mul_le_mul_of_nonneg_left hq hδ0
    linarith
  have all := (((term _ _ _ q0 h0 (row _ _ _ _ h00 h01)).add (term _ _ _ q1 h1 (row _ _ _ _ h01 h11))).round hr
    (by norm_num)).weaken (l := 6.2) (e := 213 * (δ * Q)) (by norm_num) (by norm_num) (by linarith)
  have a0 := sq_abs q0
  have a1 := sq_abs q1
  have hsq : (|q0| + |q1|) ^ 2 ≤ 2 * (q0 ^ 2 + q1 ^ 2) := by nlinarith [sq_nonneg (|q0| - |q1|)]
  have hsz : (0.5 * |q0| * W + 0.5 * |q1| * W) * |q0| + (0.5 * |q0| * W + 0.5 * |q1| * W) * |q1| ≤
      (q0 ^ 2 + q1 ^ 2) * W := by
    have := mul_le_mul_of_nonneg_right hsq hW
    nlinarith
  have hu := mul_le_mul_of_nonneg_left hsz ulp_pos.le
  have hp : 0 ≤ ulp * ((q0 ^ 2 + q1 ^ 2) * W) := mul_nonneg ulp_pos.le (mul_nonneg (by positivity) hW)
  have e : (-0.5 * q0 * i00 + -0.5 * q1 * i01) * q0 + (-0.5 * q0 * i01 + -0.5 * q1 * i11) * q1 =
      -0.5 * (q0 ^ 2 * i00 + 2 * (q0 * q1) * i01 + q1 ^ 2 * i11) := by ring
  have b := all.err
  rw [e] at b
  refine b.trans ?_
  linarith

/-- The exponent of the limited normal distribution, with entries, differences and determinant off by a little. -/
theorem exponent_perturb {t τ s a b d a' b' d' q0 q1 q0' q1' B Q L D w : ℝ} (ht : 1e-14 ≤ t) (ht2 : t ≤ 3e-4) (hτ2 : τ ≤ 2e-5)
    (hs : 0 < s) (hB : 0 < B) (hQ : B * B = Q * s) (hsL : s ≤ L) (a0 : 0 ≤ a) (d0 : 0 ≤ d) (had : a + d ≤ 2 * L) (bL : |b| ≤ L / 2)
    (hD1 : s * L ≤ D) (ha : |a' - a| ≤ t * s) (hb : |b' - b| ≤ t * s) (hd : |d' - d| ≤ t * s) (h0 : |q0| ≤ 2 * B) (h1 : |q1| ≤ 2 * B)
    (e0 : |q0' - q0| ≤ 0.4 * (t * B)) (e1 : |q1' - q1| ≤ 0.4 * (t * B)) (hw : |D * w - 1| ≤ 70 * t + 1200 * τ) :
    |-0.5 * (q0' ^ 2 * (d' * w) + 2 * (q0' * q1') * (-b' * w) + q1' ^ 2 * (a' * w)) -
      -(1 / 2) * ((q0 ^ 2 * d - 2 * q0 * q1 * b + q1 ^ 2 * a) / D)| ≤ Q * (433 * t + 7200 * τ) := by
  have hL0 : 0 < L := hs.trans_le hsL
  have hD0 : 0 < D := lt_of_lt_of_le (mul_pos hs hL0) hD1
  have hQ0 : 0 < Q := by
    have := mul_pos hB hB
    rw [hQ] at this
    exact (pos_iff_pos_of_mul_pos this).mpr hs
  have hρ : 70 * t + 1200 * τ ≤ 0.05 := by norm_num at ht2 hτ2 ⊢; linarith
  have w1 := abs_le.mp hw
  have Dw0 : 0 < D * w := by norm_num at hρ; linarith
  have hw0 : 0 < w := (pos_iff_pos_of_mul_pos Dw0).mp hD0
  have hwS : w * (s * L) ≤ 1.05 := by
    have := mul_le_mul_of_nonneg_left hD1 hw0.le
    linarith
  have hwss : w * (s * s) ≤ 1.05 := (mul_le_mul_of_nonneg_left (mul_le_mul_of_nonneg_left hsL hs.le) hw0.le).trans hwS
  have htB : t * B ≤ 0.0003 * B := mul_le_mul_of_nonneg_right (ht2.trans (by norm_num)) hB.le
  have htB0 : 0 ≤ t * B := mul_nonneg (by linarith) hB.le
  have hts0 : 0 ≤ t * s := mul_nonneg (by linarith) hs.le
  have htBB : 0 ≤ t * (B * B) := mul_nonneg (by linarith) (mul_pos hB hB).le
  -- products of differences
  have pr : ∀ {x x' y y' : ℝ}, |x| ≤ 2 * B → |y| ≤ 2 * B → |x' - x| ≤ 0.4 * (t * B) → |y' - y| ≤ 0.4 * (t * B) →
      |x' * y' - x * y| ≤ 1.601 * (t * (B * B)) ∧ |x' * y'| ≤ 4.01 * (B * B) := by
    intro x x' y y' hx hy hx' hy'
    have k : |x' * y' - x * y| ≤ 1.601 * (t * (B * B)) := by
      have e : x' * y' - x * y = (x' - x) * y + x * (y' - y) + (x' - x) * (y' - y) := by ring
      rw [e]
      refine (abs_add_le _ _).trans ((add_le_add (abs_add_le _ _) le_rfl).trans ?_)
      rw [abs_mul, abs_mul, abs_mul]
      have k1 := mul_le_mul hx' hy (abs_nonneg _) (by linarith)
      have k2 := mul_le_mul hx hy' (abs_nonneg _) (by linarith)
      have k3 := mul_le_mul hx' (hy'.trans (mul_le_mul_of_nonneg_left htB (by norm_num))) (abs_nonneg _) (by linarith)
      norm_num at k1 k2 k3 ⊢
      linarith
    refine ⟨k, ?_⟩
    have h1 : |x * y| ≤ 2 * B * (2 * B) := by rw [abs_mul]; exact mul_le_mul hx hy (abs_nonneg _) (by linarith)
    have h2 : |x' * y'| ≤ |x' * y' - x * y| + |x * y| := by simpa using abs_add_le (x' * y' - x * y) (x * y)
    have h3 := mul_le_mul_of_nonneg_right htB hB.le
    have h4 := mul_pos hB hB
    generalize |x' * y'| = z at *
    norm_num at k h3 ⊢
    linarith
  obtain ⟨p00, r00⟩ := pr h0 h0 e0 e0
  obtain ⟨p01, r01⟩ := pr h0 h1 e0 e1
  obtain ⟨p11, r11⟩ := pr h1 h1 e1 e1
  -- the form
  have hF : |(q0' ^ 2 * d' - 2 * (q0' * q1') * b' + q1' ^ 2 * a') - (q0 ^ 2 * d - 2 * q0 * q1 * b + q1 ^ 2 * a)| ≤
      4.81 * (t * (B * B) * L) + 16.04 * (B * B * (t * s)) := by
    have e : (q0' ^ 2 * d' - 2 * (q0' * q1') * b' + q1' ^ 2 * a') - (q0 ^ 2 * d - 2 * q0 * q1 * b + q1 ^ 2 * a) =
        ((q0' * q0' - q0 * q0) * d + (q1' * q1' - q1 * q1) * a - 2 * ((q0' * q1' - q0 * q1) * b)) +
        (q0' * q0' * (d' - d) + q1' * q1' * (a' - a) - 2 * (q0' * q1' * (b' - b))) := by ring
    rw [e]
    have m : ∀ {x X y Y : ℝ}, |x| ≤ X → |y| ≤ Y → |x * y| ≤ X * Y := fun hx hy => by
      rw [abs_mul]; exact mul_le_mul hx hy (abs_nonneg _) ((abs_nonneg _).trans hx)
    have k1 := abs_le.mp (m p00 (abs_of_nonneg d0).le)
    have k2 := abs_le.mp (m p11 (abs_of_nonneg a0).le)
    have k3 := abs_le.mp (m p01 bL)
    have k4 := abs_le.mp (m r00 hd)
    have k5 := abs_le.mp (m r11 ha)
    have k6 := abs_le.mp (m r01 hb)
    have k7 := mul_le_mul_of_nonneg_left had htBB
    have k8 := mul_nonneg htBB hL0.le
    clear p00 p01 p11 r00 r01 r11 e
    norm_num at k1 k2 k3 k4 k5 k6 ⊢
    rw [abs_le]
    constructor <;> linarith
  have hF0 : |q0 ^ 2 * d - 2 * q0 * q1 * b + q1 ^ 2 * a| ≤ 12 * (B * B * L) := by
    have m : ∀ {x y z Z : ℝ}, |x| ≤ 2 * B → |y| ≤ 2 * B → |z| ≤ Z → |x * y * z| ≤ 4 * (B * B) * Z := by
      intro x y z Z hx hy hz
      rw [abs_mul, abs_mul]
      have := mul_le_mul hx hy (abs_nonneg _) (by linarith)
      exact mul_le_mul (this.trans (le_of_eq (by ring))) hz (abs_nonneg _) (by positivity)
    have k1 := abs_le.mp (m h0 h0 (abs_of_nonneg d0).le)
    have k2 := abs_le.mp (m h1 h1 (abs_of_nonneg a0).le)
    have k3 := abs_le.mp (m h0 h1 bL)
    have k7 := mul_le_mul_of_nonneg_left had (mul_pos hB hB).le
    rw [abs_le]
    constructor <;> linarith
  generalize hFd : q0 ^ 2 * d - 2 * q0 * q1 * b + q1 ^ 2 * a = F at *
  have e : -0.5 * (q0' ^ 2 * (d' * w) + 2 * (q0' * q1') * (-b' * w) + q1' ^ 2 * (a' * w)) - -(1 / 2) * (F / D) =
      -(1 / 2) * (w * ((q0' ^ 2 * d' - 2 * (q0' * q1') * b' + q1' ^ 2 * a') - F) + F / D * (D * w - 1)) := by
    field_simp
    ring
  rw [e, abs_mul]
  have hh : |(-(1 / 2) : ℝ)| = 1 / 2 := by rw [abs_neg, abs_of_pos (by norm_num)]
  rw [hh]
  have t1 : |w * ((q0' ^ 2 * d' - 2 * (q0' * q1') * b' + q1' ^ 2 * a') - F)| ≤ 22 * (t * Q) := by
    rw [abs_mul, abs_of_pos hw0]
    refine (mul_le_mul_of_nonneg_left hF hw0.le).trans ?_
    rw [hQ]
    have htQ : 0 ≤ t * Q := mul_nonneg (by linarith) hQ0.le
    have c1 := mul_le_mul_of_nonneg_left hwS htQ
    have c2 := mul_le_mul_of_nonneg_left hwss htQ
    have z : w * (4.81 * (t * (Q * s) * L) + 16.04 * (Q * s * (t * s))) = 4.81 * (t * Q * (w * (s * L))) + 16.04 * (t * Q * (w * (s * s))) := by ring
    rw [z]
    norm_num at c1 c2 ⊢
    linarith
  have t2 : |F / D * (D * w - 1)| ≤ 12 * Q * (70 * t + 1200 * τ) := by
    rw [abs_mul]
    refine mul_le_mul ?_ hw (abs_nonneg _) (by linarith)
    rw [abs_div, abs_of_pos hD0, div_le_iff₀ hD0]
    refine hF0.trans ?_
    rw [hQ]
    have := mul_le_mul_of_nonneg_left hD1 (by linarith : 0 ≤ 12 * Q)
    linarith
  have t3 := (abs_add_le (w * ((q0' ^ 2 * d' - 2 * (q0' * q1') * b' + q1' ^ 2 * a') - F)) (F / D * (D * w - 1))).trans (add_le_add t1 t2)
  have htQ : 0 ≤ t * Q := mul_nonneg (by linarith) hQ0.le
  linarith

/-- Exponentials of near numbers, the first rounded. -/
theorem exp_near (hr : RoundsToNearest rd) {e E K : ℝ} (hE : E ≤ 0) (h : |e - E| ≤ K) (hK : K ≤ 0.02) :
    |rd (Real.exp e) - Real.exp E| ≤ 1.02 * K + 1.4e-16 := by
  have hK0 : 0 ≤ K := (abs_nonneg _).trans h
  have h1 : |Real.exp (e - E) - 1 - (e - E)| ≤ (e - E) ^ 2 := Real.abs_exp_sub_one_sub_id_le (h.trans (hK.trans (by norm_num)))
  have h2 : (e - E) ^ 2 ≤ 0.02 * K := by
    rw [← sq_abs, sq]
    exact mul_le_mul (h.trans hK) h (abs_nonneg _) (by norm_num)
  have h3 : |Real.exp (e - E) - 1| ≤ 1.02 * K := by
    have : |Real.exp (e - E) - 1| ≤ |Real.exp (e - E) - 1 - (e - E)| + |e - E| := by
      simpa using abs_add_le (Real.exp (e - E) - 1 - (e - E)) (e - E)
    linarith
  have h4 : |Real.exp e - Real.exp E| ≤ 1.02 * K := by
    have : Real.exp e - Real.exp E = Real.exp E * (Real.exp (e - E) - 1) := by
      rw [mul_sub, ← Real.exp_add, mul_one]
      congr 2
      ring
    rw [this, abs_mul, abs_of_pos (Real.exp_pos _)]
    calc Real.exp E * |Real.exp (e - E) - 1| ≤ 1 * (1.02 * K) :=
          mul_le_mul (Real.exp_le_one_iff.mpr hE) h3 (abs_nonneg _) zero_le_one
      _ = _ := one_mul _
  have h5 : |Real.exp e| ≤ 1.1 := by
    have := Real.exp_le_one_iff.mpr hE
    rw [abs_of_pos (Real.exp_pos _)]
    have := (abs_le.mp h4).2
    norm_num at this hK ⊢
    linarith
  have h6 := rd_far hr h5 (by norm_num)
  rw [abs_le] at h4 h6 ⊢
  norm_num at h4 h6 ⊢
  constructor <;> linarith

/-- Points within `B` are spread by a variance of at most `4 B^2`. -/
theorem spread_le {B s : ℝ} (hs0 : 0 < s) (hB00 : 0 ≤ B) {ps : List Point} (hn5 : 5 ≤ ps.length) (hp : CoordsWithin B ps) (hsp : SpreadAtLeast s ps) :
    s ≤ 4 * (B * B) := by
  obtain ⟨f1, f2, f3, f4, f5, f6⟩ := eig_facts hs0 hsp
  rcases hB00.lt_or_eq with h | h
  · have := sampleCov_abs_le (f := (·.x)) (g := (·.x)) h (by omega) (fun p h => (hp p h).1) (fun p h => (hp p h).1)
    linarith [(abs_le.mp this).2, mul_pos h h]
  · exfalso
    have := sampleCov_abs_le (f := (·.x)) (g := (·.x)) (B := s / 4) (ps := ps) (by linarith) (by omega)
      (fun p hp' => ((hp p hp').1.trans h.symm.le).trans (by linarith)) (fun p hp' => ((hp p hp').1.trans h.symm.le).trans (by linarith))
    have hz : ∀ q ∈ ps, q.x = 0 := fun q hq => abs_eq_zero.mp (le_antisymm ((hp q hq).1.trans h.symm.le) (abs_nonneg _))
    have : sampleCov (·.x) (·.x) ps = 0 := by
      have hav : avg (·.x) ps = 0 := by
        unfold avg
        rw [List.sum_eq_zero, zero_div]
        intro y hy
        obtain ⟨q, hq, rfl⟩ := List.mem_map.mp hy
        exact hz q hq
      unfold sampleCov
      rw [List.sum_eq_zero, zero_div]
      intro y hy
      obtain ⟨q, hq, rfl⟩ := List.mem_map.mp hy
      simp only [hav, hz q hq, sub_zero, mul_zero]
    linarith


set_option maxHeartbeats 800000 in
/-- The score of a cell in double precision. -/
theorem score_near (hr : RoundsToNearest rd) {B R s τ : ℝ} (hB2 : B ≤ 1e6) (hR0 : 0 < R) (hRB : R ≤ B) (hRs : s ≤ 4 * (R * R)) (hs : 1e-12 ≤ s) {ps : List Point} (hn5 : 5 ≤ ps.length)
    (hp : CoordsWithin B ps) (hsp : SpreadAtLeast s ps) {es : Mat2 ℝ → ℝ × ℝ} (hτ : 0 ≤ τ) (he : SolverWithin τ es) {p : Point}
    (hx : |p.x - avg (·.x) ps| ≤ 2 * R) (hy : |p.y - avg (·.y) ps| ≤ 2 * R) {Q P : ℝ} (hQ : R * R = Q * s) (hP : B * B = P * s)
    (hK : Q * (4e-12 * (ps.length * P) + 7500 * τ) ≤ 0.02) :
    ∃ v, score rd (cellOf rd es ps) p = .fin v ∧
      |v - gauss ⟨avg (·.x) ps, avg (·.y) ps⟩ (sampleCov (·.x) (·.x) ps) (sampleCov (·.x) (·.y) ps) (sampleCov (·.y) (·.y) ps) p| ≤
        Q * (4e-12 * (ps.length * P) + 7500 * τ) := by
  have hu := ulp_pos
  have hs0 : 0 < s := lt_of_lt_of_le (by norm_num) hs
  have hN5 : (5 : ℝ) ≤ ps.length := by exact_mod_cast hn5
  have hB0 : 0 < B := hR0.trans_le hRB
  have hB00 : 0 ≤ B := hB0.le
  obtain ⟨f1, f2, f3, f4, f5, f6⟩ := eig_facts hs0 hsp
  have hRp : 1e-8 ≤ R := by
    by_contra hn
    have := mul_le_mul (not_le.mp hn).le (not_le.mp hn).le hR0.le (by norm_num)
    norm_num at this hs
    linarith
  have hB100 : 2⁻¹ ^ 100 ≤ B := le_trans (by norm_num) (hRp.trans hRB)
  have hBB : 0 < B * B := mul_pos hB0 hB0
  have hQ1 : 1 / 4 ≤ Q := by
    by_contra hn
    have := mul_lt_mul_of_pos_right (not_le.mp hn) hs0
    linarith
  have hRRB : R * R ≤ B * B := mul_le_mul hRB hRB hR0.le hB00
  have hP1 : 1 / 4 ≤ P := by
    by_contra hn
    have := mul_lt_mul_of_pos_right (not_le.mp hn) hs0
    linarith
  have hQ0 : 0 < Q := by linarith
  have hP0 : 0 < P := by linarith
  have hnQ0 : 0 < ps.length * P := mul_pos (by linarith) hP0
  have hnQ : ps.length * P ≤ 2.5e10 := by
    have h1 : 1 / 4 * (4e-12 * (ps.length * P) + 7500 * τ) ≤ Q * (4e-12 * (ps.length * P) + 7500 * τ) :=
      mul_le_mul_of_nonneg_right hQ1 (by positivity)
    generalize (ps.length : ℝ) * P = z at *
    norm_num at h1 hK ⊢
    linarith
  have hτ2 : τ ≤ 2e-5 := by
    have h1 : 1 / 4 * (4e-12 * (ps.length * P) + 7500 * τ) ≤ Q * (4e-12 * (ps.length * P) + 7500 * τ) :=
      mul_le_mul_of_nonneg_right hQ1 (by positivity)
    generalize (ps.length : ℝ) * P = z at *
    norm_num at h1 hK ⊢
    linarith
  have hn : ps.length ≤ 2 ^ 49 := by
    have h1 := mul_le_mul_of_nonneg_left hP1 (by linarith : (0 : ℝ) ≤ ps.length)
    have : (ps.length : ℝ) ≤ 2 ^ 49 := by
      generalize (ps.length : ℝ) = z at *
      norm_num at hnQ ⊢; linarith
    exact_mod_cast this
  have hul : 1.11e-16 ≤ ulp ∧ ulp ≤ 1.1103e-16 := by unfold ulp; norm_num
  obtain ⟨t, htd⟩ : ∃ t, t = 80 * (ulp * (ps.length * P)) := ⟨_, rfl⟩
  have ht : 1e-14 ≤ t ∧ t ≤ 3e-4 := by
    have h5 : 1.25 ≤ ps.length * P := by
      have := mul_le_mul hN5 hP1 (by norm_num) (by linarith)
      linarith
    rw [htd]
    have h1 := mul_le_mul hul.1 h5 (by norm_num) hu.le
    have h2 := mul_le_mul hul.2 hnQ hnQ0.le (by norm_num)
    generalize ulp * ((ps.length : ℝ) * P) = z at *
    norm_num at h1 h2 ⊢
    constructor <;> linarith
  obtain ⟨ht1, ht2⟩ := ht
  have hts : 80 * (ps.length * ulp * (B * B)) = t * s := by
    rw [htd, hP]; ring
  have hBP : B ≤ 4 * (P * R) := by
    have h1 : R * R ≤ R * B := mul_le_mul_of_nonneg_left hRB hR0.le
    have h2 := mul_le_mul_of_nonneg_left (hRs.trans (mul_le_mul_of_nonneg_left h1 (by norm_num : (0 : ℝ) ≤ 4))) hB00
    have h3 : B * (4 * (R * B)) = 4 * (P * R) * s := by rw [show B * (4 * (R * B)) = 4 * R * (B * B) by ring, hP]; ring
    rw [h3] at h2
    exact le_of_mul_le_mul_right h2 hs0
  have hnu : ps.length * ulp * B ≤ t * R / 20 := by
    have := mul_le_mul_of_nonneg_left hBP (mul_nonneg (by linarith : (0 : ℝ) ≤ ps.length) hu.le)
    rw [htd]
    linarith
  obtain ⟨a, b, b', d, hc⟩ : ∃ a b b' d, covarianceOf rd (ps.foldl (addPoint rd) Cell.new) = ⟨a, b, b', d⟩ := ⟨_, _, _, _, rfl⟩
  obtain ⟨ea, eb, ed, rfl⟩ := cov_errors hr hB100 hn (by omega) hp hc
  rw [hts] at ea eb ed
  obtain ⟨mx, my⟩ := mean_errors hr hB100 hn hp
  have hc0 : cellOf rd es ps = { ps.foldl (addPoint rd) Cell.new with
      covariance := ⟨a, b', b', d⟩, information := informationOf rd (es ⟨a, b', b', d⟩) ⟨a, b', b', d⟩, valid := true } := by
    unfold cellOf compute
    rw [if_neg, hc]
    rw [fold_valid, fold_n hr ps hn]
    rintro (h | h)
    · exact absurd h (by decide)
    · linarith
  have hsc : score rd (cellOf rd es ps) p = expD rd (exponent rd (cellOf rd es ps) p) := by
    unfold score
    rw [if_neg]
    rw [hc0]
    show ¬ (ps.foldl (addPoint rd) Cell.new).n < 5
    rw [fold_n hr ps hn]
    linarith
  have hadd := eig_add (sampleCov (·.x) (·.x) ps) (sampleCov (·.x) (·.y) ps) (sampleCov (·.y) (·.y) ps)
  have hle := eigMin_le_eigMax (sampleCov (·.x) (·.x) ps) (sampleCov (·.x) (·.y) ps) (sampleCov (·.y) (·.y) ps)
  obtain ⟨d1, -, -⟩ := limitedDet_facts hs0 f1
  have sx := sampleCov_abs_le (f := (·.x)) (g := (·.x)) hB0 (by omega) (fun p h => (hp p h).1) (fun p h => (hp p h).1)
  have sy := sampleCov_abs_le (f := (·.y)) (g := (·.y)) hB0 (by omega) (fun p h => (hp p h).2) (fun p h => (hp p h).2)
  obtain ⟨l1, l2⟩ := eig_lipschitz ea eb ed
  have hts1 : t * s ≤ 0.0003 * s := mul_le_mul_of_nonneg_right (ht2.trans (by norm_num)) hs0.le
  have hspos : 0 < eigMin a b' d := by
    have := (abs_le.mp l2).1
    norm_num at hts1
    linarith
  obtain ⟨he1, he2⟩ := he a b' d hspos
  have sform := hsp
  unfold SpreadAtLeast at sform
  unfold gauss
  simp only
  generalize sampleCov (·.x) (·.x) ps = A at *
  generalize sampleCov (·.x) (·.y) ps = Bc at *
  generalize sampleCov (·.y) (·.y) ps = Dc at *
  have hBB12 : B * B ≤ 1e12 := le_trans (mul_le_mul hB2 hB2 hB00 (by norm_num)) (by norm_num)
  have hL20 : eigMax A Bc Dc ≤ 1e20 := by
    have h1 := (abs_le.mp sx).2
    have h2 := (abs_le.mp sy).2
    norm_num at hBB12 ⊢
    linarith
  obtain ⟨w, hw, hinf⟩ := information_limited hr ht1 ht2 hτ hτ2 hs sform ea eb ed hL20 he1 he2
  generalize limitedDet A Bc Dc = D at *
  generalize eigMax A Bc Dc = L at *
  generalize eigMin A Bc Dc = l at *
  generalize avg (·.x) ps = ax at *
  generalize avg (·.y) ps = ay at *
  have hm0 : (cellOf rd es ps).mean = (ps.foldl (addPoint rd) Cell.new).mean := by rw [hc0]
  have hi0 : (cellOf rd es ps).information = informationOf rd (es ⟨a, b', b', d⟩) ⟨a, b', b', d⟩ := by rw [hc0]
  generalize ps.foldl (addPoint rd) Cell.new = c at *
  have hsL : s ≤ L := f1.trans hle
  have hL0 : 0 < L := hs0.trans_le hsL
  have hD0 : 0 < D := lt_of_lt_of_le (mul_pos hs0 hL0) d1
  have htB : t * R ≤ 0.0003 * R := mul_le_mul_of_nonneg_right (ht2.trans (by norm_num)) hR0.le
  have htB1 : 1e-14 * R ≤ t * R := mul_le_mul_of_nonneg_right ht1 hR0.le
  -- the differences
  have diff : ∀ {x m e : ℝ}, |x - e| ≤ 2 * R → |m - e| ≤ 6 * ps.length * (ulp * B) → |rd (x - m) - (x - e)| ≤ 0.4 * (t * R) := by
    intro x m e h2 hm
    have h1 : 6 * ps.length * (ulp * B) ≤ 0.3 * (t * R) := by
      norm_num
      linarith
    have h3 : |x - m| ≤ 2.01 * R := by
      have := hm.trans h1
      rw [abs_le] at this h2 ⊢
      norm_num at this htB ⊢
      constructor <;> linarith
    have h4 := rd_far hr h3 (by norm_num at hRp ⊢; linarith)
    have := hm.trans h1
    rw [abs_le] at this h4 ⊢
    norm_num at this h4 htB1 ⊢
    constructor <;> linarith
  have x2 := diff hx mx
  have y2 := diff hy my
  have key := exponent_perturb (a := A) (b := Bc) (d := Dc) ht1 ht2 hτ2 hs0 hR0 hQ hsL (by linarith) (by linarith) (by linarith) f6 d1 ea eb ed hx hy x2 y2 hw
  -- the rounded form
  have hρ : 70 * t + 1200 * τ ≤ 0.05 := by norm_num at ht2 hτ2 ⊢; linarith
  have w1 := abs_le.mp hw
  have Dw0 : 0 < D * w := by norm_num at hρ; linarith
  have hw0 : 0 < w := (pos_iff_pos_of_mul_pos Dw0).mp hD0
  have hwS : L * w ≤ 1.05 / s := by
    rw [le_div_iff₀ hs0]
    have := mul_le_mul_of_nonneg_left d1 hw0.le
    norm_num at hρ ⊢
    linarith
  have ent : ∀ {z : ℝ}, |z| ≤ 1.01 * L → Near (rd (z * w)) (z * w) (1.2 / s) 1.01 halfMin := by
    intro z hz
    refine Near.rounded hr ?_
    rw [abs_mul, abs_of_pos hw0]
    refine (mul_le_mul_of_nonneg_right hz hw0.le).trans ?_
    have e1 : 1.05 / s = 1.05 * (1 / s) := by ring
    have e2 : 1.2 / s = 1.2 * (1 / s) := by ring
    have : 0 < 1 / s := by positivity
    rw [e1] at hwS
    rw [e2]
    generalize 1 / s = is at *
    norm_num at hwS ⊢
    linarith
  have aL : |a| ≤ 1.01 * L := by
    rw [abs_le] at ea ⊢
    norm_num at hts1 ⊢
    constructor <;> linarith
  have dL : |d| ≤ 1.01 * L := by
    rw [abs_le] at ed ⊢
    norm_num at hts1 ⊢
    constructor <;> linarith
  have bL : |-b'| ≤ 1.01 * L := by
    rw [abs_neg]
    have h1 : |b'| ≤ |b' - Bc| + |Bc| := by simpa using abs_add_le (b' - Bc) Bc
    norm_num at hts1 ⊢
    linarith
  have qB : ∀ {x e q : ℝ}, |x - e| ≤ 2 * R → |q - (x - e)| ≤ 0.4 * (t * R) → |q| ≤ 2.01 * R := by
    intro x e q h1 h2
    rw [abs_le] at h1 h2 ⊢
    norm_num at h2 htB ⊢
    constructor <;> linarith
  have hB7 : 2.01 * R ≤ 1e7 := by norm_num at hB2 ⊢; linarith
  have hhm := halfMin_far
  have is12 : 1.2 / s ≤ 1.2e12 := by
    rw [div_le_iff₀ hs0]
    norm_num at hs ⊢
    linarith
  have form := form_both hr (ent dL) (ent bL) (ent aL) (Q := 1e7) (δ := 1e-200) (by norm_num) ((qB hx x2).trans hB7) ((qB hy y2).trans hB7)
    (by norm_num at hhm ⊢; linarith) (by
      have h0 := halfMin_pos
      have h1 : 2 * (1.2 / s) + halfMin + 1e7 ≤ 1e13 := by norm_num at is12 hhm ⊢; linarith
      have h2 := mul_le_mul_of_nonneg_left h1 h0.le
      norm_num at h2 hhm ⊢
      linarith)
  have q0s : rd (p.x - c.mean.x) ^ 2 ≤ 4.05 * (R * R) := by
    have := mul_le_mul (qB hx x2) (qB hx x2) (abs_nonneg _) (by positivity)
    rw [abs_mul_abs_self] at this
    rw [sq]
    norm_num at this ⊢
    linarith
  have q1s : rd (p.y - c.mean.y) ^ 2 ≤ 4.05 * (R * R) := by
    have := mul_le_mul (qB hy y2) (qB hy y2) (abs_nonneg _) (by positivity)
    rw [abs_mul_abs_self] at this
    rw [sq]
    norm_num at this ⊢
    linarith
  have small : 7 * ulp * (rd (p.x - c.mean.x) ^ 2 + rd (p.y - c.mean.y) ^ 2) * (1.2 / s) + 213 * (1e-200 * 1e7) ≤ Q * t := by
    have hBQ : R * R * (1.2 / s) = 1.2 * Q := by rw [hQ]; field_simp
    have h1 : (rd (p.x - c.mean.x) ^ 2 + rd (p.y - c.mean.y) ^ 2) * (1.2 / s) ≤ 8.1 * (1.2 * Q) := by
      rw [← hBQ]
      have : rd (p.x - c.mean.x) ^ 2 + rd (p.y - c.mean.y) ^ 2 ≤ 8.1 * (R * R) := by norm_num at q0s q1s ⊢; linarith
      have := mul_le_mul_of_nonneg_right this (by positivity : 0 ≤ 1.2 / s)
      linarith
    have h2 := mul_le_mul hul.2 h1 (by positivity) (by norm_num)
    have h3 := mul_le_mul_of_nonneg_left ht1 hQ0.le
    have h4 : 7 * ulp * (rd (p.x - c.mean.x) ^ 2 + rd (p.y - c.mean.y) ^ 2) * (1.2 / s) =
      7 * (ulp * ((rd (p.x - c.mean.x) ^ 2 + rd (p.y - c.mean.y) ^ 2) * (1.2 / s))) := by ring
    rw [h4]
    generalize ulp * ((rd (p.x - c.mean.x) ^ 2 + rd (p.y - c.mean.y) ^ 2) * (1.2 / s)) = z at *
    norm_num at h2 h3 ⊢
    linarith
  obtain ⟨e, hex, hnear⟩ : ∃ e, exponent rd (cellOf rd es ps) p = .fin e ∧
      |e - -(1 / 2) * (((p.x - ax) ^ 2 * Dc - 2 * (p.x - ax) * (p.y - ay) * Bc + (p.y - ay) ^ 2 * A) / D)| ≤ Q * (434 * t + 7200 * τ) := by
    unfold exponent
    rw [hm0, hi0, hinf]
    refine ⟨_, rfl, (abs_sub_le _ _ _).trans ((add_le_add (form.trans small) key).trans (le_of_eq ?_))⟩
    ring
  have hneg : -(1 / 2) * (((p.x - ax) ^ 2 * Dc - 2 * (p.x - ax) * (p.y - ay) * Bc + (p.y - ay) ^ 2 * A) / D) ≤ 0 := by
    have h1 := sform (p.y - ay) (-(p.x - ax))
    have h2 : 0 ≤ s * ((p.y - ay) ^ 2 + (-(p.x - ax)) ^ 2) := by positivity
    have h3 : 0 ≤ ((p.x - ax) ^ 2 * Dc - 2 * (p.x - ax) * (p.y - ay) * Bc + (p.y - ay) ^ 2 * A) / D :=
      div_nonneg (by linarith) hD0.le
    linarith
  have hKt : Q * (434 * t + 7200 * τ) ≤ Q * (3.857e-12 * (ps.length * P) + 7200 * τ) := by
    refine mul_le_mul_of_nonneg_left ?_ hQ0.le
    have := mul_le_mul_of_nonneg_right hul.2 hnQ0.le
    rw [htd]
    generalize (ps.length : ℝ) * P = z at *
    norm_num at this ⊢
    linarith
  have hz1 : 1.25 ≤ ps.length * P := by
    have := mul_le_mul hN5 hP1 (by norm_num) (by linarith)
    linarith
  have hK2 : Q * (3.857e-12 * (ps.length * P) + 7200 * τ) ≤ 0.02 := by
    refine le_trans (mul_le_mul_of_nonneg_left ?_ hQ0.le) hK
    generalize (ps.length : ℝ) * P = z at *
    norm_num
    linarith
  have fin := exp_near hr hneg (hnear.trans hKt) hK2
  have hQz : 1 / 4 * 1.25 ≤ Q * (ps.length * P) := mul_le_mul hQ1 hz1 (by norm_num) hQ0.le
  have hQτ : 0 ≤ Q * τ := mul_nonneg hQ0.le hτ
  rw [hsc, hex]
  have hle1 : rd (Real.exp e) ≤ 2 := by
    have h1 := (abs_le.mp fin).2
    have h2 := Real.exp_le_one_iff.mpr hneg
    generalize Real.exp (-(1 / 2) * _) = g at h1 h2
    norm_num at h1 hK2 ⊢
    linarith
  refine ⟨rd (Real.exp e), if_neg ?_, fin.trans ?_⟩
  · refine not_le.mpr (lt_of_le_of_lt hle1 ?_)
    calc (2 : ℝ) = 2 ^ 1 := (pow_one 2).symm
      _ < 2 ^ 1024 := pow_lt_pow_right₀ (by norm_num) (by norm_num)
  · clear fin hnear key form small
    have e1 : Q * (3.857e-12 * (ps.length * P) + 7200 * τ) = 3.857e-12 * (Q * (ps.length * P)) + 7200 * (Q * τ) := by ring
    have e2 : Q * (4e-12 * (ps.length * P) + 7500 * τ) = 4e-12 * (Q * (ps.length * P)) + 7500 * (Q * τ) := by ring
    rw [e1, e2]
    generalize Q * ((ps.length : ℝ) * P) = z at *
    norm_num at hQz ⊢
    linarith

end Ndt.Rounded
