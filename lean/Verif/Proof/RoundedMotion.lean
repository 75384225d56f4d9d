import Verif.Model.RoundedMotion
import Verif.Spec.RoundedMotion
import Verif.Proof.RoundedHeading
import Verif.Proof.RoundedPoints

/-! # Lemmas about the motion model in double precision -/

namespace Ndt.Rounded

noncomputable section

open Real Spec

/-! ### Angles -/

theorem arccos_cos_le (x : ℝ) : arccos (cos x) ≤ |x| := by
  by_cases h : |x| ≤ π
  · rw [← cos_abs, arccos_cos (abs_nonneg _) h]
  · exact (arccos_le_pi _).trans (not_le.mp h).le

theorem arccos_cos_attained (x : ℝ) : ∃ n : ℤ, arccos (cos x) = |x + n * (2 * π)| := by
  obtain ⟨n, hn⟩ := normalizeAngle_congr x
  refine ⟨n, ?_⟩
  rw [← cos_add_int_mul_two_pi x n, ← hn, ← cos_abs, arccos_cos (abs_nonneg _)]
  obtain ⟨h1, h2⟩ := normalizeAngle_mem x
  exact abs_le.mpr ⟨h1.le, h2⟩

theorem arccos_cos_lipschitz (x y : ℝ) : |arccos (cos x) - arccos (cos y)| ≤ |x - y| := by
  have key : ∀ x y : ℝ, arccos (cos y) - arccos (cos x) ≤ |x - y| := by
    intro x y
    obtain ⟨n, hn⟩ := arccos_cos_attained x
    have h1 := arccos_cos_le (y + n * (2 * π))
    rw [cos_add_int_mul_two_pi] at h1
    have h2 := abs_sub_abs_le_abs_sub (y + n * (2 * π)) (x + n * (2 * π))
    rw [add_sub_add_right_eq_sub, abs_sub_comm] at h2
    linarith
  rw [abs_le]
  have h1 := key x y
  have h2 := key y x
  rw [abs_sub_comm y x] at h2
  constructor <;> linarith

theorem turnBetween_near {a b c d ε η : ℝ} (h : ∃ n : ℤ, |a - (c + n * (2 * π))| ≤ ε) (h2 : |b - d| ≤ η) :
    |turnBetween a b - turnBetween c d| ≤ ε + η := by
  obtain ⟨n, hn⟩ := h
  unfold turnBetween
  rw [← cos_add_int_mul_two_pi (c - d) n]
  refine (arccos_cos_lipschitz _ _).trans ?_
  have e : a - b - (c - d + n * (2 * π)) = (a - (c + n * (2 * π))) - (b - d) := by ring
  rw [e]
  exact (abs_sub _ _).trans (add_le_add hn h2)

theorem turnBetween_nonneg (a b : ℝ) : 0 ≤ turnBetween a b := arccos_nonneg _

theorem offAxis_nonneg (a : ℝ) : 0 ≤ offAxis a := le_min (turnBetween_nonneg _ _) (turnBetween_nonneg _ _)

/-- It is never more than a quarter turn to the nearer of ahead and back. -/
theorem offAxis_le (a : ℝ) : offAxis a ≤ π / 2 := by
  unfold offAxis turnBetween
  rw [sub_zero]
  have e : cos (a - π) = -cos a := cos_sub_pi a
  rw [e, arccos_neg]
  rcases le_total (arccos (cos a)) (π / 2) with h | h
  · exact (min_le_left _ _).trans h
  · exact (min_le_right _ _).trans (by linarith)

theorem min_near {a b c d ε : ℝ} (h1 : |a - c| ≤ ε) (h2 : |b - d| ≤ ε) : |min a b - min c d| ≤ ε := by
  have a1 := abs_le.mp h1
  have a2 := abs_le.mp h2
  rw [abs_le]
  constructor
  · have : min c d ≤ min a b + ε := by
      rw [← min_add_add_right]
      exact min_le_min (by linarith) (by linarith)
    linarith
  · have : min a b ≤ min c d + ε := by
      rw [← min_add_add_right]
      exact min_le_min (by linarith) (by linarith)
    linarith

theorem fold_near {rd : ℝ → ℝ} (hrd : RoundsToNearest rd) {r c ε : ℝ} (hr : |r| ≤ 3.5) (h : ∃ n : ℤ, |r - (c + n * (2 * π))| ≤ ε) :
    0 ≤ fold rd r ∧ |fold rd r - offAxis c| ≤ 1.3e-14 + ε := by
  refine ⟨le_min (abs_nonneg _) (abs_nonneg _), ?_⟩
  have p1 := piD_pos
  have p2 := piD_le
  obtain ⟨-, h1⟩ := shortest_turn hrd hr (b := 0) (by rw [abs_zero]; norm_num)
  obtain ⟨-, h2⟩ := shortest_turn hrd hr (b := piD) (by rw [abs_of_pos p1]; norm_num at p2 ⊢; linarith)
  have t1 := turnBetween_near h (b := 0) (d := 0) (η := 0) (by simp)
  have t2 := turnBetween_near h piD_near
  refine min_near ?_ ?_
  · have := abs_sub_le (|shortestAngularDistance rd r 0|) (turnBetween r 0) (turnBetween c 0)
    norm_num at h1 ⊢
    linarith
  · have := abs_sub_le (|shortestAngularDistance rd r piD|) (turnBetween r piD) (turnBetween c π)
    norm_num at h2 t2 ⊢
    linarith

/-- As `normalizeAngle_near`, for larger angles. -/
theorem normalizeAngle_near10 {rd : ℝ → ℝ} (hrd : RoundsToNearest rd) {a : ℝ} (ha : |a| ≤ 10) :
    ∃ n : ℤ, |normalizeAngle rd a - (a + n * (2 * π))| ≤ 3e-15 := by
  have hp := piD_pos
  have hle := piD_le
  have hge := piD_ge
  have hpi := abs_le.mp piD_near
  have ha' := abs_le.mp ha
  have hb := abs_le.mp (rd_near hrd (x := a + piD) (X := 13.15) (by rw [abs_le]; constructor <;> linarith))
  unfold normalizeAngle fmod
  dsimp only
  set b := rd (a + piD)
  have hx := abs_lt.mp (truncZ_abs_sub_lt (b / (2 * piD)))
  set k := truncZ (b / (2 * piD))
  have e : b - 2 * piD * k = 2 * piD * (b / (2 * piD) - k) := by field_simp
  have hr1 : b - 2 * piD * k < 2 * piD := by rw [e]; nlinarith [hx.2]
  have hr2 : -(2 * piD) < b - 2 * piD * k := by rw [e]; nlinarith [hx.1]
  norm_num at hb
  have hk1 : (k : ℝ) < 4 := by nlinarith
  have hk2 : (-3 : ℝ) < k := by nlinarith
  have hk1' : k ≤ 3 := by have : k < 4 := by exact_mod_cast hk1
                          omega
  have hk2' : -2 ≤ k := by have : -3 < k := by exact_mod_cast hk2
                           omega
  have hk3 : (k : ℝ) ≤ 3 := by exact_mod_cast hk1'
  have hk4 : (-2 : ℝ) ≤ k := by exact_mod_cast hk2'
  have key : ∀ m : ℝ, |m| ≤ 3 → |2 * (piD - π) * m| ≤ 7.8e-16 := by
    intro m hm
    rw [abs_mul, abs_mul, abs_two]
    have := mul_le_mul piD_near hm (abs_nonneg _) (by norm_num)
    norm_num at this ⊢
    linarith
  split
  · rename_i h0
    have h1 := rd_near hrd (x := b - 2 * piD * k + piD) (X := 3.1416) (by rw [abs_le]; constructor <;> linarith)
    have h1' := abs_le.mp h1
    refine ⟨1 - k, ?_⟩
    have h2 := abs_le.mp (key (1 - k) (by rw [abs_le]; constructor <;> linarith))
    rw [abs_le]
    push_cast
    norm_num at h1' h2 ⊢
    constructor <;> nlinarith [h1'.1, h1'.2, hb.1, hb.2, h2.1, h2.2]
  · rename_i h0
    have h1 := rd_near hrd (x := b - 2 * piD * k - piD) (X := 3.1416) (by rw [abs_le]; constructor <;> linarith)
    have h1' := abs_le.mp h1
    refine ⟨-k, ?_⟩
    have h2 := abs_le.mp (key (-k) (by rw [abs_le]; constructor <;> linarith))
    rw [abs_le]
    push_cast
    norm_num at h1' h2 ⊢
    constructor <;> nlinarith [h1'.1, h1'.2, hb.1, hb.2, h2.1, h2.2]

/-! ### Deviations -/

theorem timesSquare_nonneg {rd : ℝ → ℝ} (hrd : RoundsToNearest rd) {a : ℝ} (ha : 0 ≤ a) (x : ℝ) : 0 ≤ timesSquare rd a x := by
  refine hrd.nonneg ?_
  rcases le_total 0 x with h | h
  · exact mul_nonneg (hrd.nonneg (mul_nonneg ha h)) h
  · exact mul_nonneg_of_nonpos_of_nonpos (hrd.le_of_le isDouble_zero (mul_nonpos_of_nonneg_of_nonpos ha h)) h

theorem timesSquare_near {rd : ℝ → ℝ} (hrd : RoundsToNearest rd) {a x X B δ : ℝ} (ha : 0 ≤ a) (hx : |x - X| ≤ δ) (hX : |X| ≤ B) (hδ : δ ≤ 0.1 * B) :
    |timesSquare rd a x - a * X ^ 2| ≤ a * (2.1 * δ * B + 4e-16 * B ^ 2) + 2e-30 * (B + 1) := by
  have hB : 0 ≤ B := (abs_nonneg _).trans hX
  have hδ0 : 0 ≤ δ := (abs_nonneg _).trans hx
  have x1 : |x| ≤ 1.1 * B := by
    have := abs_sub_abs_le_abs_sub x X
    norm_num at hδ ⊢
    linarith
  have y0 : |a * x| ≤ a * (1.1 * B) := by
    rw [abs_mul, abs_of_nonneg ha]
    exact mul_le_mul_of_nonneg_left x1 ha
  have y1 := rd_near hrd y0
  have y2 : |rd (a * x) * x - a * x * x| ≤ (1.2e-16 * (a * (1.1 * B)) + 1e-30) * (1.1 * B) := by
    rw [← sub_mul, abs_mul]
    exact mul_le_mul y1 x1 (abs_nonneg _) (by positivity)
  have y3 : |a * x * x - a * X ^ 2| ≤ a * (δ * (2.1 * B)) := by
    have e : a * x * x - a * X ^ 2 = a * ((x - X) * (x + X)) := by ring
    rw [e, abs_mul, abs_of_nonneg ha, abs_mul]
    refine mul_le_mul_of_nonneg_left (mul_le_mul hx ?_ (abs_nonneg _) hδ0) ha
    have := abs_add_le x X
    norm_num at x1 ⊢
    linarith
  have y4 : |a * x * x| ≤ a * (1.21 * B ^ 2) := by
    have : |a * x * x| = a * (|x| * |x|) := by rw [abs_mul, abs_mul, abs_of_nonneg ha]; ring
    rw [this]
    refine mul_le_mul_of_nonneg_left ?_ ha
    have := mul_le_mul x1 x1 (abs_nonneg _) (by positivity)
    refine this.trans (le_of_eq (by ring))
  have hP : 0 ≤ a * B ^ 2 := by positivity
  have y5 : |rd (a * x) * x| ≤ 1.3 * (a * B ^ 2) + 2e-30 * B := by
    have := abs_sub_abs_le_abs_sub (rd (a * x) * x) (a * x * x)
    have e : (1.2e-16 * (a * (1.1 * B)) + 1e-30) * (1.1 * B) = 1.2e-16 * 1.21 * (a * B ^ 2) + 1.1e-30 * B := by ring
    rw [e] at y2
    have e2 : a * (1.21 * B ^ 2) = 1.21 * (a * B ^ 2) := by ring
    rw [e2] at y4
    norm_num [-abs_mul] at y2 y4 ⊢
    linarith
  have y6 := rd_near hrd y5
  have t1 := abs_sub_le (rd (rd (a * x) * x)) (rd (a * x) * x) (a * X ^ 2)
  have t2 := abs_sub_le (rd (a * x) * x) (a * x * x) (a * X ^ 2)
  unfold timesSquare
  have e : (1.2e-16 * (a * (1.1 * B)) + 1e-30) * (1.1 * B) = 1.2e-16 * 1.21 * (a * B ^ 2) + 1.1e-30 * B := by ring
  rw [e] at y2
  have e3 : a * (δ * (2.1 * B)) = 2.1 * (a * (δ * B)) := by ring
  rw [e3] at y3
  have e4 : a * (2.1 * δ * B + 4e-16 * B ^ 2) = 2.1 * (a * (δ * B)) + 4e-16 * (a * B ^ 2) := by ring
  rw [e4]
  have q : 0 ≤ a * (δ * B) := by positivity
  norm_num [-abs_mul] at y2 y3 y6 ⊢
  linarith

theorem sqrt_near {rd : ℝ → ℝ} (hrd : RoundsToNearest rd) {v : ℝ} (hv : 0 ≤ v) :
    ∃ s, Fl.rounded rd (Fl.sqrt (.fin v)) = .fin s ∧ 0 ≤ s ∧ |s ^ 2 - v| ≤ 3e-16 * v + 1e-29 := by
  refine ⟨rd (√v), by rw [Fl.sqrt, if_neg (not_lt.mpr hv)]; rfl, hrd.nonneg (sqrt_nonneg v), ?_⟩
  have h0 := sqrt_nonneg v
  have h1 := rd_near hrd (le_of_eq (abs_of_nonneg h0))
  have h2 := sq_sqrt hv
  set w := √v
  set s := rd w
  have e : s ^ 2 - v = (s - w) * (s + w) := by rw [← h2]; ring
  rw [e, abs_mul]
  have h3 : |s + w| ≤ 2.1 * w + 1e-30 := by
    have := abs_add_le (s - w) (2 * w)
    rw [show s - w + 2 * w = s + w by ring, abs_of_nonneg (show 0 ≤ 2 * w by linarith)] at this
    norm_num at h1 ⊢
    linarith
  have h4 := mul_le_mul h1 h3 (abs_nonneg _) (by positivity)
  refine h4.trans ?_
  have h5 : w ≤ 1 + v := by nlinarith [sq_nonneg (w - 1)]
  have e2 : (1.2e-16 * w + 1e-30) * (2.1 * w + 1e-30) = 2.52e-16 * w ^ 2 + (1.2e-46 + 2.1e-30) * w + 1e-60 := by ring
  rw [e2, h2]
  norm_num
  linarith

end

end Ndt.Rounded
