import Verif.Base.Single
import Verif.Spec.Single
import Verif.Proof.Double

/-! # Lemmas about single precision numbers and rounding -/

namespace Ndt

open Spec

noncomputable section

theorem ulpExpF_lt (x : ℝ) : |x| < 2 ^ 24 * 2 ^ ulpExpF x := by
  have h := Int.lt_zpow_succ_log_self (b := 2) (by norm_num) |x|
  have h2 : ((2 : ℕ) : ℝ) ^ (Int.log 2 |x| + 1) ≤ 2 ^ 24 * 2 ^ ulpExpF x := by
    have : (2 : ℝ) ^ (24 : ℕ) * 2 ^ ulpExpF x = 2 ^ (24 + ulpExpF x) := by
      rw [zpow_add₀ (by norm_num)]; norm_num
    rw [this]
    push_cast
    apply zpow_le_zpow_right₀ (by norm_num)
    unfold ulpExpF
    have := le_max_left (Int.log 2 |x| - 23) (-149)
    omega
  linarith

theorem ulpExpF_ge (x : ℝ) : -149 ≤ ulpExpF x := le_max_right _ _

theorem ulpExpF_le {x : ℝ} (hx : x ≠ 0) : ulpExpF x = -149 ∨ (2 : ℝ) ^ 23 * 2 ^ ulpExpF x ≤ |x| := by
  by_cases h : Int.log 2 |x| - 23 ≤ -149
  · left; exact max_eq_right h
  · right
    have he : ulpExpF x = Int.log 2 |x| - 23 := max_eq_left (by omega)
    have h2 := Int.zpow_log_le_self (b := 2) (R := ℝ) (by norm_num) (abs_pos.mpr hx)
    rw [he]
    have : (2 : ℝ) ^ (23 : ℕ) * 2 ^ (Int.log 2 |x| - 23) = 2 ^ (Int.log 2 |x|) := by
      rw [← zpow_natCast, ← zpow_add₀ (by norm_num)]
      congr 1
      push_cast
      ring
    rw [this]
    exact_mod_cast h2

theorem isFloat_rndF (x : ℝ) : IsFloat (rndF x) := by
  set y := x / 2 ^ ulpExpF x with hy
  have hp : (0 : ℝ) < 2 ^ ulpExpF x := zpow_pos (by norm_num) _
  have h1 : |y| < 2 ^ 24 := by
    rw [hy, abs_div, abs_of_pos hp, div_lt_iff₀ hp]
    exact ulpExpF_lt x
  have h2 := rneInt_near y (2 ^ 24)
  have h3 : |(rneInt y : ℝ) - y| ≤ |(-(2 ^ 24) : ℝ) - y| := by
    have := rneInt_near y (-(2 ^ 24))
    rwa [Int.cast_neg, Int.cast_pow, Int.cast_ofNat] at this
  obtain ⟨ha, hb⟩ := abs_lt.mp h1
  have hle : |rneInt y| ≤ 2 ^ 24 := by
    rw [Int.cast_pow, Int.cast_ofNat] at h2
    rw [abs_of_pos (by linarith : (0 : ℝ) < 2 ^ 24 - y)] at h2
    rw [abs_of_neg (by linarith : (-(2 ^ 24) : ℝ) - y < 0)] at h3
    rw [abs_le]
    have h4 := (abs_le.mp h2).2
    have h5 := (abs_le.mp h3).1
    constructor
    · have : (-(2 ^ 24 : ℤ) : ℝ) ≤ rneInt y := by push_cast; linarith
      exact_mod_cast this
    · have : (rneInt y : ℝ) ≤ ((2 ^ 24 : ℤ) : ℝ) := by push_cast; linarith
      exact_mod_cast this
  rcases lt_or_eq_of_le hle with h | h
  · exact ⟨rneInt y, ulpExpF x, h, ulpExpF_ge x, rfl⟩
  · have hz : (2 : ℝ) ^ (ulpExpF x + 1) = 2 * 2 ^ ulpExpF x := by
      rw [zpow_add₀ (by norm_num)]; ring
    rcases abs_eq (by norm_num : (0 : ℤ) ≤ 2 ^ 24) |>.mp h with h | h
    · refine ⟨2 ^ 23, ulpExpF x + 1, by norm_num, by have := ulpExpF_ge x; omega, ?_⟩
      show (rneInt y : ℝ) * _ = _
      rw [h, hz]; push_cast; ring
    · refine ⟨-2 ^ 23, ulpExpF x + 1, by norm_num, by have := ulpExpF_ge x; omega, ?_⟩
      show (rneInt y : ℝ) * _ = _
      rw [h, hz]; push_cast; ring

theorem rndF_near_mul (x : ℝ) (k : ℤ) : |rndF x - x| ≤ |k * 2 ^ ulpExpF x - x| := by
  have hp : (0 : ℝ) < 2 ^ ulpExpF x := zpow_pos (by norm_num) _
  have e : x = x / 2 ^ ulpExpF x * 2 ^ ulpExpF x := by field_simp
  have h := rneInt_near (x / 2 ^ ulpExpF x) k
  have a : rndF x - x = (rneInt (x / 2 ^ ulpExpF x) - x / 2 ^ ulpExpF x) * 2 ^ ulpExpF x := by
    rw [sub_mul, ← e]; rfl
  have b : k * 2 ^ ulpExpF x - x = (k - x / 2 ^ ulpExpF x) * 2 ^ ulpExpF x := by
    rw [sub_mul, ← e]
  rw [a, b, abs_mul, abs_mul]
  exact mul_le_mul_of_nonneg_right h (abs_nonneg _)

theorem rndF_zero : rndF 0 = 0 := by
  have : rneInt (0 / 2 ^ ulpExpF 0) = 0 := rneInt_eq (by left; norm_num)
  unfold rndF
  rw [this]; simp

/-- The rounding of IEEE-754 is a rounding to nearest. -/
theorem rndF_rounds : RoundsToFloat rndF := by
  refine ⟨isFloat_rndF, fun x d hd => ?_⟩
  by_cases hx : x = 0
  · subst hx; rw [rndF_zero]; simp
  obtain ⟨k, f, hk, hf, rfl⟩ := hd
  rcases le_or_gt (ulpExpF x) f with h | h
  · have := rndF_near_mul x (k * 2 ^ (f - ulpExpF x).toNat)
    have e : ((k * 2 ^ (f - ulpExpF x).toNat : ℤ) : ℝ) * 2 ^ ulpExpF x = k * 2 ^ f := by
      push_cast
      rw [mul_assoc, ← zpow_natCast, ← zpow_add₀ (by norm_num)]
      congr 2
      omega
    rwa [e] at this
  · rcases ulpExpF_le hx with h2 | h2
    · omega
    have hd : |(k : ℝ) * 2 ^ f| ≤ 2 ^ 23 * 2 ^ ulpExpF x := by
      rw [abs_mul, abs_of_pos (zpow_pos (by norm_num) f : (0 : ℝ) < 2 ^ f)]
      have h3 : |(k : ℝ)| ≤ 2 ^ 24 := by
        have : |k| ≤ 2 ^ 24 := hk.le
        exact_mod_cast this
      have h4 : (2 : ℝ) ^ f ≤ 2 ^ (ulpExpF x - 1) := zpow_le_zpow_right₀ (by norm_num) (by omega)
      have h5 : (2 : ℝ) ^ (ulpExpF x - 1) = 2 ^ ulpExpF x / 2 := by
        rw [zpow_sub₀ (by norm_num)]; norm_num
      have hp : (0 : ℝ) < 2 ^ f := zpow_pos (by norm_num) f
      have hp' : (0 : ℝ) < 2 ^ ulpExpF x := zpow_pos (by norm_num) _
      calc |(k : ℝ)| * 2 ^ f ≤ 2 ^ 24 * 2 ^ (ulpExpF x - 1) := by
            apply mul_le_mul h3 h4 hp.le (by positivity)
        _ = 2 ^ 23 * 2 ^ ulpExpF x := by rw [h5]; ring
    rcases lt_or_gt_of_ne hx with hn | hn
    · have := rndF_near_mul x (-2 ^ 23)
      push_cast at this
      rw [abs_of_neg hn] at h2
      refine this.trans ?_
      rw [abs_of_nonneg (by linarith)]
      obtain ⟨ha, hb⟩ := abs_le.mp hd
      exact le_trans (by linarith) (le_abs_self _)
    · have := rndF_near_mul x (2 ^ 23)
      push_cast at this
      rw [abs_of_pos hn] at h2
      refine this.trans ?_
      rw [abs_of_nonpos (by linarith)]
      obtain ⟨ha, hb⟩ := abs_le.mp hd
      exact le_trans (by linarith) (neg_le_abs _)

/-- Half of the least positive float. -/
def halfMinF : ℝ := 2⁻¹ ^ 150

theorem halfMinF_pos : 0 < halfMinF := by unfold halfMinF; positivity

/-- A float close to a number. -/
theorem exists_float (x : ℝ) : ∃ d, IsFloat d ∧ |d - x| ≤ 2⁻¹ ^ 24 * |x| + halfMinF := by
  refine ⟨rndF x, isFloat_rndF x, ?_⟩
  by_cases hx : x = 0
  · subst hx; rw [rndF_zero]; simp [halfMinF_pos.le]
  have hp : (0 : ℝ) < 2 ^ ulpExpF x := zpow_pos (by norm_num) _
  have h1 : |rndF x - x| ≤ 2 ^ ulpExpF x / 2 := by
    have e : x = x / 2 ^ ulpExpF x * 2 ^ ulpExpF x := by field_simp
    have a : rndF x - x = (rneInt (x / 2 ^ ulpExpF x) - x / 2 ^ ulpExpF x) * 2 ^ ulpExpF x := by
      rw [sub_mul, ← e]; rfl
    rw [a, abs_mul, abs_of_pos hp]
    have := rneInt_half (x / 2 ^ ulpExpF x)
    nlinarith
  rcases ulpExpF_le hx with h | h
  · have e : (2 : ℝ) ^ ulpExpF x / 2 = halfMinF := by
      have e2 : (2 : ℝ) ^ (-149 : ℤ) = (2 ^ 149)⁻¹ := by
        rw [zpow_neg]; rfl
      rw [h, e2, halfMinF, inv_pow, pow_succ (2 : ℝ) 149, mul_inv, div_eq_mul_inv]
    rw [e] at h1
    exact le_add_of_nonneg_of_le (by positivity) h1
  · have e : (2 : ℝ) ^ ulpExpF x / 2 ≤ 2⁻¹ ^ 24 * |x| := by
      have := mul_le_mul_of_nonneg_left h (by positivity : (0 : ℝ) ≤ 2⁻¹ ^ 24)
      refine le_trans (le_of_eq ?_) this
      ring
    exact le_add_of_le_of_nonneg (h1.trans e) halfMinF_pos.le

theorem isFloat_dyadic {k e : ℤ} (hk : |k| < 2 ^ 24) (he : -149 ≤ e) : IsFloat (k * 2 ^ e) := ⟨k, e, hk, he, rfl⟩

theorem isFloat_int {n : ℤ} (h : |n| < 2 ^ 24) : IsFloat n := ⟨n, 0, h, by norm_num, by simp⟩

theorem isFloat_nat {n : ℕ} (h : n < 2 ^ 24) : IsFloat n := by
  have := isFloat_int (n := n) (by rw [abs_of_nonneg (by positivity)]; exact_mod_cast h)
  exact_mod_cast this

theorem isFloat_zero : IsFloat 0 := by simpa using isFloat_nat (n := 0) (by norm_num)

theorem isFloat_one : IsFloat 1 := by simpa using isFloat_nat (n := 1) (by norm_num)

theorem isFloat_neg {x : ℝ} (h : IsFloat x) : IsFloat (-x) := by
  obtain ⟨k, e, hk, he, rfl⟩ := h
  exact ⟨-k, e, by rwa [abs_neg], he, by push_cast; ring⟩

theorem isFloat_neg_iff {x : ℝ} : IsFloat (-x) ↔ IsFloat x :=
  ⟨fun h => by simpa using isFloat_neg h, isFloat_neg⟩

/-- Distinct floats are apart. -/
theorem isFloat_gap {d s : ℝ} (hd : IsFloat d) (hs : IsFloat s) (hne : d ≠ s) : 2⁻¹ ^ 25 * |s| ≤ |d - s| := by
  obtain ⟨k, e, hk, he, rfl⟩ := hd
  obtain ⟨m, f, hm, hf, rfl⟩ := hs
  have hpe : (0 : ℝ) < 2 ^ e := zpow_pos (by norm_num) _
  have hpf : (0 : ℝ) < 2 ^ f := zpow_pos (by norm_num) _
  have hm' : |(m : ℝ)| ≤ 2 ^ 24 := by exact_mod_cast hm.le
  have hk' : |(k : ℝ)| ≤ 2 ^ 24 := by exact_mod_cast hk.le
  have hs : |(m : ℝ) * 2 ^ f| ≤ 2 ^ 24 * 2 ^ f := by
    rw [abs_mul, abs_of_pos hpf]; exact mul_le_mul_of_nonneg_right hm' hpf.le
  have hd : |(k : ℝ) * 2 ^ e| ≤ 2 ^ 24 * 2 ^ e := by
    rw [abs_mul, abs_of_pos hpe]; exact mul_le_mul_of_nonneg_right hk' hpe.le
  rcases le_or_gt f e with h | h
  · -- both are multiples of `2 ^ f`
    have e1 : (k : ℝ) * 2 ^ e = ((k * 2 ^ (e - f).toNat : ℤ) : ℝ) * 2 ^ f := by
      push_cast
      rw [mul_assoc, ← zpow_natCast, ← zpow_add₀ (by norm_num)]
      congr 2
      omega
    rw [e1] at hne ⊢
    rw [← sub_mul, abs_mul _ ((2 : ℝ) ^ f), abs_mul _ ((2 : ℝ) ^ f), abs_of_pos hpf]
    rw [abs_mul, abs_of_pos hpf] at hs
    have h1 : (1 : ℝ) ≤ |((k * 2 ^ (e - f).toNat : ℤ) : ℝ) - m| := by
      have : k * 2 ^ (e - f).toNat - m ≠ 0 := by
        intro h0
        apply hne
        rw [sub_eq_zero.mp h0]
      have := Int.one_le_abs this
      exact_mod_cast this
    have h2 : 2 ^ f ≤ |((k * 2 ^ (e - f).toNat : ℤ) : ℝ) - m| * 2 ^ f := by nlinarith
    have h3 : (2⁻¹ : ℝ) ^ 25 * (|(m : ℝ)| * 2 ^ f) ≤ 2 ^ f := by
      have := mul_le_mul_of_nonneg_left hs (by positivity : (0 : ℝ) ≤ 2⁻¹ ^ 25)
      have e : (2⁻¹ : ℝ) ^ 25 * (2 ^ 24 * 2 ^ f) = 2 ^ f / 2 := by ring
      rw [e] at this
      linarith
    exact h3.trans h2
  · have e1 : (m : ℝ) * 2 ^ f = ((m * 2 ^ (f - e).toNat : ℤ) : ℝ) * 2 ^ e := by
      push_cast
      rw [mul_assoc, ← zpow_natCast, ← zpow_add₀ (by norm_num)]
      congr 2
      omega
    have h1 : (2 : ℝ) ^ e ≤ |(k : ℝ) * 2 ^ e - m * 2 ^ f| := by
      rw [e1] at hne ⊢
      rw [← sub_mul, abs_mul, abs_of_pos hpe]
      have h1 : (1 : ℝ) ≤ |(k : ℝ) - ((m * 2 ^ (f - e).toNat : ℤ) : ℝ)| := by
        have : k - m * 2 ^ (f - e).toNat ≠ 0 := by
          intro h0
          apply hne
          rw [sub_eq_zero.mp h0]
        have := Int.one_le_abs this
        exact_mod_cast this
      nlinarith
    have h2 : |(m : ℝ) * 2 ^ f| ≤ |(k : ℝ) * 2 ^ e| + |(k : ℝ) * 2 ^ e - m * 2 ^ f| := by
      have := abs_sub_abs_le_abs_sub ((m : ℝ) * 2 ^ f) (k * 2 ^ e)
      rw [abs_sub_comm] at this
      linarith
    have h3 : |(m : ℝ) * 2 ^ f| ≤ 2 ^ 25 * |(k : ℝ) * 2 ^ e - m * 2 ^ f| := by nlinarith
    have := mul_le_mul_of_nonneg_left h3 (by positivity : (0 : ℝ) ≤ 2⁻¹ ^ 25)
    refine this.trans (le_of_eq ?_)
    ring

namespace Spec.RoundsToFloat

variable {rd : ℝ → ℝ}

theorem exact (h : RoundsToFloat rd) {x : ℝ} (hx : IsFloat x) : rd x = x := by
  have := h.nearest x x hx
  simp only [sub_self, abs_zero] at this
  exact sub_eq_zero.mp (abs_nonpos_iff.mp this)

theorem mono (h : RoundsToFloat rd) : Monotone rd := by
  intro x y hxy
  by_contra hlt
  push Not at hlt
  rcases eq_or_lt_of_le hxy with he | hlt2
  · rw [he] at hlt; exact lt_irrefl _ hlt
  have h1 := h.nearest x _ (h.isFloat y)
  have h2 := h.nearest y _ (h.isFloat x)
  rcases abs_cases (rd x - x) with ⟨a, _⟩ | ⟨a, _⟩ <;> rcases abs_cases (rd y - x) with ⟨b, _⟩ | ⟨b, _⟩ <;>
    rcases abs_cases (rd y - y) with ⟨c, _⟩ | ⟨c, _⟩ <;> rcases abs_cases (rd x - y) with ⟨d, _⟩ | ⟨d, _⟩ <;>
    rw [a, b] at h1 <;> rw [c, d] at h2 <;> linarith

theorem error (h : RoundsToFloat rd) (x : ℝ) : |rd x - x| ≤ 2⁻¹ ^ 24 * |x| + halfMinF := by
  obtain ⟨d, hd, hle⟩ := exists_float x
  exact (h.nearest x d hd).trans hle

theorem le_of_le (h : RoundsToFloat rd) {x d : ℝ} (hd : IsFloat d) (hx : x ≤ d) : rd x ≤ d := by
  have := h.mono hx
  rwa [h.exact hd] at this

theorem ge_of_ge (h : RoundsToFloat rd) {x d : ℝ} (hd : IsFloat d) (hx : d ≤ x) : d ≤ rd x := by
  have := h.mono hx
  rwa [h.exact hd] at this

theorem nonneg (h : RoundsToFloat rd) {x : ℝ} (hx : 0 ≤ x) : 0 ≤ rd x := h.ge_of_ge isFloat_zero hx

/-- Rounding by less than half of the distance to the next float does nothing. -/
theorem absorbs (h : RoundsToFloat rd) {s t : ℝ} (hs : IsFloat s) (ht : |t| < 2⁻¹ ^ 26 * |s|) : rd (s + t) = s := by
  by_contra hne
  have h1 := isFloat_gap (h.isFloat (s + t)) hs hne
  have h2 := h.nearest (s + t) s hs
  have h3 : |s - (s + t)| = |t| := by rw [← abs_neg t]; congr 1; ring
  rw [h3] at h2
  have h4 : |rd (s + t) - s| ≤ |rd (s + t) - (s + t)| + |t| := by
    have : rd (s + t) - s = (rd (s + t) - (s + t)) + t := by ring
    rw [this]
    exact abs_add_le _ _
  have e : (2⁻¹ : ℝ) ^ 25 * |s| = 2 * (2⁻¹ ^ 26 * |s|) := by ring
  rw [e] at h1
  linarith

end Spec.RoundsToFloat

end

end Ndt
