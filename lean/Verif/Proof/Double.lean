import Verif.Base.Double
import Verif.Spec.Double

/-! # Lemmas about doubles and rounding -/

namespace Ndt

open Spec

noncomputable section

theorem rneInt_near (x : ℝ) (k : ℤ) : |(rneInt x : ℝ) - x| ≤ |(k : ℝ) - x| := by
  have h1 := Int.floor_add_fract x
  have h2 := Int.fract_nonneg x
  have h3 := Int.fract_lt_one x
  have hk : (k : ℝ) ≤ ⌊x⌋ ∨ (⌊x⌋ : ℝ) + 1 ≤ k := by
    rcases le_or_gt k ⌊x⌋ with h | h
    · exact Or.inl (by exact_mod_cast h)
    · exact Or.inr (by exact_mod_cast h)
  unfold rneInt
  split_ifs with a b c
  · rw [abs_of_nonpos (by linarith)]
    rcases hk with h | h
    · rw [abs_of_nonpos (by linarith)]; linarith
    · rw [abs_of_nonneg (by linarith)]; linarith
  · push_cast
    rw [abs_of_nonneg (by linarith)]
    rcases hk with h | h
    · rw [abs_of_nonpos (by linarith)]; linarith
    · rw [abs_of_nonneg (by linarith)]; linarith
  · rw [abs_of_nonpos (by linarith)]
    rcases hk with h | h
    · rw [abs_of_nonpos (by linarith)]; linarith
    · rw [abs_of_nonneg (by linarith)]; linarith
  · push_cast
    rw [abs_of_nonneg (by linarith)]
    rcases hk with h | h
    · rw [abs_of_nonpos (by linarith)]; linarith
    · rw [abs_of_nonneg (by linarith)]; linarith

theorem rneInt_half (x : ℝ) : |(rneInt x : ℝ) - x| ≤ 1 / 2 := by
  have h1 := Int.floor_add_fract x
  have h2 := Int.fract_nonneg x
  have h3 := Int.fract_lt_one x
  unfold rneInt
  split_ifs with a b c
  · rw [abs_of_nonpos (by linarith)]; linarith
  · push_cast; rw [abs_of_nonneg (by linarith)]; linarith
  · rw [abs_of_nonpos (by linarith)]; linarith
  · push_cast; rw [abs_of_nonneg (by linarith)]; linarith

/-- How to compute the nearest integer. -/
theorem rneInt_eq {x : ℝ} {k : ℤ} (h : |(k : ℝ) - x| < 1 / 2 ∨ (|(k : ℝ) - x| = 1 / 2 ∧ Even k)) : rneInt x = k := by
  have h1 := Int.floor_add_fract x
  have h2 := Int.fract_nonneg x
  have h3 := Int.fract_lt_one x
  have hle : |(k : ℝ) - x| ≤ 1 / 2 := by rcases h with h | h <;> [exact h.le; exact h.1.le]
  obtain ⟨ha, hb⟩ := abs_le.mp hle
  have hk : k = ⌊x⌋ ∨ k = ⌊x⌋ + 1 := by
    have h4 : ((k : ℝ)) < ⌊x⌋ + 2 := by linarith
    have h5 : ((⌊x⌋ : ℝ)) - 1 < k := by linarith
    have h6 : k < ⌊x⌋ + 2 := by exact_mod_cast h4
    have h7 : ⌊x⌋ - 1 < k := by exact_mod_cast h5
    omega
  unfold rneInt
  rcases hk with hk | hk
  · have hk' : (k : ℝ) = ⌊x⌋ := by exact_mod_cast hk
    rcases h with h | ⟨h, he⟩
    · rw [abs_lt] at h
      rw [if_pos (by linarith), hk]
    · rw [abs_of_nonpos (by linarith)] at h
      rw [if_neg (by linarith), if_neg (by linarith), if_pos (hk ▸ he), hk]
  · have hk' : (k : ℝ) = ⌊x⌋ + 1 := by rw [hk]; push_cast; ring
    rcases h with h | ⟨h, he⟩
    · rw [abs_lt] at h
      rw [if_neg (by linarith), if_pos (by linarith), hk]
    · rw [abs_of_nonneg (by linarith)] at h
      rw [if_neg (by linarith), if_neg (by linarith), if_neg, hk]
      intro ho
      rw [hk] at he
      exact (Int.even_add_one.mp he) ho

theorem ulpExp_lt (x : ℝ) : |x| < 2 ^ 53 * 2 ^ ulpExp x := by
  have h := Int.lt_zpow_succ_log_self (b := 2) (by norm_num) |x|
  have h2 : ((2 : ℕ) : ℝ) ^ (Int.log 2 |x| + 1) ≤ 2 ^ 53 * 2 ^ ulpExp x := by
    have : (2 : ℝ) ^ (53 : ℕ) * 2 ^ ulpExp x = 2 ^ (53 + ulpExp x) := by
      rw [zpow_add₀ (by norm_num)]; norm_num
    rw [this]
    push_cast
    apply zpow_le_zpow_right₀ (by norm_num)
    unfold ulpExp
    have := le_max_left (Int.log 2 |x| - 52) (-1074)
    omega
  linarith

theorem ulpExp_ge (x : ℝ) : -1074 ≤ ulpExp x := le_max_right _ _

theorem ulpExp_le {x : ℝ} (hx : x ≠ 0) : ulpExp x = -1074 ∨ (2 : ℝ) ^ 52 * 2 ^ ulpExp x ≤ |x| := by
  by_cases h : Int.log 2 |x| - 52 ≤ -1074
  · left; exact max_eq_right h
  · right
    have he : ulpExp x = Int.log 2 |x| - 52 := max_eq_left (by omega)
    have h2 := Int.zpow_log_le_self (b := 2) (R := ℝ) (by norm_num) (abs_pos.mpr hx)
    rw [he]
    have : (2 : ℝ) ^ (52 : ℕ) * 2 ^ (Int.log 2 |x| - 52) = 2 ^ (Int.log 2 |x|) := by
      rw [← zpow_natCast, ← zpow_add₀ (by norm_num)]
      congr 1
      push_cast
      ring
    rw [this]
    exact_mod_cast h2

theorem isDouble_rnd (x : ℝ) : IsDouble (rnd x) := by
  set y := x / 2 ^ ulpExp x with hy
  have hp : (0 : ℝ) < 2 ^ ulpExp x := zpow_pos (by norm_num) _
  have h1 : |y| < 2 ^ 53 := by
    rw [hy, abs_div, abs_of_pos hp, div_lt_iff₀ hp]
    exact ulpExp_lt x
  have h2 := rneInt_near y (2 ^ 53)
  have h3 : |(rneInt y : ℝ) - y| ≤ |(-(2 ^ 53) : ℝ) - y| := by
    have := rneInt_near y (-(2 ^ 53))
    rwa [Int.cast_neg, Int.cast_pow, Int.cast_ofNat] at this
  obtain ⟨ha, hb⟩ := abs_lt.mp h1
  have hle : |rneInt y| ≤ 2 ^ 53 := by
    rw [Int.cast_pow, Int.cast_ofNat] at h2
    rw [abs_of_pos (by linarith : (0 : ℝ) < 2 ^ 53 - y)] at h2
    rw [abs_of_neg (by linarith : (-(2 ^ 53) : ℝ) - y < 0)] at h3
    rw [abs_le]
    have h4 := (abs_le.mp h2).2
    have h5 := (abs_le.mp h3).1
    constructor
    · have : (-(2 ^ 53 : ℤ) : ℝ) ≤ rneInt y := by push_cast; linarith
      exact_mod_cast this
    · have : (rneInt y : ℝ) ≤ ((2 ^ 53 : ℤ) : ℝ) := by push_cast; linarith
      exact_mod_cast this
  rcases lt_or_eq_of_le hle with h | h
  · exact ⟨rneInt y, ulpExp x, h, ulpExp_ge x, rfl⟩
  · have hz : (2 : ℝ) ^ (ulpExp x + 1) = 2 * 2 ^ ulpExp x := by
      rw [zpow_add₀ (by norm_num)]; ring
    rcases abs_eq (by norm_num : (0 : ℤ) ≤ 2 ^ 53) |>.mp h with h | h
    · refine ⟨2 ^ 52, ulpExp x + 1, by norm_num, by have := ulpExp_ge x; omega, ?_⟩
      show (rneInt y : ℝ) * _ = _
      rw [h, hz]; push_cast; ring
    · refine ⟨-2 ^ 52, ulpExp x + 1, by norm_num, by have := ulpExp_ge x; omega, ?_⟩
      show (rneInt y : ℝ) * _ = _
      rw [h, hz]; push_cast; ring

theorem rnd_near_mul (x : ℝ) (k : ℤ) : |rnd x - x| ≤ |k * 2 ^ ulpExp x - x| := by
  have hp : (0 : ℝ) < 2 ^ ulpExp x := zpow_pos (by norm_num) _
  have e : x = x / 2 ^ ulpExp x * 2 ^ ulpExp x := by field_simp
  have h := rneInt_near (x / 2 ^ ulpExp x) k
  have a : rnd x - x = (rneInt (x / 2 ^ ulpExp x) - x / 2 ^ ulpExp x) * 2 ^ ulpExp x := by
    rw [sub_mul, ← e]; rfl
  have b : k * 2 ^ ulpExp x - x = (k - x / 2 ^ ulpExp x) * 2 ^ ulpExp x := by
    rw [sub_mul, ← e]
  rw [a, b, abs_mul, abs_mul]
  exact mul_le_mul_of_nonneg_right h (abs_nonneg _)

theorem rnd_zero : rnd 0 = 0 := by
  have : rneInt (0 / 2 ^ ulpExp 0) = 0 := rneInt_eq (by left; norm_num)
  unfold rnd
  rw [this]; simp

/-- The rounding of IEEE-754 is a rounding to nearest. -/
theorem rnd_rounds : RoundsToNearest rnd := by
  refine ⟨isDouble_rnd, fun x d hd => ?_⟩
  by_cases hx : x = 0
  · subst hx; rw [rnd_zero]; simp
  obtain ⟨k, f, hk, hf, rfl⟩ := hd
  rcases le_or_gt (ulpExp x) f with h | h
  · have := rnd_near_mul x (k * 2 ^ (f - ulpExp x).toNat)
    have e : ((k * 2 ^ (f - ulpExp x).toNat : ℤ) : ℝ) * 2 ^ ulpExp x = k * 2 ^ f := by
      push_cast
      rw [mul_assoc, ← zpow_natCast, ← zpow_add₀ (by norm_num)]
      congr 2
      omega
    rwa [e] at this
  · rcases ulpExp_le hx with h2 | h2
    · omega
    have hd : |(k : ℝ) * 2 ^ f| ≤ 2 ^ 52 * 2 ^ ulpExp x := by
      rw [abs_mul, abs_of_pos (zpow_pos (by norm_num) f : (0 : ℝ) < 2 ^ f)]
      have h3 : |(k : ℝ)| ≤ 2 ^ 53 := by
        have : |k| ≤ 2 ^ 53 := hk.le
        exact_mod_cast this
      have h4 : (2 : ℝ) ^ f ≤ 2 ^ (ulpExp x - 1) := zpow_le_zpow_right₀ (by norm_num) (by omega)
      have h5 : (2 : ℝ) ^ (ulpExp x - 1) = 2 ^ ulpExp x / 2 := by
        rw [zpow_sub₀ (by norm_num)]; norm_num
      have hp : (0 : ℝ) < 2 ^ f := zpow_pos (by norm_num) f
      have hp' : (0 : ℝ) < 2 ^ ulpExp x := zpow_pos (by norm_num) _
      calc |(k : ℝ)| * 2 ^ f ≤ 2 ^ 53 * 2 ^ (ulpExp x - 1) := by
            apply mul_le_mul h3 h4 hp.le (by positivity)
        _ = 2 ^ 52 * 2 ^ ulpExp x := by rw [h5]; ring
    rcases lt_or_gt_of_ne hx with hn | hn
    · have := rnd_near_mul x (-2 ^ 52)
      push_cast at this
      rw [abs_of_neg hn] at h2
      refine this.trans ?_
      rw [abs_of_nonneg (by linarith)]
      obtain ⟨ha, hb⟩ := abs_le.mp hd
      exact le_trans (by linarith) (le_abs_self _)
    · have := rnd_near_mul x (2 ^ 52)
      push_cast at this
      rw [abs_of_pos hn] at h2
      refine this.trans ?_
      rw [abs_of_nonpos (by linarith)]
      obtain ⟨ha, hb⟩ := abs_le.mp hd
      exact le_trans (by linarith) (neg_le_abs _)

/-- Half of the least positive double. -/
def halfMin : ℝ := 2⁻¹ ^ 1075

theorem halfMin_pos : 0 < halfMin := by unfold halfMin; positivity

/-- A double close to a number. -/
theorem exists_double (x : ℝ) : ∃ d, IsDouble d ∧ |d - x| ≤ 2⁻¹ ^ 53 * |x| + halfMin := by
  refine ⟨rnd x, isDouble_rnd x, ?_⟩
  by_cases hx : x = 0
  · subst hx; rw [rnd_zero]; simp [halfMin_pos.le]
  have hp : (0 : ℝ) < 2 ^ ulpExp x := zpow_pos (by norm_num) _
  have h1 : |rnd x - x| ≤ 2 ^ ulpExp x / 2 := by
    have e : x = x / 2 ^ ulpExp x * 2 ^ ulpExp x := by field_simp
    have a : rnd x - x = (rneInt (x / 2 ^ ulpExp x) - x / 2 ^ ulpExp x) * 2 ^ ulpExp x := by
      rw [sub_mul, ← e]; rfl
    rw [a, abs_mul, abs_of_pos hp]
    have := rneInt_half (x / 2 ^ ulpExp x)
    nlinarith
  rcases ulpExp_le hx with h | h
  · have e : (2 : ℝ) ^ ulpExp x / 2 = halfMin := by
      have e2 : (2 : ℝ) ^ (-1074 : ℤ) = (2 ^ 1074)⁻¹ := by
        rw [zpow_neg]; rfl
      rw [h, e2, halfMin, inv_pow, pow_succ (2 : ℝ) 1074, mul_inv, div_eq_mul_inv]
    rw [e] at h1
    exact le_add_of_nonneg_of_le (by positivity) h1
  · have e : (2 : ℝ) ^ ulpExp x / 2 ≤ 2⁻¹ ^ 53 * |x| := by
      have := mul_le_mul_of_nonneg_left h (by positivity : (0 : ℝ) ≤ 2⁻¹ ^ 53)
      refine le_trans (le_of_eq ?_) this
      ring
    exact le_add_of_le_of_nonneg (h1.trans e) halfMin_pos.le

theorem isDouble_dyadic {k e : ℤ} (hk : |k| < 2 ^ 53) (he : -1074 ≤ e) : IsDouble (k * 2 ^ e) := ⟨k, e, hk, he, rfl⟩

theorem isDouble_int {n : ℤ} (h : |n| < 2 ^ 53) : IsDouble n := ⟨n, 0, h, by norm_num, by simp⟩

theorem isDouble_nat {n : ℕ} (h : n < 2 ^ 53) : IsDouble n := by
  have := isDouble_int (n := n) (by rw [abs_of_nonneg (by positivity)]; exact_mod_cast h)
  exact_mod_cast this

theorem isDouble_zero : IsDouble 0 := by simpa using isDouble_nat (n := 0) (by norm_num)

theorem isDouble_one : IsDouble 1 := by simpa using isDouble_nat (n := 1) (by norm_num)

theorem isDouble_neg {x : ℝ} (h : IsDouble x) : IsDouble (-x) := by
  obtain ⟨k, e, hk, he, rfl⟩ := h
  exact ⟨-k, e, by rwa [abs_neg], he, by push_cast; ring⟩

theorem isDouble_neg_iff {x : ℝ} : IsDouble (-x) ↔ IsDouble x :=
  ⟨fun h => by simpa using isDouble_neg h, isDouble_neg⟩

/-- Distinct doubles are apart. -/
theorem isDouble_gap {d s : ℝ} (hd : IsDouble d) (hs : IsDouble s) (hne : d ≠ s) : 2⁻¹ ^ 54 * |s| ≤ |d - s| := by
  obtain ⟨k, e, hk, he, rfl⟩ := hd
  obtain ⟨m, f, hm, hf, rfl⟩ := hs
  have hpe : (0 : ℝ) < 2 ^ e := zpow_pos (by norm_num) _
  have hpf : (0 : ℝ) < 2 ^ f := zpow_pos (by norm_num) _
  have hm' : |(m : ℝ)| ≤ 2 ^ 53 := by exact_mod_cast hm.le
  have hk' : |(k : ℝ)| ≤ 2 ^ 53 := by exact_mod_cast hk.le
  have hs : |(m : ℝ) * 2 ^ f| ≤ 2 ^ 53 * 2 ^ f := by
    rw [abs_mul, abs_of_pos hpf]; exact mul_le_mul_of_nonneg_right hm' hpf.le
  have hd : |(k : ℝ) * 2 ^ e| ≤ 2 ^ 53 * 2 ^ e := by
    rw [abs_mul, abs_of_pos hpe]; exact mul_le_mul_of_nonneg_right hk' hpe.le
  rcases le_or_gt f e with h | h
  · -- both are multiples of `2 ^ f`
    have e1 : (k : ℝ) * 2 ^ e = ((k * 2 ^ (e - f).toNat : ℤ) : ℝ) * 2 ^ f := by
      push_cast
      rw [mul_assoc, ← zpow_natCast, ← zpow_add₀ (by norm_num)]
      congr 2
      omega
    rw [e1] at hne ⊢
    rw [← sub_mul, abs_mul _ ((2 : ℝ) ^ f), abs_mul _ ((2 : ℝ) ^ f), abs_of_pos hpf]
    rw [abs_mul, abs_of_pos hpf] at hs
    have h1 : (1 : ℝ) ≤ |((k * 2 ^ (e - f).toNat : ℤ) : ℝ) - m| := by
      have : k * 2 ^ (e - f).toNat - m ≠ 0 := by
        intro h0
        apply hne
        rw [sub_eq_zero.mp h0]
      have := Int.one_le_abs this
      exact_mod_cast this
    have h2 : 2 ^ f ≤ |((k * 2 ^ (e - f).toNat : ℤ) : ℝ) - m| * 2 ^ f := by nlinarith
    have h3 : (2⁻¹ : ℝ) ^ 54 * (|(m : ℝ)| * 2 ^ f) ≤ 2 ^ f := by
      have := mul_le_mul_of_nonneg_left hs (by positivity : (0 : ℝ) ≤ 2⁻¹ ^ 54)
      have e : (2⁻¹ : ℝ) ^ 54 * (2 ^ 53 * 2 ^ f) = 2 ^ f / 2 := by ring
      rw [e] at this
      linarith
    exact h3.trans h2
  · have e1 : (m : ℝ) * 2 ^ f = ((m * 2 ^ (f - e).toNat : ℤ) : ℝ) * 2 ^ e := by
      push_cast
      rw [mul_assoc, ← zpow_natCast, ← zpow_add₀ (by norm_num)]
      congr 2
      omega
    have h1 : (2 : ℝ) ^ e ≤ |(k : ℝ) * 2 ^ e - m * 2 ^ f| := by
      rw [e1] at hne ⊢
      rw [← sub_mul, abs_mul, abs_of_pos hpe]
      have h1 : (1 : ℝ) ≤ |(k : ℝ) - ((m * 2 ^ (f - e).toNat : ℤ) : ℝ)| := by
        have : k - m * 2 ^ (f - e).toNat ≠ 0 := by
          intro h0
          apply hne
          rw [sub_eq_zero.mp h0]
        have := Int.one_le_abs this
        exact_mod_cast this
      nlinarith
    have h2 : |(m : ℝ) * 2 ^ f| ≤ |(k : ℝ) * 2 ^ e| + |(k : ℝ) * 2 ^ e - m * 2 ^ f| := by
      have := abs_sub_abs_le_abs_sub ((m : ℝ) * 2 ^ f) (k * 2 ^ e)
      rw [abs_sub_comm] at this
      linarith
    have h3 : |(m : ℝ) * 2 ^ f| ≤ 2 ^ 54 * |(k : ℝ) * 2 ^ e - m * 2 ^ f| := by nlinarith
    have := mul_le_mul_of_nonneg_left h3 (by positivity : (0 : ℝ) ≤ 2⁻¹ ^ 54)
    refine this.trans (le_of_eq ?_)
    ring

/-- One less than a double of moderate size is a double. -/
theorem isDouble_sub_one {r : ℝ} (hr : IsDouble r) (h1 : 1 ≤ r) (h2 : r < 2 ^ 53) : IsDouble (r - 1) := by
  obtain ⟨k, e, hk, he, rfl⟩ := hr
  rcases le_or_gt e 0 with h | h
  · have hp : (0 : ℝ) < 2 ^ e := zpow_pos (by norm_num) _
    have e1 : (1 : ℝ) = ((2 ^ (-e).toNat : ℤ) : ℝ) * 2 ^ e := by
      push_cast
      rw [← zpow_natCast, ← zpow_add₀ (by norm_num)]
      have : ((-e).toNat : ℤ) + e = 0 := by omega
      rw [this, zpow_zero]
    have hle : (2 ^ (-e).toNat : ℤ) ≤ k := by
      have : (((2 ^ (-e).toNat : ℤ) : ℝ)) * 2 ^ e ≤ k * 2 ^ e := by rw [← e1]; exact h1
      have := le_of_mul_le_mul_right this hp
      exact_mod_cast this
    refine ⟨k - 2 ^ (-e).toNat, e, ?_, he, ?_⟩
    · have hp2 : (0 : ℤ) < 2 ^ (-e).toNat := by positivity
      rw [abs_of_nonneg (by omega)]
      rw [abs_of_nonneg (by omega)] at hk
      omega
    · push_cast
      push_cast at e1
      rw [sub_mul, ← e1]
  · have e1 : (k : ℝ) * 2 ^ e = ((k * 2 ^ e.toNat : ℤ) : ℝ) := by
      push_cast
      rw [← zpow_natCast]
      congr 2
      omega
    rw [e1] at h1 h2 ⊢
    have a1 : (1 : ℤ) ≤ k * 2 ^ e.toNat := by exact_mod_cast h1
    have a2 : k * 2 ^ e.toNat < 2 ^ 53 := by exact_mod_cast h2
    have := isDouble_int (n := k * 2 ^ e.toNat - 1) (by rw [abs_of_nonneg (by omega)]; omega)
    push_cast at this ⊢
    exact this

namespace Spec.RoundsToNearest

variable {rd : ℝ → ℝ}

theorem exact (h : RoundsToNearest rd) {x : ℝ} (hx : IsDouble x) : rd x = x := by
  have := h.nearest x x hx
  simp only [sub_self, abs_zero] at this
  exact sub_eq_zero.mp (abs_nonpos_iff.mp this)

theorem mono (h : RoundsToNearest rd) : Monotone rd := by
  intro x y hxy
  by_contra hlt
  push Not at hlt
  rcases eq_or_lt_of_le hxy with he | hlt2
  · rw [he] at hlt; exact lt_irrefl _ hlt
  have h1 := h.nearest x _ (h.isDouble y)
  have h2 := h.nearest y _ (h.isDouble x)
  rcases abs_cases (rd x - x) with ⟨a, _⟩ | ⟨a, _⟩ <;> rcases abs_cases (rd y - x) with ⟨b, _⟩ | ⟨b, _⟩ <;>
    rcases abs_cases (rd y - y) with ⟨c, _⟩ | ⟨c, _⟩ <;> rcases abs_cases (rd x - y) with ⟨d, _⟩ | ⟨d, _⟩ <;>
    rw [a, b] at h1 <;> rw [c, d] at h2 <;> linarith

theorem error (h : RoundsToNearest rd) (x : ℝ) : |rd x - x| ≤ 2⁻¹ ^ 53 * |x| + halfMin := by
  obtain ⟨d, hd, hle⟩ := exists_double x
  exact (h.nearest x d hd).trans hle

theorem le_of_le (h : RoundsToNearest rd) {x d : ℝ} (hd : IsDouble d) (hx : x ≤ d) : rd x ≤ d := by
  have := h.mono hx
  rwa [h.exact hd] at this

theorem ge_of_ge (h : RoundsToNearest rd) {x d : ℝ} (hd : IsDouble d) (hx : d ≤ x) : d ≤ rd x := by
  have := h.mono hx
  rwa [h.exact hd] at this

theorem nonneg (h : RoundsToNearest rd) {x : ℝ} (hx : 0 ≤ x) : 0 ≤ rd x := h.ge_of_ge isDouble_zero hx

/-- Rounding by less than half of the distance to the next double does nothing. -/
theorem absorbs (h : RoundsToNearest rd) {s t : ℝ} (hs : IsDouble s) (ht : |t| < 2⁻¹ ^ 55 * |s|) : rd (s + t) = s := by
  by_contra hne
  have h1 := isDouble_gap (h.isDouble (s + t)) hs hne
  have h2 := h.nearest (s + t) s hs
  have h3 : |s - (s + t)| = |t| := by rw [← abs_neg t]; congr 1; ring
  rw [h3] at h2
  have h4 : |rd (s + t) - s| ≤ |rd (s + t) - (s + t)| + |t| := by
    have : rd (s + t) - s = (rd (s + t) - (s + t)) + t := by ring
    rw [this]
    exact abs_add_le _ _
  have e : (2⁻¹ : ℝ) ^ 54 * |s| = 2 * (2⁻¹ ^ 55 * |s|) := by ring
  rw [e] at h1
  linarith

end Spec.RoundsToNearest

end

end Ndt
