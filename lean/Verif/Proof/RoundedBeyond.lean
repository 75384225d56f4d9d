import Verif.Proof.RoundedOffsets
import Verif.Spec.RoundedBeyond

/-! # Positions too far from the map, in double precision -/

namespace Ndt.Rounded

open Spec

noncomputable section

variable {rd co si : ℝ → ℝ}

theorem isDouble_scale {c : ℝ} (hc : IsDouble c) (n : ℕ) : IsDouble (2 ^ n * c) := by
  obtain ⟨k, e, h1, h2, rfl⟩ := hc
  refine ⟨k, e + n, h1, by omega, ?_⟩
  rw [zpow_add₀ two_ne_zero, zpow_natCast]
  ring

theorem column_beyond (hr : RoundsToNearest rd) {c o x : ℝ} (hc : IsDouble c) (h0 : 0 < c) (h : o + 2 ^ 32 * c ≤ x) :
    toU32F (Fl.rounded rd (.fin (rd (x - o)) / .fin c)) = .error .conversion := by
  have h1 : 2 ^ 32 * c ≤ rd (x - o) := hr.ge_of_ge (isDouble_scale hc 32) (by linarith)
  have h2 : (2 : ℝ) ^ 32 ≤ rd (rd (x - o) / c) := hr.ge_of_ge (isDouble_two_pow 32) (by rwa [le_div_iff₀ h0])
  rw [Fl.fin_div h0.ne', Fl.rounded_fin]
  simp only [toU32F, toU32]
  rw [if_neg]
  rintro ⟨-, h3⟩
  have h4 : (0 : ℝ) ≤ rd (rd (x - o) / c) := le_trans (by norm_num) h2
  unfold truncZ at h3
  rw [if_pos h4, Int.floor_lt] at h3
  push_cast at h3
  linarith

theorem column_within (hr : RoundsToNearest rd) {c o x : ℝ} (h0 : 1e-200 ≤ c) (ho : o ≤ x) (h : x ≤ o + (2 ^ 32 - 1) * c) :
    ∃ n, toU32F (Fl.rounded rd (.fin (rd (x - o)) / .fin c)) = .ok n := by
  have h9 : 1e-250 ≤ 2 ^ 32 * c := le_trans (by norm_num) (mul_le_mul_of_nonneg_left h0 (by norm_num))
  replace h0 : 0 < c := lt_of_lt_of_le (by norm_num) h0
  have h1 := (abs_le.mp (rd_far hr (x := x - o) (X := 2 ^ 32 * c) (abs_le.mpr ⟨by norm_num at h ⊢; linarith, by norm_num at h ⊢; linarith⟩) h9)).2
  have hd : IsDouble (2 ^ 32 - 1 / 2) := ⟨2 ^ 33 - 1, -1, by norm_num, by norm_num, by norm_num⟩
  have h2 : rd (rd (x - o) / c) ≤ (2 : ℝ) ^ 32 - 1 / 2 := by
    refine hr.le_of_le hd ?_
    rw [div_le_iff₀ h0]
    norm_num at h h1 ⊢
    linarith
  have h4 : (0 : ℝ) ≤ rd (rd (x - o) / c) := hr.nonneg (div_nonneg (hr.nonneg (by linarith)) h0.le)
  rw [Fl.fin_div h0.ne', Fl.rounded_fin]
  have e : truncZ (rd (rd (x - o) / c)) = ⌊rd (rd (x - o) / c)⌋ := by
    unfold truncZ
    rw [if_pos h4]
  simp only [toU32F, toU32]
  rw [if_pos]
  · exact ⟨_, rfl⟩
  · rw [e]
    refine ⟨Int.floor_nonneg.mpr h4, ?_⟩
    rw [Int.floor_lt]
    push_cast
    norm_num at h2 ⊢
    linarith

theorem column_outside (hr : RoundsToNearest rd) {c o x : ℝ} {n k : ℕ} (h0 : 1e-200 ≤ c) (h : o + (n + 1) * c ≤ x) (hx : x ≤ o + (2 ^ 32 - 1) * c)
    (hk : toU32F (Fl.rounded rd (.fin (rd (x - o)) / .fin c)) = .ok k) : n ≤ k := by
  have h9 : 1e-250 ≤ 2 ^ 32 * c := le_trans (by norm_num) (mul_le_mul_of_nonneg_left h0 (by norm_num))
  replace h0 : 0 < c := lt_of_lt_of_le (by norm_num) h0
  have hnc : 0 ≤ (n : ℝ) * c := by positivity
  have h1 := (abs_le.mp (rd_far hr (x := x - o) (X := 2 ^ 32 * c) (abs_le.mpr ⟨by norm_num at hx ⊢; linarith, by norm_num at hx ⊢; linarith⟩) h9)).1
  have hn : n < 2 ^ 32 := by
    have : ((n : ℝ) + 1) * c ≤ (2 ^ 32 - 1) * c := by linarith
    have := le_of_mul_le_mul_right this h0
    have h3 : (n : ℝ) < 2 ^ 32 := by linarith
    exact_mod_cast h3
  have h2 : (n : ℝ) ≤ rd (rd (x - o) / c) := by
    refine hr.ge_of_ge (isDouble_nat (by omega)) ?_
    rw [le_div_iff₀ h0]
    norm_num at h h1 ⊢
    linarith
  have h4 : (0 : ℝ) ≤ rd (rd (x - o) / c) := le_trans (Nat.cast_nonneg _) h2
  rw [Fl.fin_div h0.ne', Fl.rounded_fin] at hk
  simp only [toU32F, toU32] at hk
  split_ifs at hk
  cases hk
  have e : truncZ (rd (rd (x - o) / c)) = ⌊rd (rd (x - o) / c)⌋ := by
    unfold truncZ
    rw [if_pos h4]
  rw [e]
  have h5 : (n : ℤ) ≤ ⌊rd (rd (x - o) / c)⌋ := Int.le_floor.mpr (by exact_mod_cast h2)
  omega

theorem index_beyond (hr : RoundsToNearest rd) {g : NdtGrid} (hc : IsDouble g.cellSize) (h0 : 0 < g.cellSize) {p : Point} (h : Beyond g 0 p) :
    getIndex rd g p.x p.y = .error .conversion := by
  obtain ⟨h1, h2, h3⟩ := h
  rw [add_zero] at h1 h2
  unfold getIndex
  rw [if_neg (by rintro (h | h) <;> linarith)]
  rcases h3 with h3 | h3
  · rw [column_beyond hr hc h0 (by linarith)]
    rfl
  · have e := column_beyond hr hc h0 (o := g.originY) (x := p.y) (by linarith)
    rw [e]
    cases hh : toU32F (Fl.rounded rd (.fin (rd (p.x - g.originX)) / .fin g.cellSize)) with
    | ok n => rfl
    | error f =>
      rw [Fl.fin_div h0.ne', Fl.rounded_fin] at hh
      simp only [toU32F, toU32] at hh
      split_ifs at hh
      cases hh
      rfl

theorem likelihood_beyond (hr : RoundsToNearest rd) {g : NdtGrid} (hc : IsDouble g.cellSize) (h0 : 0 < g.cellSize) {p : Point} (h : Beyond g 0 p) :
    likelihood rd g p = .error .conversion := by
  unfold likelihood
  rw [index_beyond hr hc h0 h]
  rfl

theorem beyond_near {g : NdtGrid} {ε : ℝ} {p q : Point} (h : Beyond g ε p) (hx : |q.x - p.x| ≤ ε) (hy : |q.y - p.y| ≤ ε) : Beyond g 0 q := by
  obtain ⟨h1, h2, h3⟩ := h
  have a := abs_le.mp hx
  have b := abs_le.mp hy
  refine ⟨by linarith, by linarith, ?_⟩
  rcases h3 with h3 | h3
  · exact Or.inl (by linarith)
  · exact Or.inr (by linarith)

end

end Ndt.Rounded
