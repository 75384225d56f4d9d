import Verif.Proof.Chance
import Verif.Props.FilterProps

/-! # C93: resampling is unbiased -/

namespace Ndt

noncomputable section

open Spec

variable {m n : ℕ} {f : Filter} {P : Fin m → Pose2d} {w : Fin m → ℝ} {err z : ℝ} {g : (Fin n → Fin m) → Filter}

/-- C93: of `n` particles drawn by the weights, the expected number at a pose is `n` times its weight. -/
theorem c93_expected_copies (hf : Holds f P w) (hn : 0 < n) (hmin : f.minP = n) (hmax : f.maxP = n)
    (hg : ∀ d, f.resample err z (stream d) = .ok (g d)) (i : Fin m) :
    expected w (fun d => copies (g d) (P i)) = n * w i := by
  rw [← expected_times hf.sum i]
  congr 1
  funext d
  unfold copies times
  rw [(resample_weights hn hmin hmax hf.weights hf.particles hf.positive d (hg d)).1, List.map_ofFn, List.sum_ofFn]
  apply Finset.sum_congr rfl
  intro k _
  simp only [Function.comp, hf.apart.eq_iff]

theorem expected_share (hs : ∑ i, w i = 1) (hn : 0 < n) (i : Fin m) :
    expected w (fun d : Fin n → Fin m => times d i / n) = w i := by
  have h := expected_times (n := n) hs i
  unfold expected at *
  have hn' : (n : ℝ) ≠ 0 := by exact_mod_cast hn.ne'
  have : ∑ d : Fin n → Fin m, chance w d * (times d i / n) = (∑ d : Fin n → Fin m, chance w d * times d i) / n := by
    rw [Finset.sum_div]
    apply Finset.sum_congr rfl
    intro d _
    ring
  rw [this, h]
  field_simp

/-- C93, what holds: with equal weights the expected weight of a pose after resampling is its weight before. Missing: other
weights (`c93_unbiased_iff`). -/
theorem c93_equal_weights_unbiased_partial (hf : Holds f P w) (hn : 0 < n) (hmin : f.minP = n) (hmax : f.maxP = n)
    (hg : ∀ d, f.resample err z (stream d) = .ok (g d)) (heq : ∀ i j, w i = w j) (i : Fin m) :
    expected w (fun d => weightAt (g d) (P i)) = w i := by
  rw [← expected_share hf.sum hn i]
  congr 1
  funext d
  rw [weightAt_resampled hn hmin hmax hf.weights hf.particles hf.positive hf.apart d (hg d) i,
    Finset.sum_congr rfl fun k _ => heq (d k) i, Finset.sum_const, Finset.card_univ, Fintype.card_fin, nsmul_eq_mul]
  exact mul_div_mul_right _ _ (ne_of_gt (hf.positive i))

theorem times_nonneg (d : Fin n → Fin m) (i : Fin m) : 0 ≤ times d i :=
  Finset.sum_nonneg fun k _ => by split <;> norm_num

/-- C93 is refuted: resampling alone, without any new measurement, raises the expected weight of the best particle, whenever the
particles are not all equally good and at least two are drawn. -/
theorem c93_best_particle_gains (hf : Holds f P w) (hn : 1 < n) (hmin : f.minP = n) (hmax : f.maxP = n)
    (hg : ∀ d, f.resample err z (stream d) = .ok (g d)) {i : Fin m} (hbest : ∀ j, w j ≤ w i) {j : Fin m} (hj : w j < w i) :
    w i < expected w (fun d => weightAt (g d) (P i)) := by
  have hn0 : 0 < n := by omega
  have hw := fun d => weightAt_resampled hn0 hmin hmax hf.weights hf.particles hf.positive hf.apart d (hg d) i
  have hc : ∀ d : Fin n → Fin m, 0 < chance w d := fun d => Finset.prod_pos fun k _ => hf.positive _
  have hsum : ∀ d : Fin n → Fin m, 0 < ∑ k, w (d k) := fun d =>
    Finset.sum_pos (fun k _ => hf.positive _) ⟨⟨0, hn0⟩, Finset.mem_univ _⟩
  have hle : ∀ d : Fin n → Fin m, ∑ k, w (d k) ≤ n * w i := by
    intro d
    have := Finset.sum_le_sum (s := Finset.univ) fun (k : Fin n) _ => hbest (d k)
    simpa using this
  have hn' : (0 : ℝ) < n := by exact_mod_cast hn0
  conv_lhs => rw [← expected_share (n := n) hf.sum hn0 i]
  unfold expected
  apply Finset.sum_lt_sum
  · intro d _
    apply mul_le_mul_of_nonneg_left _ (hc d).le
    beta_reduce
    rw [hw d, div_le_div_iff₀ hn' (hsum d)]
    have := mul_le_mul_of_nonneg_left (hle d) (times_nonneg d i)
    linarith
  · let d : Fin n → Fin m := fun k => if k = ⟨0, hn0⟩ then i else j
    refine ⟨d, Finset.mem_univ _, ?_⟩
    apply mul_lt_mul_of_pos_left _ (hc d)
    beta_reduce
    rw [hw d, div_lt_div_iff₀ hn' (hsum d)]
    have ht : 0 < times d i := by
      unfold times
      apply Finset.sum_pos'
      · intro k _; split <;> norm_num
      · exact ⟨⟨0, hn0⟩, Finset.mem_univ _, by simp [d]⟩
    have hlt : ∑ k, w (d k) < n * w i := by
      have : ∑ k, w (d k) < ∑ _k : Fin n, w i := by
        apply Finset.sum_lt_sum
        · intro k _; exact hbest _
        · refine ⟨⟨1, hn⟩, Finset.mem_univ _, ?_⟩
          have : d ⟨1, hn⟩ = j := by simp [d]
          rw [this]
          exact hj
      simpa using this
    have := mul_lt_mul_of_pos_left hlt ht
    linarith

/-- C93, the exact condition: with at least two draws, resampling is unbiased exactly when all weights are equal. -/
theorem c93_unbiased_iff (hf : Holds f P w) (hn : 1 < n) (hmin : f.minP = n) (hmax : f.maxP = n)
    (hg : ∀ d, f.resample err z (stream d) = .ok (g d)) :
    (∀ i, expected w (fun d => weightAt (g d) (P i)) = w i) ↔ ∀ i j, w i = w j := by
  constructor
  · intro h
    by_cases hm : Nonempty (Fin m)
    · obtain ⟨i, -, hi⟩ := Finset.exists_max_image Finset.univ w ⟨hm.some, Finset.mem_univ _⟩
      have : ∀ j, w j = w i := by
        intro j
        by_contra hne
        have := c93_best_particle_gains hf hn hmin hmax hg (i := i) (fun j => hi j (Finset.mem_univ _))
          (lt_of_le_of_ne (hi j (Finset.mem_univ _)) hne)
        rw [h i] at this
        exact lt_irrefl _ this
      intro a b
      rw [this a, this b]
    · intro i
      exact absurd ⟨i⟩ hm
  · intro heq i
    exact c93_equal_weights_unbiased_partial hf (by omega) hmin hmax hg heq i

/-! ## A concrete case -/

/-- Two particles a metre apart, one three times as good as the other. -/
def twoParticles : Filter :=
  ⟨⟨0, 0, 0, 0, 0⟩, 2, 2, List.ofFn ![⟨0, 0, 0⟩, ⟨1, 0, 0⟩], List.ofFn fun i => .fin (![1 / 4, 3 / 4] i), fun _ => .fin 0,
    fun _ _ => .fin 0, KdTree.new 0.5 0.5 0.2671⟩

theorem twoParticles_holds : Holds twoParticles ![⟨0, 0, 0⟩, ⟨1, 0, 0⟩] ![1 / 4, 3 / 4] where
  particles := rfl
  weights := rfl
  positive := by intro i; fin_cases i <;> norm_num
  sum := by norm_num [Fin.sum_univ_two]
  apart := by
    intro i j h
    fin_cases i <;> fin_cases j <;> first | rfl | (exfalso; simp at h)

theorem twoParticles_defined (d : Fin 2 → Fin 2) : ∃ g, twoParticles.resample 1 0 (stream d) = .ok g := by
  apply c21_resample_defined one_pos le_rfl
  · rfl
  · simp [twoParticles, KdTree.new]
  · intro n
    show stream d n < 2
    unfold stream
    split
    · exact (d _).isLt
    · norm_num
  · intro p hp
    simp only [twoParticles, List.ofFn_succ, List.ofFn_zero, List.mem_cons, List.not_mem_nil, or_false] at hp
    rcases hp with rfl | rfl <;> exact binFits_small (by norm_num) (by norm_num) (by norm_num)
  · intro k hk1 hk2
    have : k = 2 := by
      have : twoParticles.maxP = 2 := rfl
      rw [this] at hk2
      omega
    subst this
    unfold kldBound
    norm_num

/-- The better particle has three quarters of the weight, and expects more after resampling. -/
example : ∃ g : (Fin 2 → Fin 2) → Filter, (∀ d, twoParticles.resample 1 0 (stream d) = .ok (g d)) ∧
    3 / 4 < expected ![1 / 4, 3 / 4] (fun d => weightAt (g d) ⟨1, 0, 0⟩) := by
  choose g hg using twoParticles_defined
  exact ⟨g, hg, c93_best_particle_gains (n := 2) twoParticles_holds (by norm_num) rfl rfl hg (i := 1) (j := 0)
    (by intro j; fin_cases j <;> norm_num) (by norm_num)⟩

end

end Ndt
