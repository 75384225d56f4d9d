import Verif.Props.ConstraintProps

/-! # C34: the optimised cost -/

namespace Ndt

noncomputable section

open Spec Real

theorem Fl.le_fin (a b : ℝ) : Fl.le (.fin a) (.fin b) ↔ a ≤ b := by
  unfold Fl.le
  constructor
  · rintro (h | ⟨h, -⟩)
    · exact le_of_lt h
    · injection h with h; exact h.le
  · intro h
    rcases lt_or_eq_of_le h with h | h
    · exact Or.inl h
    · exact Or.inr ⟨by rw [h], by simp⟩

theorem quad_pos {a : Matrix (Fin 3) (Fin 3) ℝ} (hp : a.PosDef) {x : Fin 3 → ℝ} (hx : x ≠ 0) : 0 < quad a x := by
  have h := hp.dotProduct_mulVec_pos hx
  unfold quad
  simp only [dotProduct, Matrix.mulVec, star_trivial, Fin.sum_univ_three] at h ⊢
  linarith

theorem quad_three (a : Matrix (Fin 3) (Fin 3) ℝ) (x : Fin 3 → ℝ) : quad a x =
    x 0 * a 0 0 * x 0 + x 0 * a 0 1 * x 1 + x 0 * a 0 2 * x 2 +
    (x 1 * a 1 0 * x 0 + x 1 * a 1 1 * x 1 + x 1 * a 1 2 * x 2) +
    (x 2 * a 2 0 * x 0 + x 2 * a 2 1 * x 1 + x 2 * a 2 2 * x 2) := by
  unfold quad
  simp only [Fin.sum_univ_three]

theorem posDef_symm {a : Matrix (Fin 3) (Fin 3) ℝ} (hp : a.PosDef) (i j : Fin 3) : a i j = a j i := by
  have := hp.isHermitian
  unfold Matrix.IsHermitian at this
  rw [Matrix.conjTranspose_eq_transpose_of_trivial] at this
  exact (congrFun (congrFun this j) i)

/-- **C34** (the weight) For a positive definite information matrix the weight handed to the residual is its lower
Cholesky factor `L`, with `L Lᵀ` the information. -/
theorem c34_weight_is_cholesky_factor {m : Mat3} {a : Matrix (Fin 3) (Fin 3) ℝ} (h : IsReal m a) (hp : a.PosDef) :
    ∃ L : Matrix (Fin 3) (Fin 3) ℝ, IsReal (matrixL m) L ∧ L * L.transpose = a ∧
      (∀ i j, i < j → L i j = 0) ∧ ∀ i, 0 < L i i := by
  have s01 := posDef_symm hp 0 1
  have s02 := posDef_symm hp 0 2
  have s12 := posDef_symm hp 1 2
  have p0 : 0 < a 0 0 := by
    have := quad_pos hp (x := ![1, 0, 0]) (fun hc => by have := congrFun hc 0; simp at this)
    rw [quad_three] at this
    simpa using this
  set l00 := sqrt (a 0 0) with hl00
  have q00 : l00 * l00 = a 0 0 := mul_self_sqrt p0.le
  have l00p : 0 < l00 := sqrt_pos.mpr p0
  set l10 := a 1 0 / l00 with hl10
  set l20 := a 2 0 / l00 with hl20
  have q10 : l10 * l00 = a 1 0 := div_mul_cancel₀ _ l00p.ne'
  have q20 : l20 * l00 = a 2 0 := div_mul_cancel₀ _ l00p.ne'
  have p1 : 0 < a 1 1 - l10 * l10 := by
    have := quad_pos hp (x := ![-l10 / l00, 1, 0]) (fun hc => by have := congrFun hc 1; simp at this)
    rw [quad_three] at this
    have e : -l10 / l00 * l00 = -l10 := div_mul_cancel₀ _ l00p.ne'
    simp only [Matrix.cons_val_zero, Matrix.cons_val_one, Matrix.cons_val, s01, s02, s12] at this
    rw [← q00, ← q10] at this
    generalize -l10 / l00 = y at e this
    have e2 : y * (l00 * l00) * y = l10 * l10 := by
      have : y * (l00 * l00) * y = (y * l00) * (y * l00) := by ring
      rw [this, e]; ring
    have e3 : y * (l10 * l00) * 1 = -(l10 * l10) := by
      have : y * (l10 * l00) * 1 = (y * l00) * l10 := by ring
      rw [this, e]; ring
    have e4 : 1 * (l10 * l00) * y = -(l10 * l10) := by
      have : 1 * (l10 * l00) * y = (y * l00) * l10 := by ring
      rw [this, e]; ring
    rw [e2, e3, e4] at this
    linarith
  set l11 := sqrt (a 1 1 - l10 * l10) with hl11
  have q11 : l11 * l11 = a 1 1 - l10 * l10 := mul_self_sqrt p1.le
  have l11p : 0 < l11 := sqrt_pos.mpr p1
  set l21 := (a 2 1 - l20 * l10) / l11 with hl21
  have q21 : l21 * l11 = a 2 1 - l20 * l10 := div_mul_cancel₀ _ l11p.ne'
  have p2 : 0 < a 2 2 - (l20 * l20 + l21 * l21) := by
    obtain ⟨y, hy⟩ : ∃ y, y * l11 = -l21 := ⟨-l21 / l11, div_mul_cancel₀ _ l11p.ne'⟩
    obtain ⟨x, hx⟩ : ∃ x, x * l00 = -(l20 + l10 * y) := ⟨-(l20 + l10 * y) / l00, div_mul_cancel₀ _ l00p.ne'⟩
    have := quad_pos hp (x := ![x, y, 1]) (fun hc => by have := congrFun hc 2; simp at this)
    rw [quad_three] at this
    simp only [Matrix.cons_val_zero, Matrix.cons_val_one, Matrix.cons_val, s01, s02, s12] at this
    have e11 : a 1 1 = l11 * l11 + l10 * l10 := by linarith
    have e21 : a 2 1 = l21 * l11 + l20 * l10 := by linarith
    rw [← q00, ← q10, ← q20, e11, e21] at this
    have e : x * (l00 * l00) * x + x * (l10 * l00) * y + x * (l20 * l00) * 1 +
        (y * (l10 * l00) * x + y * (l11 * l11 + l10 * l10) * y + y * (l21 * l11 + l20 * l10) * 1) +
        (1 * (l20 * l00) * x + 1 * (l21 * l11 + l20 * l10) * y + 1 * a 2 2 * 1) =
        (x * l00 + (l20 + l10 * y)) ^ 2 + (y * l11 + l21) ^ 2 + (a 2 2 - (l20 * l20 + l21 * l21)) := by ring
    rw [e, hx, hy] at this
    nlinarith
  have q22 : sqrt (a 2 2 - (l20 * l20 + l21 * l21)) * sqrt (a 2 2 - (l20 * l20 + l21 * l21)) =
      a 2 2 - (l20 * l20 + l21 * l21) := mul_self_sqrt p2.le
  have l22p := sqrt_pos.mpr p2
  have hllt : llt3 m = ⟨.fin l00, .fin l10, .fin l11, .fin l20, .fin l21,
      .fin (sqrt (a 2 2 - (l20 * l20 + l21 * l21)))⟩ := by
    unfold llt3
    simp only [h 0 0, h 1 0, h 1 1, h 2 0, h 2 1, h 2 2]
    rw [if_neg (by rw [Fl.le_fin]; linarith)]
    have e0 : Fl.sqrt (.fin (a 0 0)) = .fin l00 := by
      simp only [Fl.sqrt]; rw [if_neg (by linarith)]
    simp only [e0, Fl.fin_div l00p.ne']
    rw [← hl10, ← hl20]
    simp only [Fl.fin_mul, Fl.fin_sub]
    have n1 : ¬ Fl.le (.fin (a 1 1 - l10 * l10)) (.fin 0) := by rw [Fl.le_fin]; linarith
    simp only [n1, ↓reduceIte]
    have e1 : Fl.sqrt (.fin (a 1 1 - l10 * l10)) = .fin l11 := by
      simp only [Fl.sqrt]; rw [if_neg (by linarith)]
    simp only [e1, Fl.fin_div l11p.ne']
    rw [← hl21]
    simp only [Fl.fin_mul, Fl.fin_add, Fl.fin_sub]
    have n2 : ¬ Fl.le (.fin (a 2 2 - (l20 * l20 + l21 * l21))) (.fin 0) := by rw [Fl.le_fin]; linarith
    simp only [n2, ↓reduceIte, Fl.sqrt]
    rw [if_neg (by linarith)]
  generalize sqrt (a 2 2 - (l20 * l20 + l21 * l21)) = l22 at *
  refine ⟨!![l00, 0, 0; l10, l11, 0; l20, l21, l22], ?_, ?_, ?_, ?_⟩
  · intro i j
    unfold matrixL
    rw [hllt]
    fin_cases i <;> fin_cases j <;> rfl
  · ext i j
    rw [Matrix.mul_apply, Fin.sum_univ_three]
    fin_cases i <;> fin_cases j <;> simp [Matrix.transpose_apply] <;> linarith
  · intro i j hij
    fin_cases i <;> fin_cases j <;> simp_all
  · intro i
    fin_cases i
    · exact l00p
    · exact l11p
    · exact l22p

/-- The weighted residual in numbers. -/
theorem residual_real {w : Mat3} {L : Matrix (Fin 3) (Fin 3) ℝ} (h : IsReal w L) (t a b : Pose2d) :
    IsRealVec (residual w t a b) (L.mulVec (poseError t a b)) := by
  intro i
  simp only [residual, h i 0, h i 1, h i 2, Fl.fin_mul, Fl.fin_add, Matrix.mulVec, dotProduct, Fin.sum_univ_three]

/-- **C34** (what the code does) The squared length of the weighted residual is `eᵀ Lᵀ L e` for the lower Cholesky
factor `L` of the information, not `eᵀ L Lᵀ e`. -/
theorem c34_cost_of_residual {m : Mat3} {inf : Matrix (Fin 3) (Fin 3) ℝ} (h : IsReal m inf) (hp : inf.PosDef) :
    ∃ L : Matrix (Fin 3) (Fin 3) ℝ, L * L.transpose = inf ∧ (∀ i j, i < j → L i j = 0) ∧ (∀ i, 0 < L i i) ∧
      ∀ t a b : Pose2d, ∃ r : Fin 3 → ℝ, IsRealVec (residual (matrixL m) t a b) r ∧
        normSq r = quad (L.transpose * L) (poseError t a b) := by
  obtain ⟨L, h1, h2, h3, h4⟩ := c34_weight_is_cholesky_factor h hp
  refine ⟨L, h2, h3, h4, fun t a b => ⟨_, residual_real h1 t a b, ?_⟩⟩
  rw [quad_three]
  unfold normSq
  simp only [Matrix.mulVec, dotProduct, Fin.sum_univ_three, Matrix.mul_apply, Matrix.transpose_apply]
  ring

/-- **C34** The optimised cost is the Mahalanobis distance at all poses exactly if the information matrix is
diagonal. Missing from the full claim: correlated information, where it is not
(`c34_correlated_information_witness`). -/
theorem c34_cost_is_mahalanobis_iff_diagonal_partial {m : Mat3} {inf : Matrix (Fin 3) (Fin 3) ℝ} (h : IsReal m inf)
    (hp : inf.PosDef) :
    (∀ t a b : Pose2d, ∃ r : Fin 3 → ℝ, IsRealVec (residual (matrixL m) t a b) r ∧
      normSq r = quad inf (poseError t a b)) ↔ ∀ i j, i ≠ j → inf i j = 0 := by
  obtain ⟨L, h1, h2, h3, h4⟩ := c34_weight_is_cholesky_factor h hp
  have z01 := h3 0 1 (by decide)
  have z02 := h3 0 2 (by decide)
  have z12 := h3 1 2 (by decide)
  have hr : ∀ t a b : Pose2d, ∀ r : Fin 3 → ℝ, IsRealVec (residual (matrixL m) t a b) r →
      r = L.mulVec (poseError t a b) := by
    intro t a b r hr
    funext i
    have := residual_real h1 t a b i
    rw [hr i] at this
    injection this
  have ent : ∀ i j, inf i j = L i 0 * L j 0 + L i 1 * L j 1 + L i 2 * L j 2 := by
    intro i j
    rw [← h2, Matrix.mul_apply, Fin.sum_univ_three]; rfl
  constructor
  · intro hall
    have n0 : ceresNormalizeAngle (0 - 0 - 0) = 0 :=
      c30_normalised_angle_unique (c30_normalize_angle_correct _) ⟨⟨by linarith [pi_pos], pi_pos⟩, 0, by simp⟩
    have e1 : poseError ⟨0, 0, 0⟩ ⟨0, 0, 0⟩ ⟨1, 0, 0⟩ = ![1, 0, 0] := by
      simp only [poseError, n0]; simp
    have e2 : poseError ⟨0, 0, 0⟩ ⟨0, 0, 0⟩ ⟨0, 1, 0⟩ = ![0, 1, 0] := by
      simp only [poseError, n0]; simp
    obtain ⟨r1, a1, b1⟩ := hall ⟨0, 0, 0⟩ ⟨0, 0, 0⟩ ⟨1, 0, 0⟩
    obtain ⟨r2, a2, b2⟩ := hall ⟨0, 0, 0⟩ ⟨0, 0, 0⟩ ⟨0, 1, 0⟩
    rw [hr _ _ _ _ a1, e1, quad_three] at b1
    rw [hr _ _ _ _ a2, e2, quad_three] at b2
    simp only [normSq, Matrix.mulVec, dotProduct, Fin.sum_univ_three, Matrix.cons_val_zero, Matrix.cons_val_one,
      Matrix.cons_val, z01, z02, z12, ent] at b1 b2
    have l10 : L 1 0 = 0 := by nlinarith [sq_nonneg (L 1 0), sq_nonneg (L 2 0)]
    have l20 : L 2 0 = 0 := by nlinarith [sq_nonneg (L 1 0), sq_nonneg (L 2 0)]
    have l21 : L 2 1 = 0 := by
      rw [l10] at b2
      nlinarith [sq_nonneg (L 2 1)]
    intro i j hij
    rw [ent]
    fin_cases i <;> fin_cases j <;> simp_all
  · intro hd t a b
    refine ⟨_, residual_real h1 t a b, ?_⟩
    have l10 : L 1 0 = 0 := by
      have := hd 1 0 (by decide)
      rw [ent, z01, z02] at this
      have hne := (h4 0).ne'
      simpa [hne] using this
    have l20 : L 2 0 = 0 := by
      have := hd 2 0 (by decide)
      rw [ent, z01, z02] at this
      have hne := (h4 0).ne'
      simpa [hne] using this
    have l21 : L 2 1 = 0 := by
      have := hd 2 1 (by decide)
      rw [ent, z12, l10] at this
      have hne := (h4 1).ne'
      simpa [hne] using this
    rw [quad_three]
    unfold normSq
    simp only [Matrix.mulVec, dotProduct, Fin.sum_univ_three, ent, z01, z02, z12, l10, l20, l21]
    ring

/-- **C34** (refuted) For the information `[[1,1,0],[1,2,0],[0,0,1]]` and an error of one metre along x the cost
handed to the solver is 2 while the Mahalanobis distance is 1. -/
theorem c34_correlated_information_witness :
    ∃ (m : Mat3) (inf : Matrix (Fin 3) (Fin 3) ℝ) (t a b : Pose2d) (r : Fin 3 → ℝ), IsReal m inf ∧ inf.PosDef ∧
      IsRealVec (residual (matrixL m) t a b) r ∧ normSq r = 2 ∧ quad inf (poseError t a b) = 1 := by
  have n0 : ceresNormalizeAngle (0 - 0 - 0) = 0 :=
    c30_normalised_angle_unique (c30_normalize_angle_correct _) ⟨⟨by linarith [pi_pos], pi_pos⟩, 0, by simp⟩
  have e1 : poseError ⟨0, 0, 0⟩ ⟨0, 0, 0⟩ ⟨1, 0, 0⟩ = ![1, 0, 0] := by
    simp only [poseError, n0]; simp
  refine ⟨fun i j => .fin (!![1, 1, 0; 1, 2, 0; 0, 0, 1] i j), !![1, 1, 0; 1, 2, 0; 0, 0, 1], ⟨0, 0, 0⟩, ⟨0, 0, 0⟩,
    ⟨1, 0, 0⟩, ![1, 1, 0], fun _ _ => rfl, ?_, ?_, ?_, ?_⟩
  · apply Matrix.PosDef.of_dotProduct_mulVec_pos
    · unfold Matrix.IsHermitian
      ext i j
      fin_cases i <;> fin_cases j <;> simp [Matrix.conjTranspose_apply]
    · intro x hx
      simp only [dotProduct, Matrix.mulVec, star_trivial, Fin.sum_univ_three]
      simp
      have : x 0 ≠ 0 ∨ x 1 ≠ 0 ∨ x 2 ≠ 0 := by
        by_contra hc
        push Not at hc
        apply hx
        funext i
        fin_cases i
        · exact hc.1
        · exact hc.2.1
        · exact hc.2.2
      have e : x 0 * (x 0 + x 1) + x 1 * (x 0 + 2 * x 1) + x 2 * x 2 = (x 0 + x 1) ^ 2 + x 1 ^ 2 + x 2 ^ 2 := by ring
      rw [e]
      by_contra hneg
      have h2 : x 2 ^ 2 = 0 := by nlinarith [sq_nonneg (x 0 + x 1), sq_nonneg (x 1), sq_nonneg (x 2)]
      have h1 : x 1 ^ 2 = 0 := by nlinarith [sq_nonneg (x 0 + x 1), sq_nonneg (x 1), sq_nonneg (x 2)]
      have h0 : (x 0 + x 1) ^ 2 = 0 := by nlinarith [sq_nonneg (x 0 + x 1), sq_nonneg (x 1), sq_nonneg (x 2)]
      have h1' := pow_eq_zero_iff (two_ne_zero) |>.mp h1
      have h2' := pow_eq_zero_iff (two_ne_zero) |>.mp h2
      have h0' := pow_eq_zero_iff (two_ne_zero) |>.mp h0
      rcases this with h | h | h
      · apply h; linarith
      · exact h h1'
      · exact h h2'
  · have hl : llt3 (fun i j => .fin (!![1, 1, 0; 1, 2, 0; 0, 0, (1 : ℝ)] i j)) =
        ⟨.fin 1, .fin 1, .fin 1, .fin 0, .fin 0, .fin 1⟩ := by
      have n1 : ¬ Fl.le (.fin 1) (.fin 0) := by rw [Fl.le_fin]; norm_num
      have e2 : (2 : ℝ) - 1 = 1 := by norm_num
      unfold llt3
      have e3 : Fl.sqrt (.fin 1) = .fin 1 := by simp [Fl.sqrt]
      simp [n1, e3, e2]
    intro i
    unfold residual matrixL
    rw [hl, e1]
    fin_cases i <;> simp
  · unfold normSq; simp; norm_num
  · rw [quad_three, e1]; simp

end

end Ndt
