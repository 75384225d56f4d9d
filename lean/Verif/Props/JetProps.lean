import Verif.Proof.Jet
import Verif.Props.CostProps

/-! # C104: the Jacobians handed to the optimiser -/

namespace Ndt

noncomputable section

open Spec Real

/-- The weighted residual as a function of six numbers. -/
def residualAt (w : Matrix (Fin 3) (Fin 3) ℝ) (t : Pose2d) (i : Fin 3) (q : Fin 6 → ℝ) : ℝ :=
  w i 0 * poseError t (firstOf q) (secondOf q) 0 + w i 1 * poseError t (firstOf q) (secondOf q) 1 +
    w i 2 * poseError t (firstOf q) (secondOf q) 2

theorem residualAt_eq {m : Mat3} {w : Matrix (Fin 3) (Fin 3) ℝ} (h : IsReal m w) (t : Pose2d) (i : Fin 3)
    (q : Fin 6 → ℝ) : residual m t (firstOf q) (secondOf q) i = .fin (residualAt w t i q) := by
  simp only [residual, h i 0, h i 1, h i 2, Fl.fin_mul, Fl.fin_add, residualAt]

theorem Jet.residual_is (w : Matrix (Fin 3) (Fin 3) ℝ) (t : Pose2d) (q : Fin 6 → ℝ)
    (hjump : ∀ m : ℤ, q 5 - q 2 - t.theta ≠ (2 * m + 1) * π) (i : Fin 3) :
    (Jet.residual w t q i).Is (residualAt w t i) q := by
  have v := fun k : Fin 6 => Jet.Is.var (q := q) k
  have c := fun r : ℝ => Jet.Is.const (n := 6) (q := q) r
  have e0 := ((((v 2).cos).mul ((v 3).sub (v 0))).add (((v 2).sin).mul ((v 4).sub (v 1)))).sub (c t.x)
  have e1 := (((((v 2).sin).neg).mul ((v 3).sub (v 0))).add (((v 2).cos).mul ((v 4).sub (v 1)))).sub (c t.y)
  have e2 := (((v 5).sub (v 2)).sub (c t.theta)).normalizeAngle hjump
  exact (((c (w i 0)).mul e0).add ((c (w i 1)).mul e1)).add ((c (w i 2)).mul e2)

/-- **C104** For a weight of proper numbers: the residual is a number for all poses, and wherever the heading error is
not an odd number of half turns the value and the row that automatic differentiation yields are the residual and its
partial derivatives by the six parameters. -/
theorem c104_jacobian_is_the_derivative {m : Mat3} {w : Matrix (Fin 3) (Fin 3) ℝ} (h : IsReal m w) (t : Pose2d)
    (q : Fin 6 → ℝ) (hjump : ∀ k : ℤ, q 5 - q 2 - t.theta ≠ (2 * k + 1) * π) (i : Fin 3) :
    ∃ r : (Fin 6 → ℝ) → ℝ, (∀ q', residual m t (firstOf q') (secondOf q') i = .fin (r q')) ∧
      (Jet.residual w t q i).a = r q ∧ IsDerivative r (Jet.residual w t q i).v q :=
  ⟨residualAt w t i, fun q' => residualAt_eq h t i q', (Jet.residual_is w t q hjump i).val,
    (Jet.residual_is w t q hjump i).der⟩

/-- The derivatives of the error before it is weighted, by row. -/
def errorRow (q : Fin 6 → ℝ) : Fin 3 → Fin 6 → ℝ :=
  ![![-cos (q 2), -sin (q 2), -sin (q 2) * (q 3 - q 0) + cos (q 2) * (q 4 - q 1), cos (q 2), sin (q 2), 0],
    ![sin (q 2), -cos (q 2), -cos (q 2) * (q 3 - q 0) - sin (q 2) * (q 4 - q 1), -sin (q 2), cos (q 2), 0],
    ![0, 0, -1, 0, 0, 1]]

theorem Jet.residual_v (w : Matrix (Fin 3) (Fin 3) ℝ) (t : Pose2d) (q : Fin 6 → ℝ) (i : Fin 3) (k : Fin 6) :
    (Jet.residual w t q i).v k = w i 0 * errorRow q 0 k + w i 1 * errorRow q 1 k + w i 2 * errorRow q 2 k := by
  have hadd : ∀ a b : Jet 6, (a + b).v k = a.v k + b.v k := fun _ _ => rfl
  have hsub : ∀ a b : Jet 6, (a - b).v k = a.v k - b.v k := fun _ _ => rfl
  have hneg : ∀ a : Jet 6, (-a).v k = -a.v k := fun _ => rfl
  have hmul : ∀ a b : Jet 6, (a * b).v k = a.a * b.v k + b.a * a.v k := fun _ _ => rfl
  have hsuba : ∀ a b : Jet 6, (a - b).a = a.a - b.a := fun _ _ => rfl
  have hnega : ∀ a : Jet 6, (-a).a = -a.a := fun _ => rfl
  have hc : ∀ r, (Jet.const r : Jet 6).v k = 0 := fun _ => rfl
  simp only [Jet.residual, Jet.poseError, Jet.normalizeAngle, Jet.floor, Jet.cos, Jet.sin, Jet.var, hadd, hmul, hsub,
    hneg, hsuba, hnega, hc, Jet.const, Matrix.cons_val_zero, Matrix.cons_val_one, Matrix.cons_val, Pi.smul_apply,
    smul_eq_mul, Pi.zero_apply]
  fin_cases k <;> simp [errorRow, Pi.single_apply] <;> ring

/-- The rule for quotients that the automatic differentiation goes by is the right one. -/
theorem c104_quotient_rule {n : ℕ} {f g : (Fin n → ℝ) → ℝ} {q : Fin n → ℝ} {j k : Jet n} (hj : j.a = f q) (hk : k.a = g q)
    (hdj : IsDerivative f j.v q) (hdk : IsDerivative g k.v q) (h0 : g q ≠ 0) :
    (j / k).a = f q / g q ∧ IsDerivative (fun q => f q / g q) (j / k).v q :=
  have h := Jet.Is.div ⟨hj, hdj⟩ ⟨hk, hdk⟩ h0
  ⟨h.val, h.der⟩

/-- One over the first variable. -/
example : IsDerivative (fun q : Fin 1 → ℝ => 1 / q 0) (Jet.const 1 / Jet.var (2 : ℝ) (0 : Fin 1) : Jet 1).v (fun _ => 2) :=
  (c104_quotient_rule (f := fun _ => 1) (g := fun q => q 0) rfl rfl (Jet.Is.const 1).der (Jet.Is.var (q := fun _ => 2) 0).der
    (by norm_num)).2

/-- **C104** (what cannot be seen) Everywhere, the Jacobian takes a change of the six parameters to zero exactly if
the change moves both poses as one rigid body, provided the weight has no kernel. -/
theorem c104_blind_to_common_motion_only (w : Matrix (Fin 3) (Fin 3) ℝ) (hw : ∀ e, w.mulVec e = 0 → e = 0)
    (t : Pose2d) (q u : Fin 6 → ℝ) :
    (∀ i, ∑ k, (Jet.residual w t q i).v k * u k = 0) ↔ ∃ vx vy om, u = rigidMotion vx vy om q := by
  have hsum : ∀ i, ∑ k, (Jet.residual w t q i).v k * u k = w.mulVec (fun j => ∑ k, errorRow q j k * u k) i := by
    intro i
    simp only [Jet.residual_v, Matrix.mulVec, dotProduct, Fin.sum_univ_three, Fin.sum_univ_six]
    ring
  have hsc := sin_sq_add_cos_sq (q 2)
  constructor
  · intro hz
    have he := hw _ (funext fun i => (hsum i).symm.trans (hz i))
    have h0 := congrFun he 0
    have h1 := congrFun he 1
    have h2 := congrFun he 2
    simp [errorRow, Fin.sum_univ_six] at h0 h1 h2
    refine ⟨u 0 + u 2 * q 1, u 1 - u 2 * q 0, u 2, ?_⟩
    have h5 : u 5 = u 2 := by linarith
    have h3 : u 3 = u 0 + u 2 * q 1 - u 2 * q 4 := by
      linear_combination cos (q 2) * h0 - sin (q 2) * h1 + (u 0 - u 3 + u 2 * (q 1 - q 4)) * hsc
    have h4 : u 4 = u 1 - u 2 * q 0 + u 2 * q 3 := by
      linear_combination sin (q 2) * h0 + cos (q 2) * h1 + (u 1 - u 4 + u 2 * (q 3 - q 0)) * hsc
    funext k
    fin_cases k <;> simp [rigidMotion, h3, h4, h5]
  · rintro ⟨vx, vy, om, rfl⟩ i
    rw [hsum i]
    have : (fun j => ∑ k, errorRow q j k * rigidMotion vx vy om q k) = 0 := by
      funext j
      fin_cases j <;> simp [errorRow, rigidMotion, Fin.sum_univ_six] <;> ring
    rw [this]
    simp

/-- **C104** (the anchor) With the first pose held the Jacobian sees every change of the second. -/
theorem c104_anchor_leaves_nothing_free (w : Matrix (Fin 3) (Fin 3) ℝ) (hw : ∀ e, w.mulVec e = 0 → e = 0)
    (t : Pose2d) (q u : Fin 6 → ℝ) (h0 : u 0 = 0) (h1 : u 1 = 0) (h2 : u 2 = 0)
    (hz : ∀ i, ∑ k, (Jet.residual w t q i).v k * u k = 0) : u = 0 := by
  obtain ⟨vx, vy, om, rfl⟩ := (c104_blind_to_common_motion_only w hw t q u).mp hz
  simp [rigidMotion] at h0 h1 h2
  subst h2
  simp at h0 h1
  subst h0; subst h1
  funext k
  fin_cases k <;> simp [rigidMotion]

/-- **C104** (the gradient) Where the heading error is not an odd number of half turns, half the squared length of the
residual has the gradient that Ceres forms, the Jacobian transposed times the residual. -/
theorem c104_gradient_of_the_cost {m : Mat3} {w : Matrix (Fin 3) (Fin 3) ℝ} (h : IsReal m w) (t : Pose2d)
    (q : Fin 6 → ℝ) (hjump : ∀ k : ℤ, q 5 - q 2 - t.theta ≠ (2 * k + 1) * π) :
    ∃ r : (Fin 6 → ℝ) → Fin 3 → ℝ, (∀ q', IsRealVec (residual m t (firstOf q') (secondOf q')) (r q')) ∧
      IsDerivative (fun q' => 1 / 2 * normSq (r q'))
        (fun k => ∑ i, (Jet.residual w t q i).v k * (Jet.residual w t q i).a) q := by
  refine ⟨fun q' i => residualAt w t i q', fun q' i => residualAt_eq h t i q', ?_⟩
  have e := fun i => Jet.residual_is w t q hjump i
  have d := ((Jet.Is.const (n := 6) (q := q) (1 / 2)).mul
    ((((e 0).mul (e 0)).add ((e 1).mul (e 1))).add ((e 2).mul (e 2)))).der
  have hf : (fun q' => 1 / 2 * normSq (fun i => residualAt w t i q')) = fun q' => 1 / 2 *
      (residualAt w t 0 q' * residualAt w t 0 q' + residualAt w t 1 q' * residualAt w t 1 q' +
        residualAt w t 2 q' * residualAt w t 2 q') := by
    funext q'; simp only [normSq]; ring
  unfold IsDerivative
  rw [hf]
  refine d.congr_fderiv ?_
  show linOf _ = linOf _
  congr 1
  funext k
  have hadd : ∀ a b : Jet 6, (a + b).v k = a.v k + b.v k := fun _ _ => rfl
  have hmul : ∀ a b : Jet 6, (a * b).v k = a.a * b.v k + b.a * a.v k := fun _ _ => rfl
  have hc : ∀ r, (Jet.const r : Jet 6).v k = 0 := fun _ => rfl
  simp only [hadd, hmul, hc, Fin.sum_univ_three, show (Jet.const (1 / 2) : Jet 6).a = 1 / 2 from rfl]
  ring

/-- **C104** (the jump) Where the heading error is an odd number of half turns and the row weighs it, the residual
is not even continuous; automatic differentiation gives the row it would give without the jump. -/
theorem c104_no_derivative_at_half_turn {m : Mat3} {w : Matrix (Fin 3) (Fin 3) ℝ} (h : IsReal m w) (t : Pose2d)
    (q : Fin 6 → ℝ) (k : ℤ) (hjump : q 5 - q 2 - t.theta = (2 * k + 1) * π) (i : Fin 3) (hi : w i 2 ≠ 0)
    (r : (Fin 6 → ℝ) → ℝ) (hr : ∀ q', residual m t (firstOf q') (secondOf q') i = .fin (r q')) :
    ¬ ContinuousAt r q := by
  have hrr : r = residualAt w t i := by
    funext q'
    have := (hr q').symm.trans (residualAt_eq h t i q')
    injection this
  subst hrr
  intro hc
  have hline : Continuous fun s : ℝ => q + s • (Pi.single 5 1 : Fin 6 → ℝ) := by fun_prop
  have hcl : ContinuousAt (fun s : ℝ => residualAt w t i (q + s • (Pi.single 5 1 : Fin 6 → ℝ))) 0 := by
    refine ContinuousAt.comp (f := fun s : ℝ => q + s • (Pi.single 5 1 : Fin 6 → ℝ)) (g := residualAt w t i) ?_
      hline.continuousAt
    simpa using hc
  have hval : ∀ s : ℝ, residualAt w t i (q + s • (Pi.single 5 1 : Fin 6 → ℝ)) =
      w i 0 * poseError t (firstOf q) (secondOf q) 0 + w i 1 * poseError t (firstOf q) (secondOf q) 1 +
        w i 2 * ceresNormalizeAngle ((2 * k + 1) * π + s) := by
    intro s
    have : (2 * k + 1) * π + s = q 5 + s - q 2 - t.theta := by rw [← hjump]; ring
    rw [this]
    simp [residualAt, poseError, firstOf, secondOf, Pi.single_apply]
  simp only [hval] at hcl
  have hn : ContinuousAt (fun s : ℝ => ceresNormalizeAngle ((2 * k + 1) * π + s)) 0 := by
    have h1 := (hcl.sub (continuousAt_const (y := w i 0 * poseError t (firstOf q) (secondOf q) 0 +
      w i 1 * poseError t (firstOf q) (secondOf q) 1))).div_const (w i 2)
    refine h1.congr (Filter.Eventually.of_forall fun s => ?_)
    simp only [Pi.sub_apply]
    field_simp
    ring
  have h0 : ceresNormalizeAngle ((2 * k + 1) * π + 0) = -π := by
    unfold ceresNormalizeAngle
    have hf : ((2 * (k : ℝ) + 1) * π + 0 + π) / (2 * π) = ((k + 1 : ℤ) : ℝ) := by
      push_cast; field_simp; ring
    rw [hf, Int.floor_intCast]
    push_cast; ring
  rw [Metric.continuousAt_iff] at hn
  obtain ⟨d, hd, hn⟩ := hn π pi_pos
  have hs : 0 < min (d / 2) (π / 2) := by have := pi_pos; positivity
  have hs1 : min (d / 2) (π / 2) ≤ d / 2 := min_le_left _ _
  have hs2 : min (d / 2) (π / 2) ≤ π / 2 := min_le_right _ _
  generalize min (d / 2) (π / 2) = s at *
  have hb := @hn (-s) (by rw [Real.dist_eq, sub_zero, abs_neg, abs_of_pos hs]; linarith)
  have hv : ceresNormalizeAngle ((2 * k + 1) * π + -s) = π - s := by
    unfold ceresNormalizeAngle
    have hf : ⌊((2 * (k : ℝ) + 1) * π + -s + π) / (2 * π)⌋ = k := by
      rw [Int.floor_eq_iff, le_div_iff₀ (by positivity), div_lt_iff₀ (by positivity)]
      constructor <;> nlinarith [pi_pos]
    rw [hf]; ring
  rw [hv, h0, Real.dist_eq, abs_of_pos (by linarith [pi_pos])] at hb
  linarith [pi_pos]

/-- A lower triangular weight with a positive diagonal has no kernel. -/
theorem lower_no_kernel {w : Matrix (Fin 3) (Fin 3) ℝ} (hl : ∀ i j, i < j → w i j = 0) (hd : ∀ i, 0 < w i i)
    (e : Fin 3 → ℝ) (he : w.mulVec e = 0) : e = 0 := by
  have h0 := congrFun he 0
  have h1 := congrFun he 1
  have h2 := congrFun he 2
  simp only [Matrix.mulVec, dotProduct, Fin.sum_univ_three, hl 0 1 (by decide), hl 0 2 (by decide),
    hl 1 2 (by decide), Pi.zero_apply, zero_mul, add_zero] at h0 h1 h2
  have e0 : e 0 = 0 := (mul_eq_zero.mp h0).resolve_left (hd 0).ne'
  rw [e0, mul_zero, zero_add] at h1
  have e1 : e 1 = 0 := (mul_eq_zero.mp h1).resolve_left (hd 1).ne'
  rw [e0, e1, mul_zero, mul_zero, zero_add, zero_add] at h2
  have e2 : e 2 = 0 := (mul_eq_zero.mp h2).resolve_left (hd 2).ne'
  funext i
  fin_cases i <;> assumption

/-- **C104** (for the weight of the code) Let the information be positive definite. The weight the solver computes from
it consists of numbers, and with it the Jacobian is the derivative of the residual at every pair of poses whose heading
error is not an odd number of half turns, and vanishes on a change of the poses exactly if that change is a common
rigid motion. -/
theorem c104_for_the_weight_of_the_code {m : Mat3} {a : Matrix (Fin 3) (Fin 3) ℝ} (h : IsReal m a) (hp : a.PosDef)
    (t : Pose2d) : ∃ L : Matrix (Fin 3) (Fin 3) ℝ, IsReal (matrixL m) L ∧
      (∀ q i, (∀ k : ℤ, q 5 - q 2 - t.theta ≠ (2 * k + 1) * π) →
        ∃ r : (Fin 6 → ℝ) → ℝ, (∀ q', residual (matrixL m) t (firstOf q') (secondOf q') i = .fin (r q')) ∧
          (Jet.residual L t q i).a = r q ∧ IsDerivative r (Jet.residual L t q i).v q) ∧
      ∀ q u, (∀ i, ∑ k, (Jet.residual L t q i).v k * u k = 0) ↔ ∃ vx vy om, u = rigidMotion vx vy om q := by
  obtain ⟨L, hr, -, hl, hd⟩ := c34_weight_is_cholesky_factor h hp
  exact ⟨L, hr, fun q i hj => c104_jacobian_is_the_derivative hr t q hj i,
    fun q u => c104_blind_to_common_motion_only L (lower_no_kernel hl hd) t q u⟩

/-! ## Cases -/

/-- Two poses a metre apart, the second turned by a quarter turn: no odd number of half turns. -/
example : ∀ k : ℤ, (![0, 0, 0, 1, 0, π / 2] : Fin 6 → ℝ) 5 - (![0, 0, 0, 1, 0, π / 2] : Fin 6 → ℝ) 2 -
    (⟨1, 0, 0⟩ : Pose2d).theta ≠ (2 * k + 1) * π := by
  intro k hk
  simp at hk
  have h1 : (2 * (k : ℝ) + 1) = 1 / 2 := by
    have := pi_pos
    field_simp at hk
    linarith
  have h2 : ((4 * k + 1 : ℤ) : ℝ) = 0 := by push_cast; linarith
  have h3 : (4 * k + 1 : ℤ) = 0 := by exact_mod_cast h2
  omega

/-- The heading error then weighs in by the turn of either pose. -/
example (t : Pose2d) (q : Fin 6 → ℝ) : (Jet.residual (1 : Matrix (Fin 3) (Fin 3) ℝ) t q 2).v 5 = 1 ∧
    (Jet.residual (1 : Matrix (Fin 3) (Fin 3) ℝ) t q 2).v 2 = -1 := by
  constructor <;> rw [Jet.residual_v] <;> simp [errorRow, Matrix.one_apply]

/-- The unit weight has no kernel. -/
example : ∀ e : Fin 3 → ℝ, (1 : Matrix (Fin 3) (Fin 3) ℝ).mulVec e = 0 → e = 0 := fun e he => by simpa using he

/-- A half turn of the second pose against a measurement without turn is a jump. -/
example : (![0, 0, 0, 1, 0, π] : Fin 6 → ℝ) 5 - (![0, 0, 0, 1, 0, π] : Fin 6 → ℝ) 2 - (⟨1, 0, 0⟩ : Pose2d).theta =
    (2 * (0 : ℤ) + 1) * π := by simp

end

end Ndt
