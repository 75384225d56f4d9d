import Verif.Props.RoundedInformationProps
import Verif.Props.OverlapProps

/-! # Helper lemmas: the weight that comes of a covariance known up to an error -/

namespace Ndt.Rounded

noncomputable section

open Spec

variable {rd : ℝ → ℝ} {a c : Matrix (Fin 3) (Fin 3) ℝ} {l B η ρ : ℝ}

theorem normSq_nonneg (x : Fin 3 → ℝ) : 0 ≤ normSq x := by unfold normSq; positivity

theorem sq_le_normSq (x : Fin 3 → ℝ) (i : Fin 3) : x i ^ 2 ≤ normSq x := by
  unfold normSq
  fin_cases i <;> simp <;> nlinarith [sq_nonneg (x 0), sq_nonneg (x 1), sq_nonneg (x 2)]

theorem quad_near {δ : ℝ} (h : ∀ i j, |c i j - a i j| ≤ δ) (x : Fin 3 → ℝ) : quad a x - 3 * δ * normSq x ≤ quad c x := by
  have g : ∀ i j, -(δ * (1 / 2 * (x i ^ 2 + x j ^ 2))) ≤ x i * c i j * x j - x i * a i j * x j := fun i j => by
    have := Pos.err2 (e := -(c i j - a i j)) (E := δ) (by rw [abs_neg]; exact h i j) (u := x i) (v := x j)
    linarith
  rw [quad_three, quad_three]
  unfold normSq
  linarith [g 0 0, g 0 1, g 0 2, g 1 0, g 1 1, g 1 2, g 2 0, g 2 1, g 2 2]

/-- A matrix whose form is at least `l |x|²` makes no vector shorter than `l` times its length. -/
theorem stretch (hl : 0 ≤ l) (hq : ∀ x, l * normSq x ≤ quad a x) (y : Fin 3 → ℝ) : l ^ 2 * normSq y ≤ normSq (a.mulVec y) := by
  have h := hq y
  set z := a.mulVec y with hz
  have e : quad a y = y 0 * z 0 + y 1 * z 1 + y 2 * z 2 := by
    rw [quad_three, hz]
    simp only [Matrix.mulVec, dotProduct, Fin.sum_univ_three]
    ring
  rw [e] at h
  have n := normSq_nonneg y
  have cs : (y 0 * z 0 + y 1 * z 1 + y 2 * z 2) ^ 2 ≤ normSq y * normSq z := by
    unfold normSq
    nlinarith [sq_nonneg (y 0 * z 1 - y 1 * z 0), sq_nonneg (y 0 * z 2 - y 2 * z 0), sq_nonneg (y 1 * z 2 - y 2 * z 1)]
  rcases n.lt_or_eq with g | g
  · have : (l * normSq y) ^ 2 ≤ normSq y * normSq z := (pow_le_pow_left₀ (mul_nonneg hl n) h 2).trans cs
    have : normSq y * (l ^ 2 * normSq y) ≤ normSq y * normSq z := by nlinarith
    exact le_of_mul_le_mul_left this g
  · rw [← g, mul_zero]
    exact normSq_nonneg z

theorem det_ne_of_quad (hl : 0 < l) (hq : ∀ x, l * normSq x ≤ quad a x) : a.det ≠ 0 := by
  intro h
  obtain ⟨v, hv, e⟩ := Matrix.exists_mulVec_eq_zero_iff.mpr h
  have := stretch hl.le hq v
  rw [e] at this
  have z : normSq (0 : Fin 3 → ℝ) = 0 := by simp [normSq]
  rw [z] at this
  have n0 : normSq v = 0 := le_antisymm (by nlinarith [normSq_nonneg v, pow_pos hl 2]) (normSq_nonneg v)
  refine hv (funext fun i => ?_)
  have := sq_le_normSq v i
  rw [n0] at this
  exact pow_eq_zero_iff (n := 2) (by norm_num) |>.mp (le_antisymm this (sq_nonneg _))

/-- A column of the inverse. -/
theorem column (hd : a.det ≠ 0) (j : Fin 3) : a.mulVec (fun i => a⁻¹ i j) = Pi.single j 1 := by
  have : (fun i => a⁻¹ i j) = a⁻¹.mulVec (Pi.single j 1) := by
    ext i
    rw [Matrix.mulVec_single_one]
    rfl
  rw [this, Matrix.mulVec_mulVec, Matrix.mul_nonsing_inv a (isUnit_iff_ne_zero.mpr hd), Matrix.one_mulVec]

theorem normSq_single (j : Fin 3) : normSq (Pi.single j 1) = 1 := by
  unfold normSq
  fin_cases j <;> simp

theorem column_short (hl : 0 < l) (hq : ∀ x, l * normSq x ≤ quad a x) (j : Fin 3) : l ^ 2 * normSq (fun i => a⁻¹ i j) ≤ 1 := by
  have := stretch hl.le hq (fun i => a⁻¹ i j)
  rwa [column (det_ne_of_quad hl hq), normSq_single] at this

theorem inv_entry (hl : 0 < l) (hq : ∀ x, l * normSq x ≤ quad a x) (i j : Fin 3) : |a⁻¹ i j| ≤ 1 / l := by
  have h1 := column_short hl hq j
  have h2 := sq_le_normSq (fun i => a⁻¹ i j) i
  rw [le_div_iff₀ hl, ← abs_of_pos hl, ← abs_mul]
  refine abs_le_of_sq_le_sq (b := 1) ?_ (by norm_num)
  rw [mul_pow, one_pow]
  nlinarith [pow_pos hl 2]

theorem det_low (hl : 0 < l) (hq : ∀ x, l * normSq x ≤ quad a x) : l ^ 3 ≤ 6 * |a.det| := by
  have hd := det_ne_of_quad hl hq
  have e : a.det * a⁻¹.det = 1 := by
    rw [← Matrix.det_mul, Matrix.mul_nonsing_inv a (isUnit_iff_ne_zero.mpr hd), Matrix.det_one]
  have n := inv_entry hl hq
  have t : ∀ i j k p q r, |a⁻¹ i j * a⁻¹ k p * a⁻¹ q r| ≤ 1 / l * (1 / l) * (1 / l) := fun i j k p q r => by
    rw [abs_mul, abs_mul]
    have : 0 < 1 / l := by positivity
    gcongr <;> exact n _ _
  have up : |a⁻¹.det| ≤ 6 * (1 / l * (1 / l) * (1 / l)) := by
    rw [Matrix.det_fin_three]
    have t1 := t 0 0 1 1 2 2
    have t2 := t 0 0 1 2 2 1
    have t3 := t 0 1 1 0 2 2
    have t4 := t 0 1 1 2 2 0
    have t5 := t 0 2 1 0 2 1
    have t6 := t 0 2 1 1 2 0
    rw [abs_le] at *
    constructor <;> linarith [t1.1, t1.2, t2.1, t2.2, t3.1, t3.2, t4.1, t4.2, t5.1, t5.2, t6.1, t6.2]
  have h1 : |a.det| * |a⁻¹.det| = 1 := by rw [← abs_mul, e, abs_one]
  have h2 : 1 ≤ |a.det| * (6 * (1 / l * (1 / l) * (1 / l))) := by
    calc (1 : ℝ) = |a.det| * |a⁻¹.det| := h1.symm
      _ ≤ _ := by gcongr
  have h3 : |a.det| * (6 * (1 / l * (1 / l) * (1 / l))) * l ^ 3 = 6 * |a.det| := by field_simp
  rw [← h3]
  exact le_mul_of_one_le_left (by positivity) h2

/-- The inverse of a matrix near `a`. -/
theorem inv_near {ε μ : ℝ} (hl : 0 < l) (hq : ∀ x, l * normSq x ≤ quad a x) (hμ : 0 < μ) (hc : ∀ x, μ * normSq x ≤ quad c x)
    (h : ∀ i j, |c i j - a i j| ≤ ε) (i j : Fin 3) : |c⁻¹ i j - a⁻¹ i j| ≤ 3 * ε / (l * μ) := by
  have hε : 0 ≤ ε := le_trans (abs_nonneg _) (h 0 0)
  set z := fun i => c⁻¹ i j with hz
  set d := fun i => c⁻¹ i j - a⁻¹ i j with hd
  have z1 : μ ^ 2 * normSq z ≤ 1 := column_short hμ hc j
  have ca := column (det_ne_of_quad hl hq) j
  have cc := column (det_ne_of_quad hμ hc) j
  have e : ∀ k, a.mulVec d k = -((c k 0 - a k 0) * z 0 + (c k 1 - a k 1) * z 1 + (c k 2 - a k 2) * z 2) := fun k => by
    have c1 := congrFun ca k
    have c2 := congrFun cc k
    rw [← c2] at c1
    simp only [Matrix.mulVec, dotProduct, Fin.sum_univ_three, hd, hz] at c1 ⊢
    linarith
  have row : ∀ k, (a.mulVec d k) ^ 2 ≤ 3 * ε ^ 2 * normSq z := fun k => by
    rw [e k, neg_sq]
    have q : ∀ m, ((c k m - a k m) * z m) ^ 2 ≤ ε ^ 2 * z m ^ 2 := fun m => by
      rw [mul_pow]
      have : (c k m - a k m) ^ 2 ≤ ε ^ 2 := sq_le_sq' (by linarith [(abs_le.mp (h k m)).1]) (abs_le.mp (h k m)).2
      exact mul_le_mul_of_nonneg_right this (sq_nonneg _)
    unfold normSq
    nlinarith [q 0, q 1, q 2, sq_nonneg ((c k 0 - a k 0) * z 0 - (c k 1 - a k 1) * z 1), sq_nonneg ((c k 0 - a k 0) * z 0 - (c k 2 - a k 2) * z 2),
      sq_nonneg ((c k 1 - a k 1) * z 1 - (c k 2 - a k 2) * z 2)]
  have s := stretch hl.le hq d
  have up : normSq (a.mulVec d) ≤ 9 * ε ^ 2 * normSq z := by
    have r0 := row 0; have r1 := row 1; have r2 := row 2
    have : normSq (a.mulVec d) = a.mulVec d 0 ^ 2 + a.mulVec d 1 ^ 2 + a.mulVec d 2 ^ 2 := rfl
    rw [this]
    linarith
  have di := sq_le_normSq d i
  have dd : d i = c⁻¹ i j - a⁻¹ i j := rfl
  rw [← dd, le_div_iff₀ (mul_pos hl hμ), ← abs_of_pos (mul_pos hl hμ), ← abs_mul]
  refine abs_le_of_sq_le_sq ?_ (by positivity)
  have k1 : l ^ 2 * d i ^ 2 ≤ 9 * ε ^ 2 * normSq z := by
    calc l ^ 2 * d i ^ 2 ≤ l ^ 2 * normSq d := by gcongr
      _ ≤ 9 * ε ^ 2 * normSq z := s.trans up
  calc (d i * (l * μ)) ^ 2 = μ ^ 2 * (l ^ 2 * d i ^ 2) := by ring
    _ ≤ μ ^ 2 * (9 * ε ^ 2 * normSq z) := by gcongr
    _ = 9 * ε ^ 2 * (μ ^ 2 * normSq z) := by ring
    _ ≤ 9 * ε ^ 2 * 1 := by gcongr
    _ = (3 * ε) ^ 2 := by ring

/-- The lower half of a matrix, and its mirror image above. -/
def mirrored (b : Matrix (Fin 3) (Fin 3) ℝ) : Matrix (Fin 3) (Fin 3) ℝ := fun i j => b (max i j) (min i j)

/-- The factorisation reads the lower half only. -/
theorem matrixL_mirrored {m : Mat3} {b : Matrix (Fin 3) (Fin 3) ℝ} (h : IsReal m b) :
    matrixL rd m = matrixL rd (fun i j => .fin (mirrored b i j)) := by
  unfold matrixL llt3
  simp only [h 0 0, h 1 0, h 1 1, h 2 0, h 2 1, h 2 2]
  rfl

end

end Ndt.Rounded
