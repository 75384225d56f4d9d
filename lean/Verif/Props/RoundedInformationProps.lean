import Verif.Proof.RoundedInformation
import Verif.Props.ConstraintProps
import Verif.Props.CostProps

/-! # Property C149: the information and the weight of a constraint in double precision -/

namespace Ndt

open Rounded Spec

noncomputable section

variable {rd : ℝ → ℝ}

theorem inv_cof {a : Matrix (Fin 3) (Fin 3) ℝ} (hd : a.det ≠ 0) (i j : Fin 3) : a⁻¹ i j = cof a j i / a.det := by
  have e : realInverse a = a⁻¹ := (Matrix.inv_eq_left_inv (realInverse_mul hd)).symm
  rw [← e]
  unfold realInverse cof
  ring

theorem det_ne {a : Matrix (Fin 3) (Fin 3) ℝ} {B κ : ℝ} (hB : 1e-60 ≤ B) (hκ : B ^ 3 ≤ κ * |a.det|) : a.det ≠ 0 := by
  intro h
  have : 0 < B ^ 3 := pow_pos (lt_of_lt_of_le (by norm_num) hB) 3
  rw [h, abs_zero, mul_zero] at hκ
  linarith

/-- **C149** The information that a constraint gets from a covariance `a` is made of numbers, entrywise within `1.4e-14 κ² / B` of the inverse,
and the product of the two is the identity up to `4.2e-14 κ²`; here `B` bounds the entries of `a` and `κ = B³ / |det a|` says how far `a` is
from singular. -/
theorem c149_information (hrd : RoundsToNearest rd) (packets : Bool) {m : Mat3} {a : Matrix (Fin 3) (Fin 3) ℝ} (h : IsReal m a) {B κ : ℝ}
    (hB : 1e-60 ≤ B) (hB' : B ≤ 1e60) (ha : ∀ i j, |a i j| ≤ B) (hκ : B ^ 3 ≤ κ * |a.det|) (hκ2 : κ ≤ 1e13) :
    ∃ inf : Matrix (Fin 3) (Fin 3) ℝ, IsReal (Rounded.inverse3 rd packets m) inf ∧ (∀ i j, |inf i j - a⁻¹ i j| ≤ 1.4e-14 * κ ^ 2 / B) ∧
      (∀ i j, |(a * inf - 1) i j| ≤ 4.2e-14 * κ ^ 2) ∧ ∀ i j, |(inf * a - 1) i j| ≤ 4.2e-14 * κ ^ 2 := by
  have hd := det_ne hB hκ
  have hB0 : 0 < B := lt_of_lt_of_le (by norm_num) hB
  obtain ⟨inf, h1, h2⟩ : ∃ inf : Matrix (Fin 3) (Fin 3) ℝ, (∀ i j, Rounded.inverse3 rd packets m i j = .fin (inf i j)) ∧
      ∀ i j, |inf i j - cof a j i / a.det| ≤ 1.4e-14 * κ ^ 2 / B := by
    choose inf h1 h2 using fun i j => inverse3_near hrd packets h hB hB' ha hκ hκ2 i j
    exact ⟨inf, h1, h2⟩
  have h3 : ∀ i j, |inf i j - a⁻¹ i j| ≤ 1.4e-14 * κ ^ 2 / B := fun i j => by rw [inv_cof hd]; exact h2 i j
  have hu : IsUnit a.det := isUnit_iff_ne_zero.mpr hd
  have s : ∀ i j k, |a i k * (inf k j - a⁻¹ k j)| ≤ 1.4e-14 * κ ^ 2 := fun i j k => by
    rw [abs_mul]
    calc |a i k| * |inf k j - a⁻¹ k j| ≤ B * (1.4e-14 * κ ^ 2 / B) := mul_le_mul (ha _ _) (h3 _ _) (abs_nonneg _) hB0.le
      _ = 1.4e-14 * κ ^ 2 := by field_simp
  have t : ∀ i j k, |(inf i k - a⁻¹ i k) * a k j| ≤ 1.4e-14 * κ ^ 2 := fun i j k => by
    rw [abs_mul, mul_comm]
    calc |a k j| * |inf i k - a⁻¹ i k| ≤ B * (1.4e-14 * κ ^ 2 / B) := mul_le_mul (ha _ _) (h3 _ _) (abs_nonneg _) hB0.le
      _ = 1.4e-14 * κ ^ 2 := by field_simp
  refine ⟨inf, h1, h3, fun i j => ?_, fun i j => ?_⟩
  · have e : a * inf - 1 = a * (inf - a⁻¹) := by rw [mul_sub, Matrix.mul_nonsing_inv a hu]
    rw [e, Matrix.mul_apply, Fin.sum_univ_three]
    have q0 := s i j 0; have q1 := s i j 1; have q2 := s i j 2
    simp only [Matrix.sub_apply]
    rw [abs_le] at q0 q1 q2 ⊢
    norm_num at q0 q1 q2 ⊢
    constructor <;> linarith [q0.1, q0.2, q1.1, q1.2, q2.1, q2.2]
  · have e : inf * a - 1 = (inf - a⁻¹) * a := by rw [sub_mul, Matrix.nonsing_inv_mul a hu]
    rw [e, Matrix.mul_apply, Fin.sum_univ_three]
    have q0 := t i j 0; have q1 := t i j 1; have q2 := t i j 2
    simp only [Matrix.sub_apply]
    rw [abs_le] at q0 q1 q2 ⊢
    norm_num at q0 q1 q2 ⊢
    constructor <;> linarith [q0.1, q0.2, q1.1, q1.2, q2.1, q2.2]

/-- **C149** A symmetric covariance gives an exactly symmetric information matrix. -/
theorem c149_symmetric (packets : Bool) {m : Mat3} {a : Matrix (Fin 3) (Fin 3) ℝ} (h : IsReal m a) (hs : ∀ i j, a i j = a j i) (i j : Fin 3) :
    Rounded.inverse3 rd packets m i j = Rounded.inverse3 rd packets m j i := by
  have hc : Rounded.cofactor3 rd m j i = Rounded.cofactor3 rd m i j := by
    unfold Rounded.cofactor3
    rw [h, h, h, h, h, h, h, h, hs (j + 1) (i + 1), hs (j + 2) (i + 2), hs (j + 1) (i + 2), hs (j + 2) (i + 1)]
    simp only [Fl.fin_mul]
    rw [mul_comm (a (i + 2) (j + 1))]
  unfold Rounded.inverse3
  rw [hc]

/-- **C149** The weight of a constraint with the symmetric information `a`, none of whose eigenvalues is below `l ≥ 1e-14 D` and none of whose
diagonal entries is above `D`, is lower triangular with a positive diagonal and is a factor of `a` up to `1e-15 D`: the factorisation does not
stop early. -/
theorem c149_weight (hrd : RoundsToNearest rd) {m : Mat3} {a : Matrix (Fin 3) (Fin 3) ℝ} (h : IsReal m a) (hs : ∀ i j, a i j = a j i) {l D : ℝ}
    (hD : 1e-200 ≤ D) (hd : ∀ i, a i i ≤ D) (hl : 1e-14 * D ≤ l) (hq : ∀ x, l * normSq x ≤ quad a x) :
    ∃ L : Matrix (Fin 3) (Fin 3) ℝ, IsReal (Rounded.matrixL rd m) L ∧ (∀ i j, i < j → L i j = 0) ∧ (∀ i, 0 < L i i) ∧
      ∀ i j, |(L * L.transpose) i j - a i j| ≤ 1e-15 * D := by
  have hD0 : 0 < D := lt_of_lt_of_le (by norm_num) hD
  have hp : Pos a l D (√D) := ⟨hs, hd, hD, Real.sq_sqrt hD0.le, Real.sqrt_pos.mpr hD0, hl, fun x y z => by
    have := hq ![x, y, z]
    rw [quad_three] at this
    simp only [normSq, Matrix.cons_val_zero, Matrix.cons_val_one, Matrix.cons_val, hs 0 1, hs 0 2, hs 1 2] at this
    linarith⟩
  obtain ⟨x, l1, l2, x1, x2, x3, x4, x5, -, x7, x8, x9, x10, x11⟩ := hp.first hrd
  obtain ⟨p, y, l3, y1, y2, y3, y4, y5, -, y7, y8⟩ := hp.second hrd x5 x7 x8 x9 x10 x11
  obtain ⟨q, z, z1, z2, z3, z4, z5⟩ := hp.third hrd x5 y5 x9 x10 x11 y7 y8
  have sq : ∀ {r : ℝ}, 0 < r → Fl.sqrt (.fin r) = .fin (√r) := fun hr => by simp only [Fl.sqrt]; rw [if_neg (by linarith)]
  have hllt : Rounded.llt3 rd m = ⟨.fin x, .fin l1, .fin y, .fin l2, .fin l3, .fin z⟩ := by
    unfold Rounded.llt3
    simp only [h 0 0, h 1 0, h 1 1, h 2 0, h 2 1, h 2 2]
    rw [if_neg (by rw [Fl.le_fin]; linarith)]
    simp only [sq x4, Fl.rounded_fin, x1, Fl.fin_div x5.ne', x2, x3, Fl.fin_mul, Fl.fin_sub, y1]
    have n1 : ¬ Fl.le (.fin p) (.fin 0) := by rw [Fl.le_fin]; linarith
    simp only [n1, ↓reduceIte, sq y4, Fl.rounded_fin, y2, Fl.fin_div y5.ne', y3, Fl.fin_mul, Fl.fin_add, Fl.fin_sub, z1]
    have n2 : ¬ Fl.le (.fin q) (.fin 0) := by rw [Fl.le_fin]; linarith
    simp only [n2, ↓reduceIte, sq z3, Fl.rounded_fin, z2]
  refine ⟨!![x, 0, 0; l1, y, 0; l2, l3, z], ?_, ?_, ?_, ?_⟩
  · intro i j
    unfold Rounded.matrixL
    rw [hllt]
    fin_cases i <;> fin_cases j <;> rfl
  · intro i j hij
    fin_cases i <;> fin_cases j <;> simp_all
  · intro i
    fin_cases i
    · exact x5
    · exact y5
    · exact z4
  · intro i j
    have s1 := hs 0 1
    have s2 := hs 0 2
    have s3 := hs 1 2
    rw [abs_le] at x9 x10 x11 y7 y8 z5
    norm_num at x9 x10 x11 y7 y8 z5
    rw [Matrix.mul_apply, Fin.sum_univ_three, abs_le]
    fin_cases i <;> fin_cases j <;> simp [Matrix.transpose_apply] <;> norm_num <;>
      constructor <;> linarith [x9.1, x9.2, x10.1, x10.2, x11.1, x11.2, y7.1, y7.2, y8.1, y8.2, z5.1, z5.2]

/-- The eigenvalues of the inverse are not below `1 / (3 B)`. -/
theorem quad_inv {a : Matrix (Fin 3) (Fin 3) ℝ} (hp : a.PosDef) {B : ℝ} (hB : 0 < B) (ha : ∀ i j, |a i j| ≤ B) (x : Fin 3 → ℝ) :
    1 / (3 * B) * normSq x ≤ quad a⁻¹ x := by
  have hd : a.det ≠ 0 := ((Matrix.isUnit_iff_isUnit_det a).mp hp.isUnit).ne_zero
  obtain ⟨y, hy⟩ : ∃ y, y = a⁻¹.mulVec x := ⟨_, rfl⟩
  have hax : a.mulVec y = x := by rw [hy, Matrix.mulVec_mulVec, Matrix.mul_nonsing_inv a (isUnit_iff_ne_zero.mpr hd), Matrix.one_mulVec]
  have e0 := congrFun hax 0
  have e1 := congrFun hax 1
  have e2 := congrFun hax 2
  have f0 := congrFun hy 0
  have f1 := congrFun hy 1
  have f2 := congrFun hy 2
  simp only [Matrix.mulVec, dotProduct, Fin.sum_univ_three] at e0 e1 e2 f0 f1 f2
  have s1 := posDef_symm hp 0 1
  have s2 := posDef_symm hp 0 2
  have s3 := posDef_symm hp 1 2
  have hinv : quad a⁻¹ x = x 0 * y 0 + x 1 * y 1 + x 2 * y 2 := by
    rw [quad_three, f0, f1, f2]; ring
  have nn : ∀ z, 0 ≤ quad a z := fun z => by
    by_cases hz : z = 0
    · subst hz; rw [quad_three]; simp
    · exact (quad_pos hp hz).le
  have k := nn (fun i => 1 / (3 * B) * x i - y i)
  have up : quad a x ≤ 3 * B * normSq x := by
    have g : ∀ i j, x i * a i j * x j ≤ B * (1 / 2 * (x i ^ 2 + x j ^ 2)) := fun i j => by
      have := Pos.err2 (ha i j) (u := x i) (v := x j)
      nlinarith
    rw [quad_three]
    unfold normSq
    linarith [g 0 0, g 0 1, g 0 2, g 1 0, g 1 1, g 1 2, g 2 0, g 2 1, g 2 2]
  have ex : quad a (fun i => 1 / (3 * B) * x i - y i) =
      (1 / (3 * B)) ^ 2 * quad a x - 2 * (1 / (3 * B)) * normSq x + quad a⁻¹ x := by
    rw [hinv, quad_three, quad_three]
    unfold normSq
    generalize 1 / (3 * B) = t
    rw [s1, s2] at e0
    rw [s3] at e1
    rw [s1, s2, s3]
    linear_combination (y 0 - 2 * t * x 0) * e0 + (y 1 - 2 * t * x 1) * e1 + (y 2 - 2 * t * x 2) * e2
  rw [ex] at k
  have : (1 / (3 * B)) ^ 2 * quad a x ≤ 1 / (3 * B) * normSq x := by
    calc (1 / (3 * B)) ^ 2 * quad a x ≤ (1 / (3 * B)) ^ 2 * (3 * B * normSq x) := by gcongr
      _ = 1 / (3 * B) * normSq x := by field_simp
  linarith

/-- **C149** From the covariance to the weight: for a positive definite covariance with entries up to `B` that is not too close to singular
(`κ = B³ / det a` at most a million) the weight of the constraint, computed in doubles throughout, is lower triangular with a positive diagonal
and a factor of the inverse of the covariance up to `3e-14 κ² / B`. -/
theorem c149_weight_of_covariance (hrd : RoundsToNearest rd) (packets : Bool) {m : Mat3} {a : Matrix (Fin 3) (Fin 3) ℝ} (h : IsReal m a)
    (hp : a.PosDef) {B κ : ℝ} (hB : 1e-60 ≤ B) (hB' : B ≤ 1e60) (ha : ∀ i j, |a i j| ≤ B) (hκ : B ^ 3 ≤ κ * |a.det|) (hκ2 : κ ≤ 1e6) :
    ∃ L : Matrix (Fin 3) (Fin 3) ℝ, IsReal (Rounded.matrixL rd (Rounded.inverse3 rd packets m)) L ∧ (∀ i j, i < j → L i j = 0) ∧
      (∀ i, 0 < L i i) ∧ ∀ i j, |(L * L.transpose) i j - a⁻¹ i j| ≤ 3e-14 * κ ^ 2 / B := by
  have hB0 : 0 < B := lt_of_lt_of_le (by norm_num) hB
  have hd := det_ne hB hκ
  obtain ⟨inf, i1, i2, -, -⟩ := c149_information hrd packets h hB hB' ha hκ (hκ2.trans (by norm_num))
  have hs := posDef_symm hp
  have is : ∀ i j, inf i j = inf j i := fun i j => by
    have := c149_symmetric (rd := rd) packets h hs i j
    rw [i1, i1] at this
    exact Fl.fin.inj this
  have cofB : ∀ i j, |cof a i j| ≤ 2 * B ^ 2 := fun i j => by
    unfold cof
    refine (abs_sub _ _).trans ?_
    rw [abs_mul, abs_mul]
    have g1 := mul_le_mul (ha (i + 1) (j + 1)) (ha (i + 2) (j + 2)) (abs_nonneg _) hB0.le
    have g2 := mul_le_mul (ha (i + 1) (j + 2)) (ha (i + 2) (j + 1)) (abs_nonneg _) hB0.le
    linarith
  have hdp : 0 < |a.det| := abs_pos.mpr hd
  have hκ0 : 1 / 6 ≤ κ := by
    have : |a.det| ≤ 6 * B ^ 3 := by
      rw [det_cof]
      have g : ∀ k, |cof a k 0 * a k 0| ≤ 2 * B ^ 3 := fun k => by
        rw [abs_mul]
        calc |cof a k 0| * |a k 0| ≤ 2 * B ^ 2 * B := mul_le_mul (cofB _ _) (ha _ _) (abs_nonneg _) (by positivity)
          _ = 2 * B ^ 3 := by ring
      have g0 := g 0; have g1 := g 1; have g2 := g 2
      rw [abs_le] at g0 g1 g2 ⊢
      constructor <;> linarith [g0.1, g0.2, g1.1, g1.2, g2.1, g2.2]
    by_contra hlt
    push Not at hlt
    have : κ * |a.det| < 1 / 6 * |a.det| := by gcongr
    linarith
  have hκp : 0 < κ := by linarith
  have invB : ∀ i, a⁻¹ i i ≤ 2 * κ / B := fun i => by
    rw [inv_cof hd]
    refine (le_abs_self _).trans ?_
    rw [abs_div, div_le_div_iff₀ hdp hB0]
    calc |cof a i i| * B ≤ 2 * B ^ 2 * B := by gcongr; exact cofB _ _
      _ = 2 * B ^ 3 := by ring
      _ ≤ 2 * κ * |a.det| := by linarith
  have kk : κ ^ 2 ≤ 1e12 := by
    calc κ ^ 2 ≤ (1e6) ^ 2 := by gcongr
      _ = 1e12 := by norm_num
  have small : 1.4e-14 * κ ^ 2 / B ≤ 1.4e-8 * κ / B := by
    rw [div_le_div_iff_of_pos_right hB0]
    nlinarith
  have k6 : κ / B ≤ 1e6 / B := by gcongr
  have B1 : 0 < 1 / B := by positivity
  have kB : 1 / 6 / B ≤ κ / B := by gcongr
  have e1 : 1.4e-14 * κ ^ 2 / B = 1.4e-14 * (κ ^ 2 / B) := by ring
  have e2 : 1.4e-8 * κ / B = 1.4e-8 * (κ / B) := by ring
  have e3 : 2 * κ / B = 2 * (κ / B) := by ring
  have e4 : 1 / 6 / B = 1 / 6 * (1 / B) := by ring
  have e5 : 1e6 / B = 1e6 * (1 / B) := by ring
  have k12 : κ ^ 2 / B ≤ 1e12 * (1 / B) := by
    rw [← mul_div_assoc, mul_one]; gcongr
  have Blow : 1e-60 ≤ 1 / B := by
    rw [le_div_iff₀ hB0]
    calc 1e-60 * B ≤ 1e-60 * 1e60 := by gcongr
      _ ≤ 1 := by norm_num
  obtain ⟨L, q1, q2, q3, q4⟩ := c149_weight hrd i1 is (D := 2.1 * (κ / B)) (l := 0.25 * (1 / B)) (by
      rw [e4] at kB
      generalize 1 / B = b at *
      norm_num at Blow kB ⊢
      linarith) (fun i => by
      have := i2 i i
      rw [abs_le] at this
      have g := invB i
      rw [e1] at this
      rw [e1, e2] at small
      rw [e3] at g
      norm_num at this g small ⊢
      linarith [this.2]) (by
      rw [e5] at k6
      generalize 1 / B = b at *
      norm_num at k6 ⊢
      linarith) (fun x => by
      have q := quad_inv hp hB0 ha x
      have g : ∀ i j, -(1.4e-2 * (1 / B) * (1 / 2 * (x i ^ 2 + x j ^ 2))) ≤ x i * inf i j * x j - x i * a⁻¹ i j * x j := fun i j => by
        have hb : |-(inf i j - a⁻¹ i j)| ≤ 1.4e-2 * (1 / B) := by
          rw [abs_neg]
          refine (i2 i j).trans ?_
          rw [e1]
          generalize 1 / B = b at *
          norm_num at k12 ⊢
          linarith
        have := Pos.err2 hb (u := x i) (v := x j)
        linarith
      have e6 : 1 / (3 * B) = 1 / 3 * (1 / B) := by ring
      rw [e6] at q
      rw [quad_three] at q ⊢
      have n0 := mul_nonneg B1.le (sq_nonneg (x 0))
      have n1 := mul_nonneg B1.le (sq_nonneg (x 1))
      have n2 := mul_nonneg B1.le (sq_nonneg (x 2))
      unfold normSq at q ⊢
      have g00 := g 0 0; have g01 := g 0 1; have g02 := g 0 2
      have g10 := g 1 0; have g11 := g 1 1; have g12 := g 1 2
      have g20 := g 2 0; have g21 := g 2 1; have g22 := g 2 2
      generalize 1 / B = b at *
      norm_num at g00 g01 g02 g10 g11 g12 g20 g21 g22 q ⊢
      linarith)
  refine ⟨L, q1, q2, q3, fun i j => ?_⟩
  have g1 := q4 i j
  have g2 := i2 i j
  have e7 : 3e-14 * κ ^ 2 / B = 3e-14 * (κ ^ 2 / B) := by ring
  have g3 : κ / B ≤ 6 * (κ ^ 2 / B) := by
    rw [← mul_div_assoc, div_le_div_iff_of_pos_right hB0]
    nlinarith
  rw [e1] at g2
  rw [e7]
  rw [abs_le] at g1 g2 ⊢
  norm_num at g1 g2 g3 ⊢
  constructor <;> linarith [g1.1, g1.2, g2.1, g2.2]

theorem rd_factor (hrd : RoundsToNearest rd) {x : ℝ} (hx : 1e-250 ≤ x) : ∃ d, |d| ≤ 1.2e-16 ∧ rd x = x * (1 + d) := by
  have hx0 : 0 < x := lt_of_lt_of_le (by norm_num) hx
  have := rd_far hrd (x := x) (abs_of_pos hx0).le hx
  refine ⟨(rd x - x) / x, ?_, by field_simp; ring⟩
  rw [abs_div, abs_of_pos hx0, div_le_iff₀ hx0]
  exact this

theorem rd_zero (hrd : RoundsToNearest rd) : rd 0 = 0 := hrd.exact isDouble_zero

theorem rd_rd (hrd : RoundsToNearest rd) (x : ℝ) : rd (rd x) = rd x := hrd.exact (hrd.isDouble x)

/-- The inverse of a diagonal matrix, step by step. -/
theorem inverse3_diagonal (hrd : RoundsToNearest rd) (packets : Bool) {m : Mat3} {v : Fin 3 → ℝ} (h : IsReal m (Matrix.diagonal v))
    (hd : rd (rd (v 1 * v 2) * v 0) ≠ 0) :
    IsReal (Rounded.inverse3 rd packets m)
      (Matrix.diagonal fun i => rd (rd (v (i + 1) * v (i + 2)) * rd (1 / rd (rd (v 1 * v 2) * v 0)))) := by
  have z := rd_zero hrd
  have r := rd_rd hrd
  have hc : ∀ i j, Rounded.cofactor3 rd m i j = .fin (Matrix.diagonal (fun i => rd (v (i + 1) * v (i + 2))) i j) := by
    intro i j
    unfold Rounded.cofactor3
    rw [h, h, h, h]
    fin_cases i <;> fin_cases j <;> simp [Matrix.diagonal, z, r]
  have hdet : Rounded.det3 rd packets m = .fin (rd (rd (v 1 * v 2) * v 0)) := by
    unfold Rounded.det3 Rounded.sum3
    simp only [hc, h 0 0, h 1 0, h 2 0]
    cases packets <;> simp [Matrix.diagonal, z, r]
  intro i j
  unfold Rounded.inverse3
  rw [hdet, hc, Fl.fin_div hd]
  fin_cases i <;> fin_cases j <;> simp [Matrix.diagonal, z]

/-- The factor of a diagonal matrix of doubles, step by step. -/
theorem matrixL_diagonal (hrd : RoundsToNearest rd) {m : Mat3} {n : Fin 3 → ℝ} (h : IsReal m (Matrix.diagonal n)) (hn : ∀ i, 0 < n i)
    (hx : ∀ i, 0 < rd (√(n i))) (hdb : ∀ i, IsDouble (n i)) :
    IsReal (Rounded.matrixL rd m) (Matrix.diagonal fun i => rd (√(n i))) := by
  have z := rd_zero hrd
  have sq : ∀ {r : ℝ}, 0 < r → Fl.sqrt (.fin r) = .fin (√r) := fun hr => by simp only [Fl.sqrt]; rw [if_neg (by linarith)]
  have hllt : Rounded.llt3 rd m = ⟨.fin (rd (√(n 0))), .fin 0, .fin (rd (√(n 1))), .fin 0, .fin 0, .fin (rd (√(n 2)))⟩ := by
    unfold Rounded.llt3
    have d1 := hrd.exact (hdb 1)
    have d2 := hrd.exact (hdb 2)
    simp only [h 0 0, h 1 0, h 1 1, h 2 0, h 2 1, h 2 2, Matrix.diagonal, Matrix.of_apply]
    simp only [↓reduceIte, Fin.isValue, one_ne_zero, Fin.reduceEq, Fl.le_fin, not_le.mpr (hn 0), sq (hn 0), Fl.rounded_fin,
      Fl.fin_div (hx 0).ne', zero_div, z, Fl.fin_mul, Fl.fin_sub, mul_zero, sub_zero, d1, not_le.mpr (hn 1), sq (hn 1), Fl.fin_div (hx 1).ne',
      Fl.fin_add, add_zero, d2, not_le.mpr (hn 2), sq (hn 2)]
  intro i j
  unfold Rounded.matrixL
  rw [hllt]
  fin_cases i <;> fin_cases j <;> simp [Matrix.diagonal]

/-- **C149** The information of a pose given from outside, whose covariance is diagonal with variances between 1e-80 and 1e80: exactly diagonal,
and on the diagonal one over the variance up to a relative error of 1e-15; and its weight: exactly diagonal and one over the standard
deviation. -/
theorem c149_given_pose (hrd : RoundsToNearest rd) (packets : Bool) {m : Mat3} {v : Fin 3 → ℝ} (h : IsReal m (Matrix.diagonal v))
    (hv : ∀ i, 1e-80 ≤ v i ∧ v i ≤ 1e80) :
    ∃ n w : Fin 3 → ℝ, IsReal (Rounded.inverse3 rd packets m) (Matrix.diagonal n) ∧
      IsReal (Rounded.matrixL rd (Rounded.inverse3 rd packets m)) (Matrix.diagonal w) ∧
      ∀ i, |n i * v i - 1| ≤ 1e-15 ∧ 0 < w i ∧ |w i ^ 2 * v i - 1| ≤ 1.3e-15 := by
  have v0 : ∀ i, 0 < v i := fun i => lt_of_lt_of_le (by norm_num) (hv i).1
  have vv : ∀ i j, (1e-160 : ℝ) ≤ v i * v j ∧ v i * v j ≤ 1e160 := fun i j => by
    constructor
    · calc (1e-160 : ℝ) = 1e-80 * 1e-80 := by norm_num
        _ ≤ v i * v j := mul_le_mul (hv i).1 (hv j).1 (by norm_num) (v0 i).le
    · calc v i * v j ≤ 1e80 * 1e80 := mul_le_mul (hv i).2 (hv j).2 (v0 j).le (by norm_num)
        _ = 1e160 := by norm_num
  obtain ⟨b, hb, eb⟩ := rd_factor hrd (x := v 1 * v 2) (by have := (vv 1 2).1; norm_num at this ⊢; linarith)
  rw [abs_le] at hb
  have hb1 : (1 : ℝ) - 1.2e-16 ≤ 1 + b ∧ 1 + b ≤ 1 + 1.2e-16 := ⟨by linarith [hb.1], by linarith [hb.2]⟩
  have lowdet : (1e-241 : ℝ) ≤ rd (v 1 * v 2) * v 0 := by
    rw [eb]
    have g1 : 1e-160 * 0.9 ≤ v 1 * v 2 * (1 + b) :=
      mul_le_mul (vv 1 2).1 (by norm_num at hb1 ⊢; linarith [hb1.1]) (by norm_num) (mul_pos (v0 1) (v0 2)).le
    calc (1e-241 : ℝ) ≤ 1e-160 * 0.9 * 1e-80 := by norm_num
      _ ≤ _ := mul_le_mul g1 (hv 0).1 (by norm_num) (le_trans (by norm_num) g1)
  obtain ⟨c, hc, ec⟩ := rd_factor hrd (x := rd (v 1 * v 2) * v 0) (by norm_num at lowdet ⊢; linarith)
  rw [abs_le] at hc
  set d := rd (rd (v 1 * v 2) * v 0) with hdd
  have ed : d = v 0 * v 1 * v 2 * ((1 + b) * (1 + c)) := by rw [ec, eb]; ring
  have v3 : 0 < v 0 * v 1 * v 2 := mul_pos (mul_pos (v0 0) (v0 1)) (v0 2)
  have v3' : v 0 * v 1 * v 2 ≤ 1e240 := by
    calc v 0 * v 1 * v 2 ≤ 1e160 * 1e80 := mul_le_mul (vv 0 1).2 (hv 2).2 (v0 2).le (by norm_num)
      _ = 1e240 := by norm_num
  obtain ⟨g, hg, hg2⟩ : ∃ g, g = (1 + b) * (1 + c) ∧ |g - 1| ≤ 2.5e-16 := by
    refine ⟨_, rfl, ?_⟩
    have : |b * c| ≤ 1e-30 := by
      rw [abs_mul]
      calc |b| * |c| ≤ 1.2e-16 * 1.2e-16 := mul_le_mul (abs_le.mpr hb) (abs_le.mpr hc) (abs_nonneg _) (by norm_num)
        _ ≤ 1e-30 := by norm_num
    rw [abs_le] at this ⊢
    norm_num at this hb hc ⊢
    constructor <;> linarith [this.1, this.2, hb.1, hb.2, hc.1, hc.2]
  rw [← hg] at ed
  rw [abs_le] at hg2
  have g1 : 0.99 ≤ g ∧ g ≤ 1.01 := by norm_num at hg2 ⊢; constructor <;> linarith [hg2.1, hg2.2]
  have g0 : 0 < g := by linarith [g1.1]
  have d0 : 0 < d := by rw [ed]; positivity
  obtain ⟨e, he, ee⟩ := rd_factor hrd (x := 1 / d) (by
    rw [le_div_iff₀ d0, ed]
    calc (1e-250 : ℝ) * (v 0 * v 1 * v 2 * g) ≤ 1e-250 * (1e240 * 1.01) :=
          mul_le_mul_of_nonneg_left (mul_le_mul v3' g1.2 g0.le (by norm_num)) (by norm_num)
      _ ≤ 1 := by norm_num)
  rw [abs_le] at he
  have I := inverse3_diagonal hrd packets h d0.ne'
  rw [← hdd] at I
  set n : Fin 3 → ℝ := fun i => rd (rd (v (i + 1) * v (i + 2)) * rd (1 / d)) with hn
  have all : ∀ i : Fin 3, v (i + 1) * v (i + 2) * v i = v 0 * v 1 * v 2 := fun i => by fin_cases i <;> simp <;> ring
  have N : ∀ i, |n i * v i - 1| ≤ 1e-15 := fun i => by
    obtain ⟨p, hp, ep⟩ := rd_factor hrd (x := v (i + 1) * v (i + 2)) (by have := (vv (i + 1) (i + 2)).1; norm_num at this ⊢; linarith)
    rw [abs_le] at hp
    obtain ⟨t, ht, ht2⟩ : ∃ t, t = (1 + p) * (1 + e) ∧ |t - 1| ≤ 2.5e-16 := by
      refine ⟨_, rfl, ?_⟩
      have : |p * e| ≤ 1e-30 := by
        rw [abs_mul]
        calc |p| * |e| ≤ 1.2e-16 * 1.2e-16 := mul_le_mul (abs_le.mpr hp) (abs_le.mpr he) (abs_nonneg _) (by norm_num)
          _ ≤ 1e-30 := by norm_num
      rw [abs_le] at this ⊢
      norm_num at this hp he ⊢
      constructor <;> linarith [this.1, this.2, hp.1, hp.2, he.1, he.2]
    rw [abs_le] at ht2
    have val : rd (v (i + 1) * v (i + 2)) * rd (1 / d) = 1 / v i * (t / g) := by
      rw [ep, ee, ed, ← all i, ht]
      have := (v0 i).ne'
      have := (v0 (i + 1)).ne'
      have := (v0 (i + 2)).ne'
      field_simp
    have tg : |t / g - 1| ≤ 6e-16 := by
      rw [div_sub_one g0.ne', abs_div, abs_of_pos g0, div_le_iff₀ g0, abs_le]
      norm_num at ht2 hg2 g1 ⊢
      constructor <;> linarith [ht2.1, ht2.2, hg2.1, hg2.2]
    rw [abs_le] at tg
    obtain ⟨q, hq, eq⟩ := rd_factor hrd (x := 1 / v i * (t / g)) (by
      have : (1e-81 : ℝ) ≤ 1 / v i := by
        rw [le_div_iff₀ (v0 i)]
        calc 1e-81 * v i ≤ 1e-81 * 1e80 := by gcongr; exact (hv i).2
          _ ≤ 1 := by norm_num
      calc (1e-250 : ℝ) ≤ 1e-81 * 0.9 := by norm_num
        _ ≤ _ := mul_le_mul this (by norm_num at tg ⊢; linarith [tg.1]) (by norm_num) (by have := v0 i; positivity))
    rw [hn]
    simp only
    rw [val, eq]
    have e1 : 1 / v i * (t / g) * (1 + q) * v i - 1 = (t / g - 1) + q + (t / g - 1) * q := by
      have := (v0 i).ne'
      field_simp
      ring
    rw [e1]
    have : |(t / g - 1) * q| ≤ 1e-30 := by
      rw [abs_mul]
      calc |t / g - 1| * |q| ≤ 6e-16 * 1.2e-16 := mul_le_mul (abs_le.mpr tg) hq (abs_nonneg _) (by norm_num)
        _ ≤ 1e-30 := by norm_num
    rw [abs_le] at this hq ⊢
    norm_num at this hq tg ⊢
    constructor <;> linarith [this.1, this.2, hq.1, hq.2, tg.1, tg.2]
  have npos : ∀ i, (1e-100 : ℝ) ≤ n i := fun i => by
    have := N i
    rw [abs_le] at this
    by_contra hlt
    push Not at hlt
    have : n i * v i ≤ 1e-100 * 1e80 := by
      calc n i * v i ≤ 1e-100 * v i := mul_le_mul_of_nonneg_right hlt.le (v0 i).le
        _ ≤ 1e-100 * 1e80 := mul_le_mul_of_nonneg_left (hv i).2 (by norm_num)
    norm_num at *
    linarith
  have sq := fun i => sqrt_far hrd (p := n i) (by have := npos i; norm_num at this ⊢; linarith)
  refine ⟨n, fun i => rd (√(n i)), I, matrixL_diagonal hrd I (fun i => lt_of_lt_of_le (by norm_num) (npos i)) (fun i => (sq i).1)
    (fun i => hrd.isDouble _), fun i => ⟨N i, (sq i).1, ?_⟩⟩
  have k := (sq i).2.2.2
  have kv := N i
  have : |(rd (√(n i)) ^ 2 - n i) * v i| ≤ 2.5e-16 * (n i * v i) := by
    rw [abs_mul, abs_of_pos (v0 i), ← mul_assoc]
    gcongr
    exact (v0 i).le
  have e2 : rd (√(n i)) ^ 2 * v i - 1 = (rd (√(n i)) ^ 2 - n i) * v i + (n i * v i - 1) := by ring
  rw [e2]
  rw [abs_le] at this kv ⊢
  norm_num at this kv ⊢
  constructor <;> linarith [this.1, this.2, kv.1, kv.2]

/-- **C149** (where it ends) With variances of 2⁻³⁶⁵ (about 1e-110, a standard deviation of 1e-55) the determinant is below the smallest double:
the information is infinite on the diagonal and not a number elsewhere, and no weight comes of it. -/
theorem c149_tiny_variances (hrd : RoundsToNearest rd) (packets : Bool) {m : Mat3} (h : IsReal m (Matrix.diagonal fun _ => 2⁻¹ ^ 365)) :
    (∀ i, Rounded.inverse3 rd packets m i i = .pinf) ∧ (∀ i j, i ≠ j → Rounded.inverse3 rd packets m i j = .nan) ∧
      Rounded.matrixL rd (Rounded.inverse3 rd packets m) 1 0 = .nan ∧ Rounded.matrixL rd (Rounded.inverse3 rd packets m) 2 2 = .nan := by
  have z := rd_zero hrd
  have r := rd_rd hrd
  have e1 : rd (2⁻¹ ^ 365 * 2⁻¹ ^ 365) = 2⁻¹ ^ 730 := by
    rw [← pow_add]
    refine hrd.exact ⟨1, -730, by norm_num, by norm_num, ?_⟩
    rw [zpow_neg, Int.cast_one, one_mul, inv_pow]
    norm_cast
  have e2 : rd (2⁻¹ ^ 730 * 2⁻¹ ^ 365) = 0 := by
    rw [← pow_add]
    have hn := hrd.nearest (2⁻¹ ^ (730 + 365)) 0 isDouble_zero
    rw [zero_sub, abs_neg, abs_of_pos (by positivity : (0 : ℝ) < 2⁻¹ ^ (730 + 365))] at hn
    have up : rd (2⁻¹ ^ (730 + 365)) ≤ 2⁻¹ ^ 1094 := by
      have : (2⁻¹ : ℝ) ^ 1094 = 2 * 2⁻¹ ^ (730 + 365) := by rw [pow_succ _ 1094]; ring
      rw [abs_le] at hn
      linarith [hn.2]
    have lo := hrd.nonneg (x := 2⁻¹ ^ (730 + 365)) (by positivity)
    obtain ⟨k, e, hk, he, hx⟩ := hrd.isDouble (2⁻¹ ^ (730 + 365))
    rw [hx] at up lo ⊢
    have hp : (0 : ℝ) < 2 ^ e := zpow_pos (by norm_num) _
    have k0 : 0 ≤ k := by
      by_contra hlt
      push Not at hlt
      have : (k : ℝ) < 0 := by exact_mod_cast hlt
      nlinarith
    rcases k0.lt_or_eq with g | g
    · exfalso
      have k1 : (1 : ℝ) ≤ k := by exact_mod_cast g
      have : (2 : ℝ) ^ (-1074 : ℤ) ≤ 2 ^ e := zpow_le_zpow_right₀ (by norm_num) he
      have e3 : (2 : ℝ) ^ (-1074 : ℤ) = 2⁻¹ ^ 1074 := by rw [zpow_neg, inv_pow]; norm_cast
      have e4 : (2⁻¹ : ℝ) ^ 1094 < 2⁻¹ ^ 1074 := pow_lt_pow_right_of_lt_one₀ (by norm_num) (by norm_num) (by norm_num)
      nlinarith
    · rw [← g]; simp
  generalize hs : (2⁻¹ : ℝ) ^ 365 = s at *
  have ht : (0 : ℝ) < 2⁻¹ ^ 730 := by positivity
  generalize (2⁻¹ : ℝ) ^ 730 = t at *
  have hc : ∀ i j, Rounded.cofactor3 rd m i j = .fin (Matrix.diagonal (fun _ => t) i j) := by
    intro i j
    unfold Rounded.cofactor3
    rw [h, h, h, h]
    have : rd t = t := by rw [← e1, r]
    fin_cases i <;> fin_cases j <;> simp [Matrix.diagonal, z, e1, this]
  have hdet : Rounded.det3 rd packets m = .fin 0 := by
    unfold Rounded.det3 Rounded.sum3
    simp only [hc, h 0 0, h 1 0, h 2 0]
    cases packets <;> simp [Matrix.diagonal, z, e2]
  have hone : Fl.rounded rd (.fin 1 / .fin 0) = .pinf := by rw [Fl.pos_div_zero one_pos]; rfl
  have hI : ∀ i j, Rounded.inverse3 rd packets m i j = if i = j then .pinf else .nan := by
    intro i j
    unfold Rounded.inverse3
    rw [hdet, hone, hc]
    by_cases hij : i = j
    · subst hij
      have : (Fl.fin t * Fl.pinf : Fl) = .pinf := by
        show Fl.mul (.fin t) .pinf = .pinf
        simp [Fl.mul, Fl.infMul, ht, ht.ne']
      simp [Matrix.diagonal, this]
      rfl
    · have : (Fl.fin 0 * Fl.pinf : Fl) = .nan := Fl.zero_mul_pinf
      simp [Matrix.diagonal, hij, Ne.symm hij, this]
      rfl
  refine ⟨fun i => by rw [hI]; simp, fun i j hij => by rw [hI]; simp [hij], ?_, ?_⟩
  all_goals
    generalize Rounded.inverse3 rd packets m = k at hI
    have n1 : ¬ Fl.le .pinf (.fin 0) := by unfold Fl.le; rintro (h | ⟨h, -⟩) <;> first | exact h | cases h
    have n2 : ¬ Fl.le .nan (.fin 0) := by unfold Fl.le; rintro (h | ⟨h, -⟩) <;> first | exact h | cases h
    unfold Rounded.matrixL Rounded.llt3
    simp only [hI]
    have q1 : (Fl.pinf - Fl.nan : Fl) = .nan := rfl
    have q2 : (Fl.nan - Fl.nan : Fl) = .nan := rfl
    have q3 : (Fl.nan * Fl.nan : Fl) = .nan := rfl
    have q4 : (Fl.nan / Fl.pinf : Fl) = .nan := rfl
    have q5 : (Fl.nan / Fl.nan : Fl) = .nan := rfl
    have q6 : (Fl.nan + Fl.nan : Fl) = .nan := rfl
    simp [n1, n2, q1, q2, q3, q4, q5, q6, Fl.sqrt, Fl.rounded]


/-- Two correlated positions and a heading. -/
def demoCov : Matrix (Fin 3) (Fin 3) ℝ := !![2, 1, 0; 1, 2, 0; 0, 0, 1]

theorem demoCov_det : demoCov.det = 3 := by rw [Matrix.det_fin_three]; simp [demoCov]; norm_num

theorem demoCov_posDef : demoCov.PosDef := by
  refine Matrix.PosDef.of_dotProduct_mulVec_pos ?_ ?_
  · ext i j
    fin_cases i <;> fin_cases j <;> simp [demoCov]
  · intro x hx
    have hne : x 0 ≠ 0 ∨ x 1 ≠ 0 ∨ x 2 ≠ 0 := by
      by_contra hcon
      push Not at hcon
      exact hx (by ext i; fin_cases i <;> simp [hcon])
    simp [Matrix.mulVec, dotProduct, Fin.sum_univ_three, demoCov]
    have h0 := sq_nonneg (x 0)
    have h1 := sq_nonneg (x 1)
    have h2 := sq_nonneg (x 2)
    have h3 := sq_nonneg (x 0 + x 1)
    have h4 : 0 < x 0 ^ 2 + x 1 ^ 2 + x 2 ^ 2 := by
      rcases hne with h | h | h <;> have := sq_pos_of_ne_zero h <;> linarith
    nlinarith

theorem demoCov_le (i j : Fin 3) : |demoCov i j| ≤ 2 := by
  fin_cases i <;> fin_cases j <;> simp [demoCov]

/-- A correlated covariance, from covariance to information to weight. -/
example : ∃ L : Matrix (Fin 3) (Fin 3) ℝ,
    IsReal (Rounded.matrixL rnd (Rounded.inverse3 rnd true fun i j => .fin (demoCov i j))) L ∧ (∀ i j, i < j → L i j = 0) ∧
      (∀ i, 0 < L i i) ∧ ∀ i j, |(L * L.transpose) i j - demoCov⁻¹ i j| ≤ 3e-14 * 3 ^ 2 / 2 :=
  c149_weight_of_covariance rnd_rounds true (fun _ _ => rfl) demoCov_posDef (B := 2) (by norm_num) (by norm_num) demoCov_le
    (by rw [demoCov_det]; norm_num) (by norm_num)

example : ∃ inf : Matrix (Fin 3) (Fin 3) ℝ, IsReal (Rounded.inverse3 rnd false fun i j => .fin (demoCov i j)) inf ∧
    (∀ i j, |inf i j - demoCov⁻¹ i j| ≤ 1.4e-14 * 3 ^ 2 / 2) ∧ (∀ i j, |(demoCov * inf - 1) i j| ≤ 4.2e-14 * 3 ^ 2) ∧
      ∀ i j, |(inf * demoCov - 1) i j| ≤ 4.2e-14 * 3 ^ 2 :=
  c149_information rnd_rounds false (fun _ _ => rfl) (B := 2) (by norm_num) (by norm_num) demoCov_le (by rw [demoCov_det]; norm_num) (by norm_num)

/-- A pose given with a standard deviation of half a metre and a quarter of a radian. -/
example : ∃ n w : Fin 3 → ℝ,
    IsReal (Rounded.inverse3 rnd true fun i j => .fin (Matrix.diagonal ![0.25, 0.25, 0.0685] i j)) (Matrix.diagonal n) ∧
      IsReal (Rounded.matrixL rnd (Rounded.inverse3 rnd true fun i j => .fin (Matrix.diagonal ![0.25, 0.25, 0.0685] i j))) (Matrix.diagonal w) ∧
      ∀ i, |n i * ![0.25, 0.25, 0.0685] i - 1| ≤ 1e-15 ∧ 0 < w i ∧ |w i ^ 2 * ![0.25, 0.25, 0.0685] i - 1| ≤ 1.3e-15 :=
  c149_given_pose rnd_rounds true (fun _ _ => rfl) (fun i => by fin_cases i <;> simp <;> norm_num)

end

end Ndt
