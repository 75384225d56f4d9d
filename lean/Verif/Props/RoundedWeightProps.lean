import Verif.Proof.RoundedWeight
import Verif.Spec.RoundedWeight
import Verif.Props.RoundedCovProps

/-! # Property C150: from matching to the weight of a constraint in double precision -/

namespace Ndt

open Rounded Spec

noncomputable section

variable {rd co si : ℝ → ℝ}

/-- **C150** The weight that comes of a covariance which is known up to an error, and need not even be symmetric: if it is entrywise within `η B`
of a symmetric matrix `a` with entries up to `B` and no eigenvalue below `l`, then with `ρ = B / l` at most 60 and `η` at most 1e-6 the weight is
lower triangular with a positive diagonal and a factor of the inverse of `a` up to `(6e-13 ρ⁶ + 4 η ρ²) / B`. -/
theorem c150_weight_near (hrd : RoundsToNearest rd) (packets : Bool) {m : Mat3} {a c : Matrix (Fin 3) (Fin 3) ℝ} (h : IsReal m c)
    (hs : ∀ i j, a i j = a j i) {l B η ρ : ℝ} (hB : 1e-60 ≤ B) (hB' : B ≤ 1e59) (ha : ∀ i j, |a i j| ≤ B) (hl : 0 < l)
    (hq : ∀ x, l * normSq x ≤ quad a x) (hρ : B ≤ ρ * l) (hρ2 : ρ ≤ 60) (hη : η ≤ 1e-6) (hc : ∀ i j, |c i j - a i j| ≤ η * B) :
    ∃ L : Matrix (Fin 3) (Fin 3) ℝ, IsReal (Rounded.matrixL rd (Rounded.inverse3 rd packets m)) L ∧ (∀ i j, i < j → L i j = 0) ∧
      (∀ i, 0 < L i i) ∧ ∀ i j, |(L * L.transpose) i j - a⁻¹ i j| ≤ (6e-13 * ρ ^ 6 + 4 * η * ρ ^ 2) / B := by
  have hB0 : 0 < B := lt_of_lt_of_le (by norm_num) hB
  have hη0 : 0 ≤ η := by
    have := (abs_nonneg _).trans (hc 0 0)
    by_contra hlt
    push Not at hlt
    nlinarith
  have hlB : l ≤ B := by
    have q := hq ![1, 0, 0]
    rw [quad_three] at q
    simp [normSq] at q
    linarith [(abs_le.mp (ha 0 0)).2]
  have hρ1 : 1 ≤ ρ := by
    by_contra hlt
    push Not at hlt
    nlinarith
  have b0 : 0 < 1 / B := by positivity
  have il : 1 / l ≤ ρ * (1 / B) := by
    rw [mul_one_div, div_le_div_iff₀ hl hB0]
    linarith
  have e3 : 3 * (η * B) ≤ 0.001 * l := by
    have : η * B ≤ 1e-6 * (60 * l) := by
      have h1 : B ≤ 60 * l := hρ.trans (by gcongr)
      exact mul_le_mul hη h1 hB0.le (by norm_num)
    norm_num at this ⊢
    linarith
  -- the form of the covariance
  have qc : ∀ x, 0.999 * l * normSq x ≤ quad c x := fun x => by
    have g1 := quad_near hc x
    have g2 := hq x
    have n := normSq_nonneg x
    have g3 : 3 * (η * B) * normSq x ≤ 0.001 * l * normSq x := by gcongr
    norm_num at g3 ⊢
    linarith
  have hμ : 0 < 0.999 * l := by positivity
  have det := det_low hμ qc
  have cB : ∀ i j, |c i j| ≤ 1.001 * B := fun i j => by
    have g1 := abs_sub_abs_le_abs_sub (c i j) (a i j)
    have g2 := hc i j
    have g3 : η * B ≤ 1e-6 * B := by gcongr
    have g4 := ha i j
    norm_num at g3 ⊢
    linarith
  have κ1 : (1.001 * B) ^ 3 ≤ 6.1 * ρ ^ 3 * |c.det| := by
    have g1 : B ^ 3 ≤ (ρ * l) ^ 3 := pow_le_pow_left₀ hB0.le hρ 3
    have g2 : 0 ≤ ρ ^ 3 := by positivity
    have g3 : ρ ^ 3 * (0.999 * l) ^ 3 ≤ ρ ^ 3 * (6 * |c.det|) := by gcongr
    rw [mul_pow] at g1 ⊢
    rw [mul_pow] at g3
    have g4 : 0 ≤ ρ ^ 3 * |c.det| := by positivity
    have g5 : 0 ≤ ρ ^ 3 * l ^ 3 := by positivity
    norm_num at g3 ⊢
    linarith
  have ρ3 : ρ ^ 3 ≤ 216000 := by
    calc ρ ^ 3 ≤ 60 ^ 3 := by gcongr
      _ = 216000 := by norm_num
  obtain ⟨inf, i1, i2, -, -⟩ := c149_information hrd packets h (B := 1.001 * B) (κ := 6.1 * ρ ^ 3) (by norm_num at hB ⊢; linarith)
    (by norm_num at hB' ⊢; linarith) cB κ1 (by norm_num; linarith)
  -- how far it is from the inverse of `a`
  have near : ∀ i j, |inf i j - a⁻¹ i j| ≤ (5.3e-13 * ρ ^ 6 + 3.1 * η * ρ ^ 2) * (1 / B) := fun i j => by
    have g1 := i2 i j
    have g2 := inv_near hl hq hμ qc hc i j
    have g3 : 1.4e-14 * (6.1 * ρ ^ 3) ^ 2 / (1.001 * B) ≤ 5.3e-13 * ρ ^ 6 * (1 / B) := by
      rw [mul_one_div, div_le_div_iff₀ (by positivity) hB0]
      have : 0 ≤ ρ ^ 6 * B := by positivity
      ring_nf at this ⊢
      norm_num at this ⊢
      linarith
    have g4 : 3 * (η * B) / (l * (0.999 * l)) ≤ 3.1 * η * ρ ^ 2 * (1 / B) := by
      rw [mul_one_div, div_le_div_iff₀ (by positivity) hB0]
      have h1 : B ^ 2 ≤ (ρ * l) ^ 2 := pow_le_pow_left₀ hB0.le hρ 2
      have h2 : η * B ^ 2 ≤ η * (ρ * l) ^ 2 := by gcongr
      have h3 : 0 ≤ η * (ρ * l) ^ 2 := by positivity
      ring_nf at h2 h3 ⊢
      norm_num at h2 h3 ⊢
      linarith
    have g5 := abs_sub_le (inf i j) (c⁻¹ i j) (a⁻¹ i j)
    have g6 : (5.3e-13 * ρ ^ 6 + 3.1 * η * ρ ^ 2) * (1 / B) = 5.3e-13 * ρ ^ 6 * (1 / B) + 3.1 * η * ρ ^ 2 * (1 / B) := by ring
    rw [g6]
    linarith
  have ρ6 : ρ ^ 6 ≤ 46656000000 := by
    calc ρ ^ 6 ≤ 60 ^ 6 := by gcongr
      _ = 46656000000 := by norm_num
  have ρ2 : η * ρ ^ 2 ≤ 1e-6 * 3600 := by
    have : ρ ^ 2 ≤ 3600 := by
      calc ρ ^ 2 ≤ 60 ^ 2 := by gcongr
        _ = 3600 := by norm_num
    gcongr
  have small : 5.3e-13 * ρ ^ 6 + 3.1 * η * ρ ^ 2 ≤ 0.04 := by
    norm_num at ρ2 ρ6 ⊢
    linarith
  have near2 : ∀ i j, |inf i j - a⁻¹ i j| ≤ 0.04 * (1 / B) := fun i j => (near i j).trans (by gcongr)
  have hp : a.PosDef := posDef_of_quad hs fun v hv => by
    have n : 0 < normSq v := by
      rcases (normSq_nonneg v).lt_or_eq with g | g
      · exact g
      · exfalso
        refine hv (funext fun i => ?_)
        have := sq_le_normSq v i
        rw [← g] at this
        exact pow_eq_zero_iff (n := 2) (by norm_num) |>.mp (le_antisymm this (sq_nonneg _))
    exact lt_of_lt_of_le (by positivity) (hq v)
  have invs : ∀ i j, a⁻¹ i j = a⁻¹ j i := posDef_symm hp.inv
  have mir : ∀ (e : ℝ), (∀ i j, |inf i j - a⁻¹ i j| ≤ e) → ∀ i j, |mirrored inf i j - a⁻¹ i j| ≤ e := fun e he i j => by
    unfold mirrored
    rcases le_total i j with hij | hij
    · rw [max_eq_right hij, min_eq_left hij, invs i j]; exact he j i
    · rw [max_eq_left hij, min_eq_right hij]; exact he i j
  obtain ⟨L, q1, q2, q3, q4⟩ := c149_weight hrd (m := fun i j => .fin (mirrored inf i j)) (a := mirrored inf) (fun _ _ => rfl)
    (fun i j => by unfold mirrored; rw [max_comm, min_comm]) (D := 1.1 * (ρ * (1 / B))) (l := 0.2 * (1 / B))
    (by
      have h1 : 1e-59 ≤ 1 / B := by
        rw [le_div_iff₀ hB0]
        calc 1e-59 * B ≤ 1e-59 * 1e59 := by gcongr
          _ ≤ 1 := by norm_num
      have h2 : 1 * (1 / B) ≤ ρ * (1 / B) := by gcongr
      generalize 1 / B = b at *
      norm_num at h1 h2 ⊢
      linarith)
    (fun i => by
      have h1 := abs_le.mp (mir _ near2 i i)
      have h2 := (abs_le.mp (inv_entry hl hq i i)).2
      have h3 : 1 * (1 / B) ≤ ρ * (1 / B) := by gcongr
      generalize 1 / B = b at *
      norm_num at h1 h3 ⊢
      linarith [h1.2])
    (by
      have h3 : ρ * (1 / B) ≤ 60 * (1 / B) := by gcongr
      generalize 1 / B = b at *
      norm_num at h3 ⊢
      linarith)
    (fun x => by
      have h1 := quad_near (mir _ near2) x
      have h2 := quad_inv hp hB0 ha x
      have h3 := mul_nonneg b0.le (normSq_nonneg x)
      have e : 1 / (3 * B) = 1 / 3 * (1 / B) := by ring
      rw [e] at h2
      generalize 1 / B = b at *
      norm_num at h1 h2 ⊢
      linarith)
  refine ⟨L, by rw [matrixL_mirrored i1]; exact q1, q2, q3, fun i j => ?_⟩
  have g1 := q4 i j
  have g2 := mir _ near i j
  have g3 := abs_sub_le ((L * L.transpose) i j) (mirrored inf i j) (a⁻¹ i j)
  have g4 : ρ * (1 / B) ≤ ρ ^ 6 * (1 / B) := by
    gcongr
    calc ρ = ρ * 1 := (mul_one _).symm
      _ ≤ ρ * ρ ^ 5 := by gcongr; exact one_le_pow₀ hρ1
      _ = ρ ^ 6 := by ring
  have g5 : 0 ≤ η * ρ ^ 2 * (1 / B) := by positivity
  have g6 : 0 ≤ ρ ^ 6 * (1 / B) := by positivity
  have e : (6e-13 * ρ ^ 6 + 4 * η * ρ ^ 2) / B = 6e-13 * (ρ ^ 6 * (1 / B)) + 4 * (η * ρ ^ 2 * (1 / B)) := by ring
  have e2 : (5.3e-13 * ρ ^ 6 + 3.1 * η * ρ ^ 2) * (1 / B) = 5.3e-13 * (ρ ^ 6 * (1 / B)) + 3.1 * (η * ρ ^ 2 * (1 / B)) := by ring
  rw [e]
  rw [e2] at g2
  norm_num at g1 g2 g4 g5 g6 ⊢
  linarith

theorem sumOver_abs {L : List Pose2d} {f w : Pose2d → ℝ} {C : ℝ} (h : ∀ o ∈ L, |f o| ≤ C * w o) : |sumOver L f| ≤ C * sumOver L w := by
  induction L with
  | nil => simp [sumOver]
  | cons o L ih =>
    have h1 := h o List.mem_cons_self
    have h2 := ih fun q hq => h q (List.mem_cons_of_mem _ hq)
    simp only [sumOver, List.map_cons, List.sum_cons] at h2 ⊢
    rw [mul_add]
    exact (abs_add_le _ _).trans (add_le_add h1 h2)

theorem momentOf_symm (L : List Pose2d) (w : Pose2d → ℝ) (i j : Fin 3) : momentOf L w i j = momentOf L w j i := by
  unfold momentOf
  have : (fun o => offsetCoord i o * offsetCoord j o * w o) = fun o => offsetCoord j o * offsetCoord i o * w o := by
    funext o; ring
  rw [this, mul_comm (sumOver L (fun o => offsetCoord i o * w o) / sumOver L w)]

theorem momentOf_le {L : List Pose2d} {w : Pose2d → ℝ} (hw : ∀ o ∈ L, 0 ≤ w o) (hS : 0 < sumOver L w) {X : ℝ} (hX : 0 ≤ X)
    (ho : ∀ o ∈ L, ∀ i, |offsetCoord i o| ≤ X) (i j : Fin 3) : |momentOf L w i j| ≤ 2 * X ^ 2 := by
  have m1 : ∀ i, |sumOver L (fun o => offsetCoord i o * w o) / sumOver L w| ≤ X := fun i => by
    rw [abs_div, abs_of_pos hS, div_le_iff₀ hS]
    refine sumOver_abs fun o hm => ?_
    rw [abs_mul, abs_of_nonneg (hw o hm)]
    exact mul_le_mul_of_nonneg_right (ho o hm i) (hw o hm)
  have m2 : |sumOver L (fun o => offsetCoord i o * offsetCoord j o * w o) / sumOver L w| ≤ X * X := by
    rw [abs_div, abs_of_pos hS, div_le_iff₀ hS]
    refine sumOver_abs fun o hm => ?_
    rw [abs_mul, abs_of_nonneg (hw o hm), abs_mul]
    exact mul_le_mul_of_nonneg_right (mul_le_mul (ho o hm i) (ho o hm j) (abs_nonneg _) hX) (hw o hm)
  have m3 : |sumOver L (fun o => offsetCoord i o * w o) / sumOver L w * (sumOver L (fun o => offsetCoord j o * w o) / sumOver L w)| ≤ X * X := by
    rw [abs_mul]
    exact mul_le_mul (m1 i) (m1 j) (abs_nonneg _) hX
  unfold momentOf
  refine (abs_add_le _ _).trans ?_
  linarith

theorem sumOver_square (L : List Pose2d) (w : Pose2d → ℝ) (a b c : ℝ) : sumOver L (fun o => (a * o.x + b * o.y + c * o.theta) ^ 2 * w o) =
    a ^ 2 * sumOver L (fun o => o.x * o.x * w o) + b ^ 2 * sumOver L (fun o => o.y * o.y * w o) +
      c ^ 2 * sumOver L (fun o => o.theta * o.theta * w o) + 2 * a * b * sumOver L (fun o => o.y * o.x * w o) +
      2 * a * c * sumOver L (fun o => o.theta * o.x * w o) + 2 * b * c * sumOver L (fun o => o.theta * o.y * w o) := by
  induction L with
  | nil => simp [sumOver]
  | cons o L ih =>
    simp only [sumOver, List.map_cons, List.sum_cons] at ih ⊢
    rw [ih]
    ring

theorem momentOf_quad {L : List Pose2d} {w : Pose2d → ℝ} (hS : 0 < sumOver L w) {l : ℝ} (h : SpreadAll L w l) (x : Fin 3 → ℝ) :
    l * normSq x ≤ quad (momentOf L w) x := by
  have g := h (x 0) (x 1) (x 2)
  rw [sumOver_square] at g
  rw [quad_three, momentOf_symm L w 0 1, momentOf_symm L w 0 2, momentOf_symm L w 1 2]
  unfold momentOf normSq
  simp only [offsetCoord, Matrix.cons_val_zero, Matrix.cons_val_one, Matrix.cons_val]
  set S := sumOver L w
  generalize sumOver L (fun o => o.x * o.x * w o) = xx at *
  generalize sumOver L (fun o => o.y * o.y * w o) = yy at *
  generalize sumOver L (fun o => o.theta * o.theta * w o) = tt at *
  generalize sumOver L (fun o => o.y * o.x * w o) = yx at *
  generalize sumOver L (fun o => o.theta * o.x * w o) = tx at *
  generalize sumOver L (fun o => o.theta * o.y * w o) = ty at *
  generalize sumOver L (fun o => o.x * w o) / S = mx at *
  generalize sumOver L (fun o => o.y * w o) / S = my at *
  generalize sumOver L (fun o => o.theta * w o) / S = mt at *
  have k : l * (x 0 ^ 2 + x 1 ^ 2 + x 2 ^ 2) ≤
      (x 0 ^ 2 * xx + x 1 ^ 2 * yy + x 2 ^ 2 * tt + 2 * x 0 * x 1 * yx + 2 * x 0 * x 2 * tx + 2 * x 1 * x 2 * ty) / S := by
    rw [le_div_iff₀ hS]; exact g
  have e : (x 0 ^ 2 * xx + x 1 ^ 2 * yy + x 2 ^ 2 * tt + 2 * x 0 * x 1 * yx + 2 * x 0 * x 2 * tx + 2 * x 1 * x 2 * ty) / S =
      x 0 ^ 2 * (xx / S) + x 1 ^ 2 * (yy / S) + x 2 ^ 2 * (tt / S) + 2 * x 0 * x 1 * (yx / S) + 2 * x 0 * x 2 * (tx / S) +
        2 * x 1 * x 2 * (ty / S) := by ring
  rw [e] at k
  linarith [sq_nonneg (x 0 * mx + x 1 * my + x 2 * mt)]

/-- **C150** From matching a scan to the weight of its constraint, with everything computed in doubles: if the offsets that were tried, weighted by
their likelihoods `w`, spread in every direction, the weight is lower triangular with a positive diagonal and, up to the stated error, a factor of
the inverse of the exact moments. No constraint of such a match is lost to rounding. -/
theorem c150_weight_of_match (hrd : RoundsToNearest rd) (packets : Bool) {mt : Matcher} {g : NdtGrid} (hg : mt.ndt = some g) {A B : ℕ}
    (hAB : SearchSize rd mt A B) {scan : Scan} {pose : Pose2d} {cov : Mat3F} {r : Matcher.MatchResult}
    (h : matchScan rd co si mt scan pose cov = .ok r) {w : Pose2d → ℝ}
    (hw : ∀ o ∈ offsets rd mt A B, 0 ≤ w o ∧
      likelihoodAt rd co si g scan.points (min mt.laserMaxBeams scan.points.length) scan.pose o = .ok (.fin (w o)))
    (hn : (offsets rd mt A B).length ≤ 10 ^ 8) (hS : 2⁻¹ ^ 30 ≤ sumOver (offsets rd mt A B) w)
    (hS2 : sumOver (offsets rd mt A B) w ≤ 2 ^ 60) {X : ℝ} (hX : 2⁻¹ ^ 40 ≤ X) (hX2 : X ≤ 1e29)
    (ho : ∀ o ∈ offsets rd mt A B, ∀ i, |offsetCoord i o| ≤ X) {l ρ : ℝ} (hl : 0 < l) (hsp : SpreadAll (offsets rd mt A B) w l)
    (hρ : 2 * X ^ 2 ≤ ρ * l) (hρ2 : ρ ≤ 60) :
    ∃ L : Matrix (Fin 3) (Fin 3) ℝ, IsReal (Rounded.matrixL rd (Rounded.inverse3 rd packets r.covariance)) L ∧ (∀ i j, i < j → L i j = 0) ∧
      (∀ i, 0 < L i i) ∧ ∀ i j, |(L * L.transpose) i j - (momentOf (offsets rd mt A B) w)⁻¹ i j| ≤
        (6e-13 * ρ ^ 6 + 4 * ((offsets rd mt A B).length * 2⁻¹ ^ 47) * ρ ^ 2) / (2 * X ^ 2) := by
  have hX0 : 0 < X := lt_of_lt_of_le (by positivity) hX
  have hS0 : 0 < sumOver (offsets rd mt A B) w := lt_of_lt_of_le (by positivity) hS
  have key := c137_covariance hrd hg hAB h hw (hn.trans (by norm_num)) hS hS2 (X := fun _ => X) (fun _ => hX) ho
  obtain ⟨c, c1, c2⟩ : ∃ c : Matrix (Fin 3) (Fin 3) ℝ, (∀ i j, r.covariance i j = .fin (c i j)) ∧
      ∀ i j, |c i j - momentOf (offsets rd mt A B) w i j| ≤ (offsets rd mt A B).length * 2⁻¹ ^ 46 * (X * X) := by
    choose c c1 c2 using key
    exact ⟨c, c1, c2⟩
  refine c150_weight_near hrd packets (m := r.covariance) (a := momentOf (offsets rd mt A B) w) c1 (momentOf_symm _ _) (B := 2 * X ^ 2)
    (l := l) ?_ ?_ (momentOf_le (fun o hm => (hw o hm).1) hS0 hX0.le ho) hl (momentOf_quad hS0 hsp) hρ hρ2 ?_ fun i j => ?_
  · have : ((2⁻¹ : ℝ) ^ 40) ^ 2 ≤ X ^ 2 := pow_le_pow_left₀ (by positivity) hX 2
    norm_num at this ⊢
    linarith
  · have : X ^ 2 ≤ (1e29) ^ 2 := pow_le_pow_left₀ hX0.le hX2 2
    norm_num at this ⊢
    linarith
  · have : ((offsets rd mt A B).length : ℝ) ≤ 10 ^ 8 := by exact_mod_cast hn
    generalize ((offsets rd mt A B).length : ℝ) = n at *
    norm_num at this ⊢
    linarith
  · refine (c2 i j).trans (le_of_eq ?_)
    rw [show (2⁻¹ : ℝ) ^ 46 = 2 * 2⁻¹ ^ 47 by norm_num]
    ring

/-! ## Cases -/

/-- A covariance that is not symmetric, near one that is. -/
example : ∃ L : Matrix (Fin 3) (Fin 3) ℝ,
    IsReal (Rounded.matrixL rnd (Rounded.inverse3 rnd false fun i j => .fin (demoCov i j + if i < j then 1e-9 else 0))) L ∧
      (∀ i j, i < j → L i j = 0) ∧ (∀ i, 0 < L i i) ∧
      ∀ i j, |(L * L.transpose) i j - demoCov⁻¹ i j| ≤ (6e-13 * 2 ^ 6 + 4 * 5e-10 * 2 ^ 2) / 2 :=
  c150_weight_near rnd_rounds false (c := fun i j => demoCov i j + if i < j then 1e-9 else 0) (fun _ _ => rfl) (posDef_symm demoCov_posDef)
    (l := 1) (B := 2) (by norm_num) (by norm_num) demoCov_le one_pos
    (fun x => by
      rw [quad_three]
      simp [demoCov, normSq]
      nlinarith [sq_nonneg (x 0 + x 1)]) (by norm_num) (by norm_num) (by norm_num)
    (fun i j => by
      fin_cases i <;> fin_cases j <;> simp <;> norm_num)

/-- A search of two angles and two by two shifts, all of one size. -/
def eightShifts : Matcher :=
  { resolution := 4, angularRes := 1 / 2, angularSize := 1 / 2, linearRes := 1 / 2, linearSize := 1 / 2, laserMaxBeams := 100, rangeMax := 10, ndt := none }

theorem eightShifts_size (g : NdtGrid) : SearchSize rnd { eightShifts with ndt := some g } 2 2 :=
  ⟨two_values (x := 1 / 2) (by norm_num) half_double, two_values (x := 1 / 2) (by norm_num) half_double⟩

/-- A third, rounded, and three times that, rounded, is one. -/
theorem third_of_three : rnd (rnd (1 / 3) * 3) = 1 := by
  have h1 : rnd (1 / 3) = 6004799503160661 / 2 ^ 54 := by
    refine rnd_eval' (k := 6004799503160661) 54 (by norm_num) (Or.inl ⟨by norm_num, by norm_num⟩) (Or.inl ⟨by norm_num, by norm_num⟩) |>.trans ?_
    norm_num
  rw [h1]
  have h2 : rnd (6004799503160661 / 2 ^ 54 * 3) = (9007199254740992 : ℤ) / 2 ^ 53 :=
    rnd_eval' (k := 9007199254740992) 53 (by norm_num) (Or.inl ⟨by norm_num, by norm_num⟩)
      (Or.inr ⟨Or.inl (by norm_num), by decide⟩)
  rw [h2]
  norm_num

theorem corners_mean : (cellOf rnd eigenvalues cornersAndMiddle).mean = ⟨0, 0⟩ := by
  have e : (cellOf rnd eigenvalues cornersAndMiddle).mean = (cornersAndMiddle.foldl (addPoint rnd) Cell.new).mean := by
    unfold cellOf compute
    split <;> rfl
  have nat : ∀ n : ℕ, n < 2 ^ 53 → rnd n = n := fun n hn => rnd_rounds.exact (isDouble_nat hn)
  have r1 := nat 1 (by norm_num)
  have r2 := nat 2 (by norm_num)
  have r3 := nat 3 (by norm_num)
  have r4 := nat 4 (by norm_num)
  have r5 := nat 5 (by norm_num)
  norm_num at r1 r2 r3 r4 r5
  have t := third_of_three
  norm_num at t
  rw [e]
  simp only [cornersAndMiddle, List.foldl_cons, List.foldl_nil, addPoint, avgStep, Cell.new]
  norm_num [rnd_zero, r1, r2, r3, r4, r5, t]

theorem three_points {g : NdtGrid} (hup : ∀ p v, likelihood rnd g p = .ok v → Upto 1 v) {p1 p2 p3 : Point} {x : ℝ}
    (h : likelihoodPoints rnd g [p1, p2, p3] = .ok (.fin x))
    (h1 : likelihood rnd g p1 = .ok (.fin 1) ∨ likelihood rnd g p2 = .ok (.fin 1) ∨ likelihood rnd g p3 = .ok (.fin 1)) : 1 ≤ x := by
  unfold likelihoodPoints at h
  simp only [List.foldlM_cons, List.foldlM_nil] at h
  cases e1 : likelihood rnd g p1 with
  | error e => rw [e1] at h; cases h
  | ok v1 =>
    cases e2 : likelihood rnd g p2 with
    | error e => rw [e1, e2] at h; cases h
    | ok v2 =>
      cases e3 : likelihood rnd g p3 with
      | error e => rw [e1, e2, e3] at h; cases h
      | ok v3 =>
        obtain ⟨a, rfl, ha⟩ := hup _ _ e1
        obtain ⟨b, rfl, hb⟩ := hup _ _ e2
        obtain ⟨c, rfl, hc⟩ := hup _ _ e3
        rw [e1, e2, e3] at h
        rw [e1, e2, e3] at h1
        have hx : rnd (rnd (rnd (0 + a) + b) + c) = x := Fl.fin.inj (Except.ok.inj h)
        rw [← hx]
        have n1 : 0 ≤ rnd (0 + a) := rnd_rounds.nonneg (by linarith [ha.1])
        have n2 : 0 ≤ rnd (rnd (0 + a) + b) := rnd_rounds.nonneg (by linarith [hb.1])
        refine rnd_rounds.ge_of_ge isDouble_one ?_
        rcases h1 with h | h | h
        · have := Fl.fin.inj (Except.ok.inj h)
          have k1 : 1 ≤ rnd (0 + a) := rnd_rounds.ge_of_ge isDouble_one (by linarith)
          have k2 : 1 ≤ rnd (rnd (0 + a) + b) := rnd_rounds.ge_of_ge isDouble_one (by linarith [hb.1])
          linarith [hc.1]
        · have := Fl.fin.inj (Except.ok.inj h)
          have k2 : 1 ≤ rnd (rnd (0 + a) + b) := rnd_rounds.ge_of_ge isDouble_one (by linarith [hb.1])
          linarith [hc.1]
        · have := Fl.fin.inj (Except.ok.inj h)
          linarith

/-- Three points of a scan: one on the mean of the map, and two beside it. -/
def threePoints : List Point := [⟨0, 0⟩, ⟨1 / 2, 0⟩, ⟨0, 1 / 2⟩]

theorem threePoints_outer {t : ℝ} (ht : IsDouble t) : outerPoints rnd Demo.cosR Demo.sinR threePoints 3 Pose2d.zero t =
    .ok (threePoints.map fun p => ⟨rnd (turnX rnd Demo.cosR Demo.sinR t p), rnd (turnY rnd Demo.cosR Demo.sinR t p)⟩) := by
  have nat : ∀ n : ℕ, n < 2 ^ 53 → rnd n = n := fun n hn => rnd_rounds.exact (isDouble_nat hn)
  have hb : ∀ (i : ℕ) (p : Point), threePoints[i]? = some p → beam rnd threePoints 3 i = .ok p := by
    intro i p hi
    have i3 : i < 3 := by
      obtain ⟨h, -⟩ := List.getElem?_eq_some_iff.mp hi
      exact h
    unfold beam beamIndex
    have l3 : threePoints.length = 3 := rfl
    rw [l3, nat 3 (by norm_num), div_self (by norm_num), rnd_rounds.exact isDouble_one, mul_one, nat i (i3.trans (by norm_num)), nat i (i3.trans (by norm_num))]
    have : toU64F (.fin (i : ℝ)) = .ok i := by
      show toU64 (i : ℝ) = _
      have i3' : (i : ℝ) < 3 := by exact_mod_cast i3
      rw [toU64_of_nonneg (by positivity) (by linarith)]
      simp
    rw [this]
    simp only [Res.ok_bind, hi]
    rfl
  unfold outerPoints
  have er : List.range 3 = [0, 1, 2] := rfl
  rw [er]
  simp only [List.mapM_cons, List.mapM_nil, hb 0 _ rfl, hb 1 _ rfl, hb 2 _ rfl, Res.ok_bind, Pose2d.zero, zero_add, add_zero, rnd_rounds.exact ht]
  rfl

/-- The hypotheses of `c150_weight_of_match`: the map of `corner_map`, searched with the offsets of `eightShifts`. -/
example : ∃ g w r, ({ eightShifts with ndt := some g } : Matcher).ndt = some g ∧ SearchSize rnd { eightShifts with ndt := some g } 2 2 ∧
    (offsets rnd { eightShifts with ndt := some g } 2 2).length = 8 ∧
    matchScan rnd Demo.cosR Demo.sinR { eightShifts with ndt := some g } (Demo.scanOf threePoints) Pose2d.zero (fun _ _ => .fin 0) = .ok r ∧
    (∀ o ∈ offsets rnd { eightShifts with ndt := some g } 2 2, 0 ≤ w o ∧
      likelihoodAt rnd Demo.cosR Demo.sinR g threePoints 3 Pose2d.zero o = .ok (.fin (w o))) ∧
    4 ≤ sumOver (offsets rnd { eightShifts with ndt := some g } 2 2) w ∧ sumOver (offsets rnd { eightShifts with ndt := some g } 2 2) w ≤ 24 ∧
    (∀ o ∈ offsets rnd { eightShifts with ndt := some g } 2 2, ∀ i, |offsetCoord i o| ≤ 1 / 2) ∧
    SpreadAll (offsets rnd { eightShifts with ndt := some g } 2 2) w (1 / 96) ∧ (2 : ℝ) * (1 / 2) ^ 2 ≤ 48 * (1 / 96) := by
  obtain ⟨g, h1, ⟨cells, hc⟩, h2, h3, h4, idx⟩ := corner_map
  have hspread : Spec.WellSpread rnd Demo.cosR Demo.sinR g [Demo.scanOf cornersAndMiddle] 1 := by
    intro i hi
    by_cases h : i = 14
    · subst h
      rw [h4]
      refine ⟨by simp [cornersAndMiddle], cornersAndMiddle_within, ?_⟩
      intro v w
      refine le_trans ?_ (cornersAndMiddle_spread v w)
      refine mul_le_mul_of_nonneg_right ?_ (by positivity)
      simp only [cornersAndMiddle, List.length_cons, List.length_nil]
      norm_num
    · rw [h3 i h] at hi
      simp at hi
  have hn5 : ¬ (cellOf rnd eigenvalues cornersAndMiddle).n < 5 := by
    rw [(c98_mean_accurate rnd_rounds 1 (pow_le_one₀ (by norm_num) (by norm_num)) cornersAndMiddle (by simp [cornersAndMiddle])
      cornersAndMiddle_within eigenvalues).2.2]
    simp [cornersAndMiddle]
  have hlik : likelihood rnd g ⟨0, 0⟩ = .ok (score rnd (cellOf rnd eigenvalues cornersAndMiddle) ⟨0, 0⟩) := by
    unfold likelihood
    rw [hc] at h2 ⊢
    rw [idx 0 0 (by norm_num) (by norm_num) (by norm_num) (by norm_num)]
    simp only [Res.ok_bind]
    rw [if_pos (by positivity), Int.toNat_natCast, h2]
    rfl
  have hup := spread_likelihood rnd_rounds eigenvalues_accurate h1 rfl (by norm_num [Demo.matcher])
    (by norm_num [Demo.matcher]) (by rw [hc]; norm_num [abs_le]) (by rw [hc]; norm_num [abs_le]) (B := 1)
    (pow_le_one₀ (by norm_num) (by norm_num)) (one_le_pow₀ (by norm_num)) hspread
  obtain ⟨x, hx, -, -⟩ := hup _ _ hlik
  have hx' := hx
  rw [← corners_mean] at hx'
  cases score_at_mean rnd_rounds hn5 hx'
  rw [hx] at hlik
  have p1000 : (2⁻¹ : ℝ) ^ 1000 ≤ 1 / 2 := by
    rw [show (1000 : ℕ) = 999 + 1 by norm_num, pow_succ]
    have : (2⁻¹ : ℝ) ^ 999 ≤ 1 := pow_le_one₀ (by norm_num) (by norm_num)
    have := mul_le_mul_of_nonneg_right this (by norm_num : (0 : ℝ) ≤ 2⁻¹)
    exact this.trans (le_of_eq (by norm_num))
  obtain ⟨mt', r, e1, -, e2⟩ := c129_map_and_match_return rnd_rounds accurate_demo eigenvalues (P := 100) (by norm_num) (mt := eightShifts)
    ⟨by norm_num [eightShifts], by norm_num [eightShifts], by norm_num [eightShifts]⟩
    ⟨half_double, by norm_num [eightShifts], by norm_num [eightShifts], p1000, half_double, by norm_num [eightShifts], p1000⟩ (scans := [Demo.scanOf cornersAndMiddle]) (by simp)
    (demoScan_within _ (fun q hq => ⟨(cornersAndMiddle_within q hq).1.trans (by norm_num), (cornersAndMiddle_within q hq).2.trans (by norm_num)⟩))
    (scan := Demo.scanOf threePoints) (demoScan_within _ (by
      intro q hq
      simp only [threePoints, List.mem_cons, List.not_mem_nil, or_false] at hq
      rcases hq with rfl | rfl | rfl <;> norm_num [abs_le]) _ (List.mem_singleton_self _)) (by simp [Demo.scanOf, threePoints]) Pose2d.zero (fun _ _ => .fin 0)
  have emt : mt' = { eightShifts with ndt := some g } := by
    unfold addScans at h1 e1
    have r1 : eightShifts.resolution = (Demo.matcher 4 10).resolution := rfl
    have r2 : eightShifts.rangeMax = (Demo.matcher 4 10).rangeMax := rfl
    rw [r1, r2] at e1
    cases f1 : mapGrid rnd (Demo.matcher 4 10).resolution (Demo.matcher 4 10).rangeMax [Demo.scanOf cornersAndMiddle] with
    | error e => rw [f1] at h1; cases h1
    | ok g0 =>
      rw [f1] at h1 e1
      simp only [Res.ok_bind] at h1 e1
      cases f2 : [Demo.scanOf cornersAndMiddle].foldlM (addScan rnd Demo.cosR Demo.sinR) g0 with
      | error e => rw [f2] at h1; cases h1
      | ok g1 =>
        rw [f2] at h1 e1
        simp only [Res.ok_bind] at h1 e1
        have := congrArg Matcher.ndt (Except.ok.inj h1)
        have e3 := Except.ok.inj e1
        rw [← e3]
        have this' : some (computeAll rnd eigenvalues g1) = some g := this
        rw [this']
        rfl
  rw [emt] at e2
  have hsize := eightShifts_size g
  have hall : ∀ o ∈ offsets rnd { eightShifts with ndt := some g } 2 2, ∃ x, likelihoodAt rnd Demo.cosR Demo.sinR g threePoints 3 Pose2d.zero o = .ok (.fin x) ∧
      0 ≤ x ∧ x ≤ 3 := by
    intro o ho
    simp only [offsets, List.mem_flatMap, List.mem_map, List.mem_range] at ho
    obtain ⟨i, hi, j, hj, k, hk, rfl⟩ := ho
    obtain ⟨v, hv⟩ := (c128_best_of_the_offsets rfl e2).1 i j k ⟨(hsize.1 i).mp hi, (hsize.2 j).mp hj, (hsize.2 k).mp hk⟩
    obtain ⟨x, rfl, hx⟩ := likelihoodAt_upto rnd_rounds hup (by norm_num [Demo.scanOf, eightShifts, threePoints]) hv
    refine ⟨x, hv, hx.1, hx.2.trans ?_⟩
    norm_num [Demo.scanOf, eightShifts, threePoints]
  choose! w hw using hall
  have v0 : ∀ x : ℝ, searchVal rnd x x 0 = -x := fun x => rfl
  have v1 : ∀ x : ℝ, searchVal rnd x x 1 = 0 := by
    intro x
    show rnd (-x + x) = 0
    rw [neg_add_cancel, rnd_zero]
  have eo : offsets rnd { eightShifts with ndt := some g } 2 2 = [⟨-(1 / 2), -(1 / 2), -(1 / 2)⟩, ⟨-(1 / 2), 0, -(1 / 2)⟩, ⟨0, -(1 / 2), -(1 / 2)⟩, ⟨0, 0, -(1 / 2)⟩,
      ⟨-(1 / 2), -(1 / 2), 0⟩, ⟨-(1 / 2), 0, 0⟩, ⟨0, -(1 / 2), 0⟩, ⟨0, 0, 0⟩] := by
    simp [offsets, List.range_succ, offsetOf, eightShifts, v0, v1]
  have hgt : ∀ o ∈ [(⟨0, 0, -(1 / 2)⟩ : Pose2d), ⟨-(1 / 2), 0, 0⟩, ⟨0, -(1 / 2), 0⟩, ⟨0, 0, 0⟩], 1 ≤ w o := by
    intro o ho
    have hm : o ∈ offsets rnd { eightShifts with ndt := some g } 2 2 := by
      rw [eo]
      simp only [List.mem_cons, List.not_mem_nil, or_false] at ho ⊢
      tauto
    have h := (hw o hm).1
    unfold likelihoodAt at h
    have d0 : IsDouble 0 := isDouble_zero
    have dm : IsDouble (-(1 / 2)) := isDouble_neg half_double
    have ht : IsDouble o.theta := by
      simp only [List.mem_cons, List.not_mem_nil, or_false] at ho
      rcases ho with rfl | rfl | rfl | rfl
      · exact dm
      · exact d0
      · exact d0
      · exact d0
    rw [threePoints_outer ht] at h
    simp only [Res.ok_bind, shiftedScore, threePoints, List.map_cons, List.map_nil] at h
    refine three_points hup h ?_
    have hh : rnd 2⁻¹ = 2⁻¹ := by simpa using rnd_rounds.exact half_double
    have c0 : Demo.cosR 0 = 1 := by unfold Demo.cosR; rw [Real.cos_zero, rnd_rounds.exact isDouble_one]
    have s0 : Demo.sinR 0 = 0 := by unfold Demo.sinR; rw [Real.sin_zero, rnd_zero]
    simp only [List.mem_cons, List.not_mem_nil, or_false] at ho
    rcases ho with rfl | rfl | rfl | rfl
    · left
      simpa [turnX, turnY, rnd_zero] using hlik
    · right; left
      simpa [turnX, turnY, rnd_zero, c0, s0, hh] using hlik
    · right; right
      simpa [turnX, turnY, rnd_zero, c0, s0, hh] using hlik
    · left
      simpa [turnX, turnY, rnd_zero] using hlik
  simp only [List.mem_cons, List.not_mem_nil, or_false, forall_eq_or_imp, forall_eq] at hgt
  obtain ⟨g1, g2, g3, g4⟩ := hgt
  have hlo : ∀ o ∈ offsets rnd { eightShifts with ndt := some g } 2 2, ∀ i, |offsetCoord i o| ≤ 1 / 2 := by
    rw [eo]
    intro o ho i
    simp only [List.mem_cons, List.not_mem_nil, or_false] at ho
    rcases ho with rfl | rfl | rfl | rfl | rfl | rfl | rfl | rfl <;> fin_cases i <;> norm_num [offsetCoord, abs_le]
  refine ⟨g, w, r, rfl, hsize, by rw [eo]; rfl, e2, fun o ho => ⟨(hw o ho).2.1, (hw o ho).1⟩, ?_, ?_, hlo, ?_, by norm_num⟩
  all_goals
    rw [eo] at hw ⊢
    simp only [List.mem_cons, List.not_mem_nil, or_false, forall_eq_or_imp, forall_eq] at hw
    obtain ⟨q1, q2, q3, q4, q5, q6, q7, q8⟩ := hw
  · simp only [sumOver, List.map_cons, List.map_nil, List.sum_cons, List.sum_nil]
    linarith [q1.2.1, q2.2.1, q3.2.1, q5.2.1]
  · simp only [sumOver, List.map_cons, List.map_nil, List.sum_cons, List.sum_nil]
    linarith [q1.2.2, q2.2.2, q3.2.2, q4.2.2, q5.2.2, q6.2.2, q7.2.2, q8.2.2]
  · intro a b c
    simp only [sumOver, List.map_cons, List.map_nil, List.sum_cons, List.sum_nil]
    have up := mul_le_mul_of_nonneg_left (show _ ≤ (24 : ℝ) from by
      linarith [q1.2.2, q2.2.2, q3.2.2, q4.2.2, q5.2.2, q6.2.2, q7.2.2, q8.2.2] :
        w ⟨-(1 / 2), -(1 / 2), -(1 / 2)⟩ + (w ⟨-(1 / 2), 0, -(1 / 2)⟩ + (w ⟨0, -(1 / 2), -(1 / 2)⟩ + (w ⟨0, 0, -(1 / 2)⟩ +
          (w ⟨-(1 / 2), -(1 / 2), 0⟩ + (w ⟨-(1 / 2), 0, 0⟩ + (w ⟨0, -(1 / 2), 0⟩ + (w ⟨0, 0, 0⟩ + 0))))))) ≤ 24)
      (by positivity : (0 : ℝ) ≤ 1 / 96 * (a ^ 2 + b ^ 2 + c ^ 2))
    refine up.trans ?_
    have n1 := mul_nonneg (sq_nonneg (a * -(1 / 2) + b * -(1 / 2) + c * -(1 / 2))) q1.2.1
    have n2 := mul_nonneg (sq_nonneg (a * -(1 / 2) + b * 0 + c * -(1 / 2))) q2.2.1
    have n3 := mul_nonneg (sq_nonneg (a * 0 + b * -(1 / 2) + c * -(1 / 2))) q3.2.1
    have n5 := mul_nonneg (sq_nonneg (a * -(1 / 2) + b * -(1 / 2) + c * 0)) q5.2.1
    have n8 := mul_nonneg (sq_nonneg (a * 0 + b * 0 + c * 0)) q8.2.1
    have m1 := mul_le_mul_of_nonneg_left g1 (sq_nonneg (a * 0 + b * 0 + c * -(1 / 2)))
    have m2 := mul_le_mul_of_nonneg_left g2 (sq_nonneg (a * -(1 / 2) + b * 0 + c * 0))
    have m3 := mul_le_mul_of_nonneg_left g3 (sq_nonneg (a * 0 + b * -(1 / 2) + c * 0))
    have i1 : (a * 0 + b * 0 + c * -(1 / 2)) ^ 2 = c ^ 2 / 4 := by ring
    have i2 : (a * -(1 / 2) + b * 0 + c * 0) ^ 2 = a ^ 2 / 4 := by ring
    have i3 : (a * 0 + b * -(1 / 2) + c * 0) ^ 2 = b ^ 2 / 4 := by ring
    rw [mul_one] at m1 m2 m3
    have i1' := i1.symm.le.trans m1
    have i2' := i2.symm.le.trans m2
    have i3' := i3.symm.le.trans m3
    linarith

end

end Ndt
