import Verif.Proof.RoundedCov
import Verif.Props.RoundedWeighProps
import Verif.Props.RoundedEndsProps

/-! # Property C137: the covariance of matching in double precision -/

namespace Ndt

open Rounded Spec

noncomputable section

/-! ## The sums -/

theorem foldl_pairs (w : Pose2d → ℝ) (t : ℝ → Pose2d → ℝ) (rd : ℝ → ℝ) (L : List Pose2d) (s : ℝ) :
    (L.map fun o => (w o, o)).foldl (fun s a => rd (s + t a.1 a.2)) s = L.foldl (fun s o => rd (s + t (w o) o)) s := by
  rw [List.foldl_map]

theorem total_pairs (w : Pose2d → ℝ) (t : ℝ × Pose2d → ℝ) (L : List Pose2d) :
    Spec.total t (L.map fun o => (w o, o)) = sumOver L fun o => t (w o, o) := by
  simp [Spec.total, sumOver, Function.comp_def]

theorem sum_neg' (L : List Pose2d) (f : Pose2d → ℝ) : (L.map fun o => -f o).sum = -(L.map f).sum := by
  induction L with
  | nil => simp
  | cons a L ih => simp only [List.map_cons, List.sum_cons, ih]; ring

section

variable {rd : ℝ → ℝ} (hr : RoundsToNearest rd) {w : Pose2d → ℝ} {L : List Pose2d} (hw : ∀ o ∈ L, 0 ≤ w o) (hn : L.length ≤ 2 ^ 40)
  (hS : 2⁻¹ ^ 30 ≤ sumOver L w)

include hw hn hS hr in
/-- A sum of products with the likelihoods. -/
theorem moment_near {t : ℝ → Pose2d → ℝ} {f : Pose2d → ℝ} {Y : ℝ} (hY : 2⁻¹ ^ 80 ≤ Y) (hf : ∀ o ∈ L, |f o| ≤ Y)
    (ht : ∀ o ∈ L, |t (w o) o - f o * -w o| ≤ 2⁻¹ ^ 51 * Y * w o + 2⁻¹ ^ 250) :
    |L.foldl (fun s o => rd (s + t (w o) o)) 0 - -sumOver L (fun o => f o * w o)| ≤ 5 * (L.length * 2⁻¹ ^ 52) * (Y * sumOver L w) ∧
      |-sumOver L (fun o => f o * w o)| ≤ Y * sumOver L w := by
  set S := sumOver L w
  have hS0 : 0 < S := lt_of_lt_of_le (by positivity) hS
  have hY0 : 0 < Y := lt_of_lt_of_le (by positivity) hY
  have hYS : 2⁻¹ ^ 110 ≤ Y * S := by
    have := mul_le_mul hY hS (by positivity) hY0.le
    refine le_trans (le_of_eq ?_) this
    rw [← pow_add]
  have hn' : (L.length : ℝ) ≤ 2 ^ 40 := by exact_mod_cast hn
  have hN1 : (1 : ℝ) ≤ L.length := by
    have : L ≠ [] := by
      rintro rfl
      simp [S, sumOver] at hS0
    have := List.length_pos_iff.mpr this
    exact_mod_cast this
  let l : List (ℝ × Pose2d) := L.map fun o => (w o, o)
  have hl : l.length = L.length := by simp [l]
  have hmem : ∀ a ∈ l, a.1 = w a.2 ∧ a.2 ∈ L := by
    intro a ha
    obtain ⟨o, ho, rfl⟩ := List.mem_map.mp ha
    exact ⟨rfl, ho⟩
  have hsum : Spec.total (·.1) l = S := total_pairs w _ L
  have hex : Spec.total (fun a => f a.2 * -a.1) l = -sumOver L (fun o => f o * w o) := by
    rw [total_pairs]
    simp only [sumOver, mul_neg]
    exact sum_neg' L _
  have hd1 : Spec.total (fun a => 2⁻¹ ^ 51 * Y * a.1 + 2⁻¹ ^ 250) l = 2⁻¹ ^ 51 * Y * S + L.length * 2⁻¹ ^ 250 := by
    rw [total_add, total_mul, total_const, hsum, hl]
  have hsmall : (L.length : ℝ) * 2⁻¹ ^ 250 ≤ 2⁻¹ ^ 53 * (Y * S) := by
    have h1 := mul_le_mul_of_nonneg_right hn' (by positivity : (0 : ℝ) ≤ 2⁻¹ ^ 250)
    norm_num at h1 hYS ⊢
    linarith
  have hdiff : |Spec.total (fun a => t a.1 a.2) l - Spec.total (fun a => f a.2 * -a.1) l| ≤ 2⁻¹ ^ 51 * Y * S + L.length * 2⁻¹ ^ 250 := by
    rw [← hd1]
    refine total_near fun a ha => ?_
    obtain ⟨h1, h2⟩ := hmem a ha
    rw [h1]
    exact ht _ h2
  have habs : Spec.total (fun a => |t a.1 a.2|) l ≤ 2 * (Y * S) := by
    have h1 : Spec.total (fun a => |t a.1 a.2|) l ≤ Spec.total (fun a => Y * a.1 + (2⁻¹ ^ 51 * Y * a.1 + 2⁻¹ ^ 250)) l := by
      refine total_le fun a ha => ?_
      obtain ⟨h1, h2⟩ := hmem a ha
      have h3 := ht _ h2
      have h4 := abs_sub_abs_le_abs_sub (t (w a.2) a.2) (f a.2 * -w a.2)
      have h5 : |f a.2 * -w a.2| ≤ Y * w a.2 := by
        rw [abs_mul, abs_neg, abs_of_nonneg (hw _ h2)]
        exact mul_le_mul_of_nonneg_right (hf _ h2) (hw _ h2)
      rw [h1]
      linarith
    rw [total_add, total_mul, hd1, hsum] at h1
    have h2 : 0 < Y * S := by positivity
    have h3 : (2⁻¹ : ℝ) ^ 51 * Y * S = 2⁻¹ ^ 51 * (Y * S) := by ring
    rw [h3] at h1
    norm_num at h1 hsmall ⊢
    linarith
  have hfl := sum_near' hr (fun a => t a.1 a.2) (A := 2 * (Y * S)) (l := l) (by
    have : (2⁻¹ : ℝ) ^ 120 ≤ 2 * (Y * S) := by
      norm_num at hYS ⊢
      linarith
    exact this) (by rw [hl]; exact hn) habs
  rw [foldl_pairs w t rd L 0, hl] at hfl
  rw [hex] at hdiff
  constructor
  · have h1 := abs_sub_le (L.foldl (fun s o => rd (s + t (w o) o)) 0) (Spec.total (fun a => t a.1 a.2) l) (-sumOver L fun o => f o * w o)
    have h2 : 0 < Y * S := by positivity
    have h3 : (2⁻¹ : ℝ) ^ 51 * Y * S = 2 * (2⁻¹ ^ 52 * (Y * S)) := by ring
    rw [h3] at hdiff
    have h4 := mul_le_mul_of_nonneg_right hN1 (by positivity : (0 : ℝ) ≤ 2⁻¹ ^ 52 * (Y * S))
    have h5 : (L.length : ℝ) * (2⁻¹ ^ 52 * (2 * (Y * S))) = 2 * (L.length * (2⁻¹ ^ 52 * (Y * S))) := by ring
    rw [h5] at hfl
    have h6 : 5 * (L.length * 2⁻¹ ^ 52) * (Y * S) = 5 * (L.length * (2⁻¹ ^ 52 * (Y * S))) := by ring
    have h7 : (2⁻¹ : ℝ) ^ 53 * (Y * S) = 1 / 2 * (2⁻¹ ^ 52 * (Y * S)) := by ring
    rw [h7] at hsmall
    rw [h6]
    linarith
  · rw [← hex]
    have h1 := total_near (f := fun a => f a.2 * -a.1) (g := fun _ => 0) (h := fun a => Y * a.1) (l := l) (fun a ha => by
      obtain ⟨h1, h2⟩ := hmem a ha
      rw [sub_zero, h1, abs_mul, abs_neg, abs_of_nonneg (hw _ h2)]
      exact mul_le_mul_of_nonneg_right (hf _ h2) (hw _ h2))
    rwa [total_const, mul_zero, sub_zero, total_mul, hsum] at h1

include hr in
theorem uTerm_near {i : Fin 3} {o : Pose2d} {v X : ℝ} (hv : 0 ≤ v) (hX : |offsetCoord i o| ≤ X) :
    |uTerm rd i v o - offsetCoord i o * -v| ≤ 2⁻¹ ^ 51 * X * v + 2⁻¹ ^ 250 := by
  have h : |offsetCoord i o * -v| ≤ X * v := by
    rw [abs_mul, abs_neg, abs_of_nonneg hv]
    exact mul_le_mul_of_nonneg_right hX hv
  have h1 := rd_err hr h
  have h2 : 0 ≤ X * v := (abs_nonneg _).trans h
  unfold uTerm
  have h3 : (2⁻¹ : ℝ) ^ 51 * X * v = 2⁻¹ ^ 51 * (X * v) := by ring
  rw [h3]
  norm_num at h1 ⊢
  linarith

include hr in
theorem kTerm_near {i j : Fin 3} {o : Pose2d} {v X : ℝ} (hv : 0 ≤ v) (hX0 : 2⁻¹ ^ 80 ≤ X) (hX : |offsetCoord i o * offsetCoord j o| ≤ X) :
    |kTerm rd i j v o - offsetCoord i o * offsetCoord j o * -v| ≤ 2⁻¹ ^ 51 * X * v + 2⁻¹ ^ 250 := by
  unfold kTerm
  set p := offsetCoord i o * offsetCoord j o
  have h0 := rd_err hr hX
  have hXp : 0 < X := lt_of_lt_of_le (by positivity) hX0
  have hd : |rd p - p| ≤ 5 / 4 * 2⁻¹ ^ 53 * X := by
    norm_num at h0 hX0 ⊢
    linarith
  have hp : |rd p| ≤ 2 * X := by
    have := abs_sub_abs_le_abs_sub (rd p) p
    norm_num at hd ⊢
    linarith
  have h : |rd p * -v| ≤ 2 * X * v := by
    rw [abs_mul, abs_neg, abs_of_nonneg hv]
    exact mul_le_mul_of_nonneg_right hp hv
  have h1 := rd_err hr h
  have h2 : |rd p * -v - p * -v| ≤ 5 / 4 * 2⁻¹ ^ 53 * X * v := by
    rw [← sub_mul, abs_mul, abs_neg, abs_of_nonneg hv]
    exact mul_le_mul_of_nonneg_right hd hv
  have h3 := abs_sub_le (rd (rd p * -v)) (rd p * -v) (p * -v)
  have h4 : 0 ≤ X * v := by positivity
  have e1 : 5 / 4 * (2⁻¹ : ℝ) ^ 53 * X * v = 5 / 4 * 2⁻¹ ^ 53 * (X * v) := by ring
  have e2 : (2⁻¹ : ℝ) ^ 53 * (2 * X * v) = 2 * 2⁻¹ ^ 53 * (X * v) := by ring
  have e3 : (2⁻¹ : ℝ) ^ 51 * X * v = 4 * 2⁻¹ ^ 53 * (X * v) := by ring
  rw [e1] at h2
  rw [e2] at h1
  rw [e3]
  have e4 : (0 : ℝ) ≤ 2⁻¹ ^ 53 * (X * v) := mul_nonneg (pow_nonneg (by norm_num) _) h4
  linarith

end

/-! ## The property -/

/-- C137: in double precision an entry of the covariance is the second moment of the offsets, weighted by their likelihoods, plus the product of
their means, up to the number of offsets times 2 ^ -46 times the sizes of the offsets. -/
theorem c137_covariance {rd co si : ℝ → ℝ} (hr : RoundsToNearest rd) {mt : Matcher} {g : NdtGrid} (hg : mt.ndt = some g) {A B : ℕ}
    (hAB : SearchSize rd mt A B) {scan : Scan} {pose : Pose2d} {cov : Mat3F} {r : Matcher.MatchResult}
    (h : matchScan rd co si mt scan pose cov = .ok r) {w : Pose2d → ℝ}
    (hw : ∀ o ∈ offsets rd mt A B, 0 ≤ w o ∧
      likelihoodAt rd co si g scan.points (min mt.laserMaxBeams scan.points.length) scan.pose o = .ok (.fin (w o)))
    (hn : (offsets rd mt A B).length ≤ 2 ^ 40) (hS : 2⁻¹ ^ 30 ≤ sumOver (offsets rd mt A B) w)
    (hS2 : sumOver (offsets rd mt A B) w ≤ 2 ^ 60) {X : Fin 3 → ℝ} (hX : ∀ i, 2⁻¹ ^ 40 ≤ X i)
    (ho : ∀ o ∈ offsets rd mt A B, ∀ i, |offsetCoord i o| ≤ X i) (i j : Fin 3) :
    ∃ m, r.covariance i j = .fin m ∧
      |m - (sumOver (offsets rd mt A B) (fun o => offsetCoord i o * offsetCoord j o * w o) / sumOver (offsets rd mt A B) w +
        sumOver (offsets rd mt A B) (fun o => offsetCoord i o * w o) / sumOver (offsets rd mt A B) w *
          (sumOver (offsets rd mt A B) (fun o => offsetCoord j o * w o) / sumOver (offsets rd mt A B) w))| ≤
        (offsets rd mt A B).length * 2⁻¹ ^ 46 * (X i * X j) := by
  obtain ⟨k, u, s, hs, hc⟩ := matchScan_sums hg hAB h (fun o ho => (hw o ho).2)
  set L := offsets rd mt A B
  set S := sumOver L w with hSdef
  have hS0 : 0 < S := lt_of_lt_of_le (by positivity) hS
  have hXp : ∀ i, 0 < X i := fun i => lt_of_lt_of_le (by positivity) (hX i)
  have hn' : (L.length : ℝ) ≤ 2 ^ 40 := by exact_mod_cast hn
  have hN1 : (1 : ℝ) ≤ L.length := by
    have : L ≠ [] := by
      intro h
      rw [hSdef, h] at hS0
      simp [sumOver] at hS0
    have := List.length_pos_iff.mpr this
    exact_mod_cast this
  have hw0 : ∀ o ∈ L, 0 ≤ w o := fun o ho => (hw o ho).1
  have hXX : ∀ i j, 2⁻¹ ^ 80 ≤ X i * X j := by
    intro i j
    have := mul_le_mul (hX i) (hX j) (by positivity) (hXp i).le
    refine le_trans (le_of_eq ?_) this
    rw [← pow_add]
  have hX80 : ∀ i, 2⁻¹ ^ 80 ≤ X i := fun i => le_trans (pow_le_pow_of_le_one (by norm_num) (by norm_num) (by norm_num)) (hX i)
  obtain ⟨s1, s2⟩ := moment_near hr hw0 hn hS (t := fun v _ => -v) (f := fun _ => 1) (Y := 1) (pow_le_one₀ (by norm_num) (by norm_num))
    (fun o ho => by simp) (fun o ho => by
      have := hw0 o ho
      rw [one_mul, sub_self, abs_zero]
      exact add_nonneg (mul_nonneg (mul_nonneg (pow_nonneg (by norm_num) _) zero_le_one) this) (pow_nonneg (by norm_num) _))
  have hu : ∀ i, _ := fun i => moment_near hr hw0 hn hS (t := uTerm rd i) (f := offsetCoord i) (Y := X i) (hX80 i) (fun o h => ho o h i)
    (fun o h => uTerm_near hr (hw0 o h) (ho o h i))
  have hcc : ∀ o ∈ L, ∀ i j, |offsetCoord i o * offsetCoord j o| ≤ X i * X j := by
    intro o h i j
    rw [abs_mul]
    exact mul_le_mul (ho o h i) (ho o h j) (abs_nonneg _) (hXp i).le
  have hk := moment_near hr hw0 hn hS (t := kTerm rd i j) (f := fun o => offsetCoord i o * offsetCoord j o) (Y := X i * X j) (hXX i j)
    (fun o h => hcc o h i j) (fun o h => kTerm_near hr (hw0 o h) (hXX i j) (hcc o h i j))
  rw [← hs.s] at s1
  have hu' : ∀ i, |u i - -sumOver L (fun o => offsetCoord i o * w o)| ≤ 5 * (L.length * 2⁻¹ ^ 52) * (X i * S) ∧
      |-sumOver L (fun o => offsetCoord i o * w o)| ≤ X i * S := by
    intro i
    rw [hs.u]
    exact hu i
  rw [← hs.k] at hk
  have eS : sumOver L (fun o => 1 * w o) = S := by simp [hSdef]
  rw [eS, one_mul] at s1
  obtain ⟨k1, k2⟩ := hk
  set K := sumOver L (fun o => offsetCoord i o * offsetCoord j o * w o)
  obtain ⟨ui1, ui2⟩ := hu' i
  obtain ⟨uj1, uj2⟩ := hu' j
  set Ui := sumOver L (fun o => offsetCoord i o * w o)
  set Uj := sumOver L (fun o => offsetCoord j o * w o)
  set e : ℝ := L.length * 2⁻¹ ^ 52 with he
  have he1 : 2⁻¹ ^ 52 ≤ e := by
    have := mul_le_mul_of_nonneg_right hN1 (by positivity : (0 : ℝ) ≤ 2⁻¹ ^ 52)
    linarith
  have he2 : e ≤ 2⁻¹ ^ 12 := by
    have := mul_le_mul_of_nonneg_right hn' (by positivity : (0 : ℝ) ≤ 2⁻¹ ^ 52)
    refine this.trans (le_of_eq ?_)
    norm_num
  have aS : |(-S)| = S := by rw [abs_neg, abs_of_pos hS0]
  have inv1 : 2⁻¹ ^ 60 ≤ 1 / S := by
    rw [le_div_iff₀ hS0]
    have := mul_le_mul_of_nonneg_left hS2 (by positivity : (0 : ℝ) ≤ 2⁻¹ ^ 60)
    refine this.trans (le_of_eq ?_)
    rw [← mul_pow]; norm_num
  have low : ∀ {a b : ℝ}, 2⁻¹ ^ 95 ≤ a → 2⁻¹ ^ 95 ≤ b → 2⁻¹ ^ 190 ≤ a * b := by
    intro a b ha hb
    have := mul_le_mul ha hb (by positivity) (le_trans (by positivity) ha)
    refine le_trans (le_of_eq ?_) this
    rw [← pow_add]
  have S95 : 2⁻¹ ^ 95 ≤ S := le_trans (pow_le_pow_of_le_one (by norm_num) (by norm_num) (by norm_num)) hS
  have e95 : ∀ {n : ℕ} {x : ℝ}, n ≤ 95 → 2⁻¹ ^ n ≤ x → 2⁻¹ ^ 95 ≤ x := fun h hx =>
    le_trans (pow_le_pow_of_le_one (by norm_num) (by norm_num) h) hx
  obtain ⟨z1, i1, i2⟩ := near_inv hr he1 he2 aS s1 (by norm_num) (by norm_num) hS0 (hS2.trans (pow_le_pow_right₀ (by norm_num) (by norm_num)))
  obtain ⟨p1, p2⟩ := near_mul hr he1 he2 aS.le aS.le s1 s1 (by norm_num) (by norm_num) (by norm_num) (by norm_num) (low S95 S95)
  have SS2 : S * S ≤ 2 ^ 190 := by
    have := mul_le_mul hS2 hS2 hS0.le (by positivity)
    refine this.trans ?_
    rw [← pow_add]
    exact pow_le_pow_right₀ (by norm_num) (by norm_num)
  have aSS : |(-S) * (-S)| = S * S := by rw [abs_mul, aS]
  obtain ⟨z2, q1, q2⟩ := near_inv hr he1 he2 aSS p2 (by norm_num) (by norm_num) (by positivity) SS2
  have YS : 2⁻¹ ^ 95 ≤ 1 / S := e95 (by norm_num) inv1
  have XS : ∀ i, 2⁻¹ ^ 70 ≤ X i * S := by
    intro i
    have := mul_le_mul (hX i) hS (by positivity) (hXp i).le
    refine le_trans (le_of_eq ?_) this
    rw [← pow_add]
  have rK : 1 / S * (X i * X j * S) = X i * X j := by field_simp
  have rU : 1 / (S * S) * (X i * S) = X i / S := by field_simp
  have rV : X i / S * (X j * S) = X i * X j := by field_simp
  have b80 : (2⁻¹ : ℝ) ^ 190 ≤ X i * X j := le_trans (pow_le_pow_of_le_one (by norm_num) (by norm_num) (by norm_num)) (hXX i j)
  have b100 : (2⁻¹ : ℝ) ^ 190 ≤ X i / S := by
    have := mul_le_mul (hX i) inv1 (by positivity) (hXp i).le
    rw [← pow_add, mul_one_div] at this
    exact le_trans (pow_le_pow_of_le_one (by norm_num) (by norm_num) (by norm_num)) this
  obtain ⟨t1, t2⟩ := near_mul hr he1 he2 i1.le k2 i2 k1 (by norm_num) (by norm_num) (by norm_num) (by norm_num) (by rw [rK]; exact b80)
  obtain ⟨v1, v2⟩ := near_mul hr he1 he2 q1.le ui2 q2 ui1 (by norm_num) (by norm_num) (by norm_num) (by norm_num) (by rw [rU]; exact b100)
  rw [rU] at v1 v2
  rw [rK] at t1 t2
  obtain ⟨x1, x2⟩ := near_mul hr he1 he2 v1 uj2 v2 uj1 (by norm_num) (by norm_num) (by norm_num) (by norm_num) (by rw [rV]; exact b80)
  rw [rV] at x1 x2
  refine ⟨rd (rd (rd (1 / s) * k i j) + rd (rd (rd (1 / rd (s * s)) * u i) * u j)), by rw [hc i j, Fl.fin_div z1, Fl.fin_div z2]; simp only [Fl.rounded_fin, Fl.fin_mul, Fl.fin_add], ?_⟩
  set T1 := rd (rd (1 / s) * k i j)
  set T2 := rd (rd (rd (1 / rd (s * s)) * u i) * u j)
  have E1 : 1 / -S * -K = K / S := by field_simp
  have E2 : 1 / (-S * -S) * -Ui * -Uj = Ui / S * (Uj / S) := by field_simp
  rw [E1] at t1 t2
  rw [E2] at x1 x2
  have P : 0 < X i * X j := mul_pos (hXp i) (hXp j)
  have he0 : 0 < e := lt_of_lt_of_le (by positivity) he1
  have hsum : |T1 + T2| ≤ 3 * (X i * X j) := by
    have a1 := abs_sub_abs_le_abs_sub T1 (K / S)
    have a2 := abs_sub_abs_le_abs_sub T2 (Ui / S * (Uj / S))
    have a3 := abs_add_le T1 T2
    have a4 := mul_le_mul_of_nonneg_right he2 P.le
    norm_num at t2 x2 a4
    linarith
  have f1 := rd_err hr hsum
  have f2 := abs_sub_le (rd (T1 + T2)) (T1 + T2) (K / S + Ui / S * (Uj / S))
  have f3 : |T1 + T2 - (K / S + Ui / S * (Uj / S))| ≤ |T1 - K / S| + |T2 - Ui / S * (Uj / S)| := by
    rw [add_sub_add_comm]
    exact abs_add_le _ _
  have f4 := mul_le_mul_of_nonneg_right he1 P.le
  have f5 : (2⁻¹ : ℝ) ^ 250 ≤ 2⁻¹ ^ 53 * (X i * X j) := by
    have := hXX i j
    norm_num at this ⊢
    linarith
  have f6 : (L.length : ℝ) * 2⁻¹ ^ 46 * (X i * X j) = 64 * (e * (X i * X j)) := by rw [he]; ring
  rw [f6]
  have f7 : 0 < e * (X i * X j) := by positivity
  have f8 : (2⁻¹ : ℝ) ^ 53 * (X i * X j) = 1 / 2 * (2⁻¹ ^ 52 * (X i * X j)) := by ring
  have f9 : (2⁻¹ : ℝ) ^ 53 * (3 * (X i * X j)) = 3 / 2 * (2⁻¹ ^ 52 * (X i * X j)) := by ring
  linarith

theorem foldl_nonpos {rd : ℝ → ℝ} (hr : RoundsToNearest rd) {t : Pose2d → ℝ} {L : List Pose2d} (ht : ∀ o ∈ L, t o ≤ 0) :
    ∀ s : ℝ, s ≤ 0 → L.foldl (fun s o => rd (s + t o)) s ≤ 0 := by
  induction L with
  | nil => intro s hs; exact hs
  | cons o L ih =>
    intro s hs
    have h1 := ht o (by simp)
    exact ih (fun a ha => ht a (by simp [ha])) _ (hr.le_of_le isDouble_zero (by linarith))

theorem pinf_mul_fin (x : ℝ) : (Fl.pinf * Fl.fin x : Fl) = .nan ∨ (Fl.pinf * Fl.fin x : Fl) = .pinf ∨ (Fl.pinf * Fl.fin x : Fl) = .ninf := by
  have : (Fl.pinf * Fl.fin x : Fl) = Fl.infMul true x := rfl
  rw [this]
  unfold Fl.infMul
  split
  · exact Or.inl rfl
  · split <;> simp

theorem inf_add_ne {a b : Fl} (x : ℝ) (ha : a = .nan ∨ a = .pinf ∨ a = .ninf) : a + b ≠ .fin x := by
  rcases ha with rfl | rfl | rfl <;> cases b <;> intro h <;> cases h

theorem add_inf_ne {a b : Fl} (x : ℝ) (hb : b = .nan ∨ b = .pinf ∨ b = .ninf) : a + b ≠ .fin x := by
  rcases hb with rfl | rfl | rfl <;> cases a <;> intro h <;> cases h

theorem rounded_inf {rd : ℝ → ℝ} {a : Fl} (ha : a = .nan ∨ a = .pinf ∨ a = .ninf) :
    Fl.rounded rd a = .nan ∨ Fl.rounded rd a = .pinf ∨ Fl.rounded rd a = .ninf := by
  rcases ha with rfl | rfl | rfl
  · exact Or.inl rfl
  · exact Or.inr (Or.inl rfl)
  · exact Or.inr (Or.inr rfl)

theorem rounded_fin_inv {rd : ℝ → ℝ} {a : Fl} {x : ℝ} (h : Fl.rounded rd a = .fin x) : ∃ y, a = .fin y ∧ x = rd y := by
  cases a with
  | fin y => exact ⟨y, rfl, (Fl.fin.inj h).symm⟩
  | nan => cases h
  | pinf => cases h
  | ninf => cases h

/-- C137: whatever the likelihoods, an entry on the diagonal that is a number is not negative. -/
theorem c137_diagonal_nonneg {rd co si : ℝ → ℝ} (hr : RoundsToNearest rd) {mt : Matcher} {g : NdtGrid} (hg : mt.ndt = some g) {A B : ℕ}
    (hAB : SearchSize rd mt A B) {scan : Scan} {pose : Pose2d} {cov : Mat3F} {r : Matcher.MatchResult}
    (h : matchScan rd co si mt scan pose cov = .ok r) {w : Pose2d → ℝ}
    (hw : ∀ o ∈ offsets rd mt A B, 0 ≤ w o ∧
      likelihoodAt rd co si g scan.points (min mt.laserMaxBeams scan.points.length) scan.pose o = .ok (.fin (w o)))
    (i : Fin 3) {m : ℝ} (hm : r.covariance i i = .fin m) : 0 ≤ m := by
  obtain ⟨k, u, s, hs, hc⟩ := matchScan_sums hg hAB h (fun o ho => (hw o ho).2)
  rw [hc i i] at hm
  have hs0 : s ≤ 0 := by
    rw [hs.s]
    exact foldl_nonpos hr (fun o ho => by linarith [(hw o ho).1]) 0 le_rfl
  have hk0 : k i i ≤ 0 := by
    rw [hs.k]
    refine foldl_nonpos hr (fun o ho => ?_) 0 le_rfl
    refine hr.le_of_le isDouble_zero ?_
    have h1 : 0 ≤ rd (offsetCoord i o * offsetCoord i o) := hr.nonneg (mul_self_nonneg _)
    have := mul_nonneg h1 (hw o ho).1
    linarith
  obtain ⟨y, hy, rfl⟩ := rounded_fin_inv hm
  refine hr.nonneg ?_
  by_cases z1 : s = 0
  · exfalso
    rw [z1, Fl.pos_div_zero one_pos] at hy
    exact inf_add_ne y (rounded_inf (pinf_mul_fin _)) hy
  by_cases z2 : rd (s * s) = 0
  · exfalso
    rw [z2, Fl.pos_div_zero one_pos] at hy
    refine add_inf_ne y (rounded_inf ?_) hy
    have : Fl.rounded rd .pinf = .pinf := rfl
    rw [this]
    rcases pinf_mul_fin (u i) with e | e | e <;> rw [e]
    · exact Or.inl (Fl.nan_mul _)
    · exact pinf_mul_fin _
    · have e : (Fl.ninf * Fl.fin (u i) : Fl) = Fl.infMul false (u i) := rfl
      show Fl.ninf * Fl.fin (u i) = _ ∨ Fl.ninf * Fl.fin (u i) = _ ∨ Fl.ninf * Fl.fin (u i) = _
      rw [e]
      unfold Fl.infMul
      split
      · exact Or.inl rfl
      · split <;> simp
  rw [Fl.fin_div z1, Fl.fin_div z2] at hy
  simp only [Fl.rounded_fin, Fl.fin_mul, Fl.fin_add] at hy
  cases hy
  have hinv : rd (1 / s) ≤ 0 := hr.le_of_le isDouble_zero (one_div_nonpos.mpr hs0)
  have hq : 0 ≤ rd (1 / rd (s * s)) := hr.nonneg (one_div_nonneg.mpr (hr.nonneg (mul_self_nonneg _)))
  refine add_nonneg (hr.nonneg (mul_nonneg_of_nonpos_of_nonpos hinv hk0)) (hr.nonneg ?_)
  rcases le_total 0 (u i) with h0 | h0
  · exact mul_nonneg (hr.nonneg (mul_nonneg hq h0)) h0
  · exact mul_nonneg_of_nonpos_of_nonpos (hr.le_of_le isDouble_zero (mul_nonpos_of_nonneg_of_nonpos hq h0)) h0

/-- C137: if the scan lies beside the map wherever it is tried, every entry of the covariance is NaN. -/
theorem c137_no_overlap {rd co si : ℝ → ℝ} (hr : RoundsToNearest rd) {mt : Matcher} {g : NdtGrid} (hg : mt.ndt = some g) {A B : ℕ}
    (hAB : SearchSize rd mt A B) {scan : Scan} {pose : Pose2d} {cov : Mat3F} {r : Matcher.MatchResult}
    (h : matchScan rd co si mt scan pose cov = .ok r)
    (hw : ∀ o ∈ offsets rd mt A B, likelihoodAt rd co si g scan.points (min mt.laserMaxBeams scan.points.length) scan.pose o = .ok (.fin 0))
    (i j : Fin 3) : r.covariance i j = .nan := by
  obtain ⟨k, u, s, hs, hc⟩ := matchScan_sums (w := fun _ => 0) hg hAB h hw
  have h0 : rd 0 = 0 := hr.exact isDouble_zero
  have hz : ∀ L : List Pose2d, L.foldl (fun s _ => rd (s + 0)) 0 = 0 := by
    intro L
    induction L with
    | nil => rfl
    | cons o L ih =>
      rw [List.foldl_cons, add_zero, h0]
      exact ih
  have es : s = 0 := by rw [hs.s]; simpa using hz (offsets rd mt A B)
  have ek : k i j = 0 := by
    rw [hs.k]
    simp only [kTerm, neg_zero, mul_zero, h0]
    exact hz _
  rw [hc i j, es, ek, Fl.pos_div_zero one_pos]
  have e1 : (Fl.rounded rd .pinf * Fl.fin 0 : Fl) = .nan := by
    show Fl.infMul true 0 = _
    unfold Fl.infMul
    rw [if_pos rfl]
  rw [e1]
  simp only [rounded_nan, Fl.nan_add]

/-! ## Cases -/

/-- A search of two angles and two by two shifts. -/
def eightOffsets : Matcher :=
  { resolution := 4, angularRes := 1, angularSize := 1, linearRes := 1 / 2, linearSize := 1 / 2, laserMaxBeams := 100, rangeMax := 10, ndt := none }

theorem half_double : IsDouble (1 / 2) := by
  have := Demo.isDouble_inv_pow (n := 1) (by norm_num)
  norm_num at this ⊢
  exact this

theorem two_values {x : ℝ} (h0 : 0 < x) (hd : IsDouble x) (n : ℕ) : n < 2 ↔ Visits rnd x x n := by
  have e1 : searchVal rnd x x 1 = 0 := by
    show rnd (-x + x) = 0
    rw [neg_add_cancel, rnd_zero]
  have e2 : searchVal rnd x x 2 = x := by
    show rnd (searchVal rnd x x 1 + x) = x
    rw [e1, zero_add, rnd_rounds.exact hd]
  constructor
  · intro hn i hi
    have : i = 0 ∨ i = 1 := by omega
    rcases this with rfl | rfl
    · show -x < x
      linarith
    · rw [e1]
      exact h0
  · intro h
    by_contra hn
    have := h 2 (by omega)
    rw [e2] at this
    exact lt_irrefl _ this

theorem eightOffsets_size (g : NdtGrid) : SearchSize rnd { eightOffsets with ndt := some g } 2 2 :=
  ⟨two_values one_pos isDouble_one, two_values (x := 1 / 2) (by norm_num) half_double⟩

/-- The hypotheses of `c137_covariance` (and of `c137_diagonal_nonneg`): the map of `matched_corner`, searched with eight offsets. -/
example : ∃ g w r p, ({ eightOffsets with ndt := some g } : Matcher).ndt = some g ∧ SearchSize rnd { eightOffsets with ndt := some g } 2 2 ∧
    (offsets rnd { eightOffsets with ndt := some g } 2 2).length = 8 ∧
    matchScan rnd Demo.cosR Demo.sinR { eightOffsets with ndt := some g } (Demo.scanOf [p]) Pose2d.zero (fun _ _ => .fin 0) = .ok r ∧
    (∀ o ∈ offsets rnd { eightOffsets with ndt := some g } 2 2, 0 ≤ w o ∧
      likelihoodAt rnd Demo.cosR Demo.sinR g [p] 1 Pose2d.zero o = .ok (.fin (w o))) ∧
    1 ≤ sumOver (offsets rnd { eightOffsets with ndt := some g } 2 2) w ∧ sumOver (offsets rnd { eightOffsets with ndt := some g } 2 2) w ≤ 8 ∧
    (∀ o ∈ offsets rnd { eightOffsets with ndt := some g } 2 2, ∀ i, |offsetCoord i o| ≤ 1) := by
  obtain ⟨g, h1, ⟨cells, hc⟩, h2, h3, h4, idx⟩ := corner_map
  have hspread : Spec.WellSpread rnd Demo.cosR Demo.sinR g [Demo.scanOf cornersAndMiddle] 1 := by
    intro i hi
    by_cases h : i = 14
    · subst h
      rw [h4]
      refine ⟨by simp [cornersAndMiddle], cornersAndMiddle_within, ?_⟩
      intro v w
      refine le_trans ?_ (cornersAndMiddle_spread v w)
      refine mul_le_mul_of_nonneg_right ?_ (by positivity)
      simp only [cornersAndMiddle, List.length_cons, List.length_nil]
      norm_num
    · rw [h3 i h] at hi
      simp at hi
  have hn5 : ¬ (cellOf rnd eigenvalues cornersAndMiddle).n < 5 := by
    rw [(c98_mean_accurate rnd_rounds 1 (pow_le_one₀ (by norm_num) (by norm_num)) cornersAndMiddle (by simp [cornersAndMiddle])
      cornersAndMiddle_within eigenvalues).2.2]
    simp [cornersAndMiddle]
  have hmean : |(cellOf rnd eigenvalues cornersAndMiddle).mean.x| ≤ 1 ∧ |(cellOf rnd eigenvalues cornersAndMiddle).mean.y| ≤ 1 := by
    obtain ⟨a1, a2, -⟩ := c98_mean_accurate rnd_rounds 1 (pow_le_one₀ (by norm_num) (by norm_num)) cornersAndMiddle (by simp [cornersAndMiddle])
      cornersAndMiddle_within eigenvalues
    have e1 : Spec.avg (·.x) cornersAndMiddle = 0 := by norm_num [Spec.avg, cornersAndMiddle]
    have e2 : Spec.avg (·.y) cornersAndMiddle = 0 := by norm_num [Spec.avg, cornersAndMiddle]
    rw [e1, sub_zero] at a1
    rw [e2, sub_zero] at a2
    simp only [cornersAndMiddle, List.length_cons, List.length_nil] at a1 a2
    exact ⟨a1.trans (by norm_num), a2.trans (by norm_num)⟩
  have hd : Spec.IsDouble (cellOf rnd eigenvalues cornersAndMiddle).mean.x ∧ Spec.IsDouble (cellOf rnd eigenvalues cornersAndMiddle).mean.y := by
    have e : (cellOf rnd eigenvalues cornersAndMiddle).mean = (cornersAndMiddle.foldl (addPoint rnd) Cell.new).mean := by
      unfold cellOf compute
      split <;> rfl
    rw [e]
    exact ⟨isDouble_rnd _, isDouble_rnd _⟩
  set p := (cellOf rnd eigenvalues cornersAndMiddle).mean with hp
  obtain ⟨a1, a2⟩ := abs_le.mp hmean.1
  obtain ⟨b1, b2⟩ := abs_le.mp hmean.2
  have hlik : likelihood rnd g p = .ok (score rnd (cellOf rnd eigenvalues cornersAndMiddle) p) := by
    unfold likelihood
    rw [hc] at h2 ⊢
    rw [idx p.x p.y a1 a2 b1 b2]
    simp only [Res.ok_bind]
    rw [if_pos (by positivity), Int.toNat_natCast, h2]
    rfl
  have hup := spread_likelihood rnd_rounds eigenvalues_accurate h1 rfl (by norm_num [Demo.matcher])
    (by norm_num [Demo.matcher]) (by rw [hc]; norm_num [abs_le]) (by rw [hc]; norm_num [abs_le]) (B := 1)
    (pow_le_one₀ (by norm_num) (by norm_num)) (one_le_pow₀ (by norm_num)) hspread
  obtain ⟨x, hx, -, -⟩ := hup p _ hlik
  cases score_at_mean rnd_rounds hn5 hx
  rw [hx] at hlik
  have p1000 : (2⁻¹ : ℝ) ^ 1000 ≤ 1 / 2 := by
    rw [show (1000 : ℕ) = 999 + 1 by norm_num, pow_succ]
    have : (2⁻¹ : ℝ) ^ 999 ≤ 1 := pow_le_one₀ (by norm_num) (by norm_num)
    have := mul_le_mul_of_nonneg_right this (by norm_num : (0 : ℝ) ≤ 2⁻¹)
    exact this.trans (le_of_eq (by norm_num))
  obtain ⟨mt', r, e1, -, e2⟩ := c129_map_and_match_return rnd_rounds accurate_demo eigenvalues (P := 100) (by norm_num) (mt := eightOffsets)
    ⟨by norm_num [eightOffsets], by norm_num [eightOffsets], by norm_num [eightOffsets]⟩
    ⟨half_double, by norm_num [eightOffsets], by norm_num [eightOffsets], p1000, isDouble_one, by norm_num [eightOffsets],
      pow_le_one₀ (by norm_num) (by norm_num)⟩ (scans := [Demo.scanOf cornersAndMiddle]) (by simp)
    (demoScan_within _ (fun q hq => ⟨(cornersAndMiddle_within q hq).1.trans (by norm_num), (cornersAndMiddle_within q hq).2.trans (by norm_num)⟩))
    (scan := Demo.scanOf [p]) (demoScan_within _ (by
      intro q hq
      rw [List.mem_singleton.mp hq]
      exact ⟨hmean.1.trans (by norm_num), hmean.2.trans (by norm_num)⟩) _ (List.mem_singleton_self _)) (by simp [Demo.scanOf]) Pose2d.zero (fun _ _ => .fin 0)
  have emt : mt' = { eightOffsets with ndt := some g } := by
    unfold addScans at h1 e1
    have r1 : eightOffsets.resolution = (Demo.matcher 4 10).resolution := rfl
    have r2 : eightOffsets.rangeMax = (Demo.matcher 4 10).rangeMax := rfl
    rw [r1, r2] at e1
    cases f1 : mapGrid rnd (Demo.matcher 4 10).resolution (Demo.matcher 4 10).rangeMax [Demo.scanOf cornersAndMiddle] with
    | error e => rw [f1] at h1; cases h1
    | ok g0 =>
      rw [f1] at h1 e1
      simp only [Res.ok_bind] at h1 e1
      cases f2 : [Demo.scanOf cornersAndMiddle].foldlM (addScan rnd Demo.cosR Demo.sinR) g0 with
      | error e => rw [f2] at h1; cases h1
      | ok g1 =>
        rw [f2] at h1 e1
        simp only [Res.ok_bind] at h1 e1
        have := congrArg Matcher.ndt (Except.ok.inj h1)
        have e3 := Except.ok.inj e1
        rw [← e3]
        have this' : some (computeAll rnd eigenvalues g1) = some g := this
        rw [this']
        rfl
  rw [emt] at e2
  have hsize := eightOffsets_size g
  have hall : ∀ o ∈ offsets rnd { eightOffsets with ndt := some g } 2 2, ∃ x, likelihoodAt rnd Demo.cosR Demo.sinR g [p] 1 Pose2d.zero o = .ok (.fin x) ∧
      0 ≤ x ∧ x ≤ 1 := by
    intro o ho
    simp only [offsets, List.mem_flatMap, List.mem_map, List.mem_range] at ho
    obtain ⟨i, hi, j, hj, k, hk, rfl⟩ := ho
    obtain ⟨v, hv⟩ := (c128_best_of_the_offsets rfl e2).1 i j k ⟨(hsize.1 i).mp hi, (hsize.2 j).mp hj, (hsize.2 k).mp hk⟩
    obtain ⟨x, rfl, hx⟩ := likelihoodAt_upto rnd_rounds hup (by norm_num [Demo.scanOf, eightOffsets]) hv
    refine ⟨x, hv, hx.1, hx.2.trans ?_⟩
    norm_num [Demo.scanOf, eightOffsets]
  choose! w hw using hall
  have v0 : ∀ x : ℝ, searchVal rnd x x 0 = -x := fun x => rfl
  have v1 : ∀ x : ℝ, searchVal rnd x x 1 = 0 := by
    intro x
    show rnd (-x + x) = 0
    rw [neg_add_cancel, rnd_zero]
  have eo : offsets rnd { eightOffsets with ndt := some g } 2 2 = [⟨-(1 / 2), -(1 / 2), -1⟩, ⟨-(1 / 2), 0, -1⟩, ⟨0, -(1 / 2), -1⟩, ⟨0, 0, -1⟩,
      ⟨-(1 / 2), -(1 / 2), 0⟩, ⟨-(1 / 2), 0, 0⟩, ⟨0, -(1 / 2), 0⟩, ⟨0, 0, 0⟩] := by
    simp [offsets, List.range_succ, offsetOf, eightOffsets, v0, v1]
  have wz : w ⟨0, 0, 0⟩ = 1 := by
    have h := (hw ⟨0, 0, 0⟩ (by rw [eo]; simp)).1
    have hb : beam rnd [p] 1 0 = .ok p := by
      unfold beam beamIndex
      simp only [List.length_cons, List.length_nil, Nat.cast_zero, zero_add, Nat.cast_one, rnd_zero, zero_mul]
      have : toU64F (.fin 0) = .ok 0 := by
        show toU64 0 = _
        rw [toU64_of_nonneg le_rfl (by norm_num)]
        simp
      rw [this]
      rfl
    have hm := Demo.mapPoint_zero hd.1 hd.2
    unfold mapPoint Pose2d.zero at hm
    have ho : outerPoints rnd Demo.cosR Demo.sinR [p] 1 Pose2d.zero 0 = .ok [p] := by
      unfold outerPoints
      simp only [List.range_one, List.mapM_cons, List.mapM_nil, hb, Res.ok_bind, Pose2d.zero, add_zero, rnd_zero]
      simp only [zero_add] at hm
      rw [hm]
      rfl
    unfold likelihoodAt at h
    rw [ho] at h
    simp only [Res.ok_bind, shiftedScore, likelihoodPoints, List.map_cons, List.map_nil, add_zero, rnd_rounds.exact hd.1, rnd_rounds.exact hd.2,
      List.foldlM_cons, List.foldlM_nil] at h
    rw [hlik] at h
    have := Fl.fin.inj (Except.ok.inj h)
    rw [zero_add, rnd_rounds.exact isDouble_one] at this
    exact this.symm
  refine ⟨g, w, r, p, rfl, hsize, by rw [eo]; rfl, e2, fun o ho => ⟨(hw o ho).2.1, (hw o ho).1⟩, ?_, ?_, ?_⟩
  · rw [eo] at hw ⊢
    simp only [List.mem_cons, List.not_mem_nil, or_false, forall_eq_or_imp, forall_eq] at hw
    simp only [sumOver, List.map_cons, List.map_nil, List.sum_cons, List.sum_nil]
    obtain ⟨q1, q2, q3, q4, q5, q6, q7, q8⟩ := hw
    linarith [q1.2.1, q2.2.1, q3.2.1, q4.2.1, q5.2.1, q6.2.1, q7.2.1]
  · rw [eo] at hw ⊢
    simp only [List.mem_cons, List.not_mem_nil, or_false, forall_eq_or_imp, forall_eq] at hw
    simp only [sumOver, List.map_cons, List.map_nil, List.sum_cons, List.sum_nil]
    obtain ⟨q1, q2, q3, q4, q5, q6, q7, q8⟩ := hw
    linarith [q1.2.2, q2.2.2, q3.2.2, q4.2.2, q5.2.2, q6.2.2, q7.2.2]
  · rw [eo]
    intro o ho i
    simp only [List.mem_cons, List.not_mem_nil, or_false] at ho
    rcases ho with rfl | rfl | rfl | rfl | rfl | rfl | rfl | rfl <;> fin_cases i <;> norm_num [offsetCoord, abs_le]

/-- The hypotheses of `c137_no_overlap`: a point far beside the same map. -/
example : ∃ mt g r, mt.ndt = some g ∧ SearchSize rnd mt 1 1 ∧
    matchScan rnd Demo.cosR Demo.sinR mt (Demo.scanOf [⟨-50, -50⟩]) Pose2d.zero (fun _ _ => .fin 0) = .ok r ∧
    ∀ o ∈ offsets rnd mt 1 1, likelihoodAt rnd Demo.cosR Demo.sinR g [⟨-50, -50⟩] 1 Pose2d.zero o = .ok (.fin 0) := by
  obtain ⟨g, h1, ⟨cells, hc⟩, h2, h3, h4, idx⟩ := corner_map
  have hp : Demo.Plain (-50) := by
    refine ⟨isDouble_neg (by simpa using isDouble_nat (n := 50) (by norm_num)), ?_, ?_⟩ <;> norm_num [abs_of_neg]
  have hl : likelihood rnd g ⟨-50, -50⟩ = .ok (.fin 0) := by
    have : getIndex rnd g (-50) (-50) = .ok (-1) := by
      rw [hc]
      unfold getIndex
      rw [if_pos (by norm_num)]
    unfold likelihood
    simp only [this, Res.ok_bind]
    rw [if_neg (by norm_num)]
    rfl
  obtain ⟨r, hr, -⟩ := Demo.matchScan_eq (res := 4) (range := 10) (p := ⟨-50, -50⟩) hp hp hl Pose2d.zero (fun _ _ => .fin 0)
  have hone : ∀ n, n < 1 ↔ Visits rnd Demo.tiny (2 * Demo.tiny) n := by
    obtain ⟨N, e, hN⟩ := searchVals_eq_map Demo.searchVals_tiny
    have : N = 1 := by simpa using (congrArg List.length e).symm
    subst this
    exact hN
  refine ⟨{ Demo.matcher 4 10 with ndt := some g }, g, r, rfl, ⟨hone, hone⟩, hr, ?_⟩
  intro o ho
  have : o = ⟨-Demo.tiny, -Demo.tiny, -Demo.tiny⟩ := by
    simpa [offsets, offsetOf, searchVal, Demo.matcher] using ho
  subst this
  have := Demo.likelihoodAt_eq g (p := ⟨-50, -50⟩) hp hp
  rw [hl] at this
  unfold likelihoodAt
  rw [this]
  simp only [Res.ok_bind, Fl.fin_add, add_zero, Fl.rounded_fin, rnd_zero]

end

end Ndt
