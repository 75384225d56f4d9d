import Verif.Proof.RoundedHeading
import Verif.Props.RoundedEndsProps
import Verif.Proof.RoundedWeigh

/-! # Property C131: the mean heading of the particles and its variance in double precision -/

namespace Ndt

noncomputable section

open Spec Rounded

/-- **C131** The mean heading computed in double precision is the direction of the weighted mean of the unit vectors, up to full turns and
up to `n 2^-42` divided by the length of that mean, and `2^-50`. -/
theorem c131_heading {rd co si : ℝ → ℝ} {at2 : ℝ → ℝ → ℝ} (hrd : RoundsToNearest rd) (hcs : Accurate co si) (hat : AccurateAtan2 at2)
    {l : List (ℝ × Pose2d)} (h : Weighted l) {mu R : ℝ} (hR : 0 < R) (hmu : MeanDirection l mu R)
    (hlen : l.length * 2⁻¹ ^ 44 ≤ R) :
    |meanHeading rd co si at2 l| ≤ Real.pi ∧
    ∃ k : ℤ, |meanHeading rd co si at2 l - (mu + k * (2 * Real.pi))| ≤ l.length * 2⁻¹ ^ 42 / R + 2⁻¹ ^ 50 := by
  have hl := length_pos' h.sum
  have hc := mean_trig hrd h (f := fun p => co p.theta) (g := fun p => Real.cos p.theta) (fun p => Real.abs_cos_le_one _) (fun p => hcs.cos _)
  have hs := mean_trig hrd h (f := fun p => si p.theta) (g := fun p => Real.sin p.theta) (fun p => Real.abs_sin_le_one _) (fun p => hcs.sin _)
  rw [hmu.1] at hc
  rw [hmu.2] at hs
  refine ⟨hat.range _ _, ?_⟩
  unfold meanHeading
  set c := mean rd (fun p => co p.theta) l
  set s := mean rd (fun p => si p.theta) l
  have hε : (0 : ℝ) < l.length * 2⁻¹ ^ 46 := by positivity
  obtain ⟨k, hk⟩ := arg_near hε hR hc hs
  have hne : c ≠ 0 ∨ s ≠ 0 := by
    by_contra hno
    push Not at hno
    rw [hno.1, zero_sub, abs_neg] at hc
    rw [hno.2, zero_sub, abs_neg] at hs
    have h2 := Real.cos_sq_add_sin_sq mu
    have e1 := sq_le_sq' (by linarith [(abs_le.mp hc).1]) (abs_le.mp hc).2
    have e2 := sq_le_sq' (by linarith [(abs_le.mp hs).1]) (abs_le.mp hs).2
    have e3 : R ^ 2 ≤ 2 * (l.length * 2⁻¹ ^ 46) ^ 2 := by nlinarith
    have e4 : (4 * (l.length * 2⁻¹ ^ 46 : ℝ)) ≤ R := by
      refine le_trans (le_of_eq ?_) hlen
      ring
    nlinarith
  obtain ⟨j, hj⟩ := hat.near s c hne
  refine ⟨j - k, ?_⟩
  have e : at2 s c - (mu + ((j - k : ℤ) : ℝ) * (2 * Real.pi)) =
      (at2 s c - (atan2 s c + j * (2 * Real.pi))) + (Complex.arg ⟨c, s⟩ - mu + k * (2 * Real.pi)) := by
    unfold atan2
    push_cast
    ring
  rw [e]
  refine (abs_add_le _ _).trans ?_
  have e5 : 16 * (l.length * 2⁻¹ ^ 46) / R = l.length * 2⁻¹ ^ 42 / R := by ring
  rw [e5] at hk
  linarith

/-- **C131** If all particles face within an angle `a`, less than a quarter turn, of a direction, the computed heading does so as well, up to
the error. -/
theorem c131_among {rd co si : ℝ → ℝ} {at2 : ℝ → ℝ → ℝ} (hrd : RoundsToNearest rd) (hcs : Accurate co si) (hat : AccurateAtan2 at2)
    {l : List (ℝ × Pose2d)} (h : Weighted l) {dir a : ℝ} (ha : a < Real.pi / 2)
    (hface : ∀ q ∈ l, ∃ k : ℤ, |q.2.theta - dir + k * (2 * Real.pi)| ≤ a) (hlen : l.length * 2⁻¹ ^ 44 ≤ Real.cos a) :
    ∃ k : ℤ, |meanHeading rd co si at2 l - (dir + k * (2 * Real.pi))| ≤ a + l.length * 2⁻¹ ^ 42 / Real.cos a + 2⁻¹ ^ 50 := by
  have hl := length_pos' h.sum
  have hS : 0 < total (·.1) l := lt_of_lt_of_le (by positivity) h.sum
  have ha0 : 0 ≤ a := by
    obtain ⟨q, hq⟩ := List.exists_mem_of_length_pos (l := l) (by
      have : (0 : ℝ) < l.length := by linarith
      exact_mod_cast this)
    obtain ⟨k, hk⟩ := hface q hq
    exact (abs_nonneg _).trans hk
  have hca : 0 < Real.cos a := Real.cos_pos_of_mem_Ioo ⟨by linarith [Real.pi_pos], ha⟩
  have hsa : 0 ≤ Real.sin a := Real.sin_nonneg_of_nonneg_of_le_pi ha0 (by linarith [Real.pi_pos])
  -- along and across the direction
  have hone : ∀ q ∈ l, Real.cos a ≤ Real.cos (q.2.theta - dir) ∧
      |Real.sin (q.2.theta - dir)| * Real.cos a ≤ Real.sin a * Real.cos (q.2.theta - dir) := by
    intro q hq
    obtain ⟨k, hk⟩ := hface q hq
    rw [← Real.cos_add_int_mul_two_pi (q.2.theta - dir) k, ← Real.sin_add_int_mul_two_pi (q.2.theta - dir) k]
    set e := q.2.theta - dir + k * (2 * Real.pi)
    have he := abs_nonneg e
    have h1 : Real.cos a ≤ Real.cos e := by
      rw [← Real.cos_abs e]
      exact Real.cos_le_cos_of_nonneg_of_le_pi he (by linarith [Real.pi_pos]) hk
    refine ⟨h1, ?_⟩
    have h2 : |Real.sin e| = Real.sin |e| := by
      rcases abs_cases e with ⟨h3, h0⟩ | ⟨h3, h0⟩
      · rw [h3, abs_of_nonneg (Real.sin_nonneg_of_nonneg_of_le_pi h0 (by linarith [Real.pi_pos]))]
      · rw [h3, Real.sin_neg, abs_of_nonpos (Real.sin_nonpos_of_nonpos_of_neg_pi_le h0.le (by linarith [Real.pi_pos]))]
    have h3 : 0 ≤ Real.sin (a - |e|) := Real.sin_nonneg_of_nonneg_of_le_pi (by linarith) (by linarith [Real.pi_pos])
    rw [Real.sin_sub, Real.cos_abs] at h3
    rw [h2]
    linarith
  set C := weightedMean (fun p => Real.cos p.theta) l with hC
  set S := weightedMean (fun p => Real.sin p.theta) l with hS'
  set X := C * Real.cos dir + S * Real.sin dir with hX
  set Y := S * Real.cos dir - C * Real.sin dir with hY
  have eX : X = total (fun q => q.1 / total (·.1) l * Real.cos (q.2.theta - dir)) l := by
    rw [hX, hC, hS', weightedMean_eq, weightedMean_eq, mul_comm, mul_comm (total _ _) (Real.sin dir), ← total_mul, ← total_mul, ← total_add]
    exact total_congr fun q _ => by rw [Real.cos_sub]; ring
  have eY : Y = total (fun q => q.1 / total (·.1) l * Real.sin (q.2.theta - dir)) l := by
    have : Y = Real.cos dir * S + (-Real.sin dir) * C := by rw [hY]; ring
    rw [this, hC, hS', weightedMean_eq, weightedMean_eq, ← total_mul, ← total_mul, ← total_add]
    exact total_congr fun q _ => by rw [Real.sin_sub]; ring
  have hXa : Real.cos a ≤ X := by
    have := total_le (l := l) (f := fun q => Real.cos a * (q.1 / total (·.1) l)) (g := fun q => q.1 / total (·.1) l * Real.cos (q.2.theta - dir))
      fun q hq => by
        rw [mul_comm]
        exact mul_le_mul_of_nonneg_left (hone q hq).1 (div_nonneg (h.nonneg q hq) hS.le)
    rwa [total_mul, total_shares h.sum, mul_one, ← eX] at this
  have hYX : |Y| ≤ Real.sin a / Real.cos a * X := by
    have := total_near (l := l) (f := fun q => q.1 / total (·.1) l * Real.sin (q.2.theta - dir)) (g := fun _ => 0)
      (h := fun q => Real.sin a / Real.cos a * (q.1 / total (·.1) l * Real.cos (q.2.theta - dir))) fun q hq => by
        have hq0 := div_nonneg (h.nonneg q hq) hS.le
        rw [sub_zero, abs_mul, abs_of_nonneg hq0]
        have e1 : |Real.sin (q.2.theta - dir)| ≤ Real.sin a / Real.cos a * Real.cos (q.2.theta - dir) := by
          rw [div_mul_eq_mul_div, le_div_iff₀ hca]
          exact (hone q hq).2
        calc _ ≤ q.1 / total (·.1) l * (Real.sin a / Real.cos a * Real.cos (q.2.theta - dir)) := mul_le_mul_of_nonneg_left e1 hq0
          _ = _ := by ring
    rwa [total_const, mul_zero, sub_zero, total_mul, ← eX, ← eY] at this
  -- the direction of the mean
  have hX0 : 0 < X := lt_of_lt_of_le hca hXa
  set β := Complex.arg ⟨X, Y⟩ with hβ
  set R := ‖(⟨X, Y⟩ : ℂ)‖ with hR
  have p1 : X = R * Real.cos β := (Complex.norm_mul_cos_arg ⟨X, Y⟩).symm
  have p2 : Y = R * Real.sin β := (Complex.norm_mul_sin_arg ⟨X, Y⟩).symm
  have hRX : X ≤ R := by
    have := Complex.re_le_norm (⟨X, Y⟩ : ℂ)
    exact this
  have hR0 : 0 < R := lt_of_lt_of_le hX0 hRX
  have hβa : |β| ≤ a := by
    have hlt : |β| < Real.pi / 2 := Complex.abs_arg_lt_pi_div_two_iff.mpr (Or.inl hX0)
    by_contra hno
    push Not at hno
    have hcβ : 0 < Real.cos β := by
      rw [← Real.cos_abs]
      exact Real.cos_pos_of_mem_Ioo ⟨by linarith [Real.pi_pos], hlt⟩
    have h1 : 0 < Real.sin (|β| - a) := Real.sin_pos_of_pos_of_lt_pi (by linarith) (by linarith [Real.pi_pos])
    rw [Real.sin_sub, Real.cos_abs] at h1
    have h2 : Real.sin |β| = |Real.sin β| := by
      rcases abs_cases β with ⟨h3, h0⟩ | ⟨h3, h0⟩
      · rw [h3, abs_of_nonneg (Real.sin_nonneg_of_nonneg_of_le_pi h0 (by linarith [Real.pi_pos, le_abs_self β]))]
      · rw [h3, Real.sin_neg, abs_of_nonpos (Real.sin_nonpos_of_nonpos_of_neg_pi_le h0.le (by linarith [Real.pi_pos, neg_abs_le β]))]
    rw [h2] at h1
    rw [p2, abs_mul, abs_of_pos hR0, p1] at hYX
    have h3 : R * |Real.sin β| * Real.cos a ≤ Real.sin a * (R * Real.cos β) := by
      have := mul_le_mul_of_nonneg_right hYX hca.le
      calc _ ≤ _ := this
        _ = _ := by field_simp
    nlinarith
  have hmu : MeanDirection l (dir + β) R := by
    have hcs2 := Real.cos_sq_add_sin_sq dir
    constructor
    · show C = _
      rw [Real.cos_add]
      have : R * (Real.cos dir * Real.cos β - Real.sin dir * Real.sin β) = Real.cos dir * X - Real.sin dir * Y := by rw [p1, p2]; ring
      rw [this, hX, hY]
      linear_combination (-C) * hcs2
    · show S = _
      rw [Real.sin_add]
      have : R * (Real.sin dir * Real.cos β + Real.cos dir * Real.sin β) = Real.sin dir * X + Real.cos dir * Y := by rw [p1, p2]; ring
      rw [this, hX, hY]
      linear_combination (-S) * hcs2
  obtain ⟨-, k, hk⟩ := c131_heading hrd hcs hat h hR0 hmu (hlen.trans (hXa.trans hRX))
  refine ⟨k, ?_⟩
  have e1 : l.length * 2⁻¹ ^ 42 / R ≤ l.length * 2⁻¹ ^ 42 / Real.cos a :=
    div_le_div_of_nonneg_left (by positivity) hca (hXa.trans hRX)
  have e2 : meanHeading rd co si at2 l - (dir + k * (2 * Real.pi)) =
      (meanHeading rd co si at2 l - (dir + β + k * (2 * Real.pi))) + β := by ring
  rw [e2]
  refine (abs_add_le _ _).trans ?_
  linarith

/-- **C131** The entry of the covariance for the heading grows by the weighted mean of the squared angles between the headings of the particles and
the mean heading, up to `n 2^-48` times ten and what it was before, and `1e-13`. -/
theorem c131_variance {rd : ℝ → ℝ} (hrd : RoundsToNearest rd) {l : List (ℝ × Pose2d)} (h : Weighted l) {m : ℝ} (hm : |m| ≤ 3.5)
    (hth : ∀ a ∈ l, |a.2.theta| ≤ 3.5) (before : ℝ) :
    |headingVariance rd m before l - (before + weightedMean (fun p => turnBetween p.theta m ^ 2) l)| ≤
      l.length * (2⁻¹ ^ 48 * (|before| + 10)) + 1e-13 := by
  have hpi := Real.pi_pos
  have hpi2 : Real.pi ^ 2 ≤ 10 := by nlinarith [Real.pi_lt_d2]
  have h1 := weighted_from hrd h.nonneg h.sum h.count (V := 10)
    (t := fun a => rd (rd (rd (a.1 / sumWeights rd l) * Rounded.shortestAngularDistance rd a.2.theta m) * Rounded.shortestAngularDistance rd a.2.theta m))
    (v := fun a => Rounded.shortestAngularDistance rd a.2.theta m * Rounded.shortestAngularDistance rd a.2.theta m)
    ((pow_le_one₀ (by norm_num) (by norm_num)).trans (by norm_num)) (by
      intro a ha
      have := (shortest_turn hrd (hth a ha) hm).1
      rw [abs_mul]
      have e := mul_le_mul this this (abs_nonneg _) hpi.le
      nlinarith) (by
      intro a ha
      have hd := (shortest_turn hrd (hth a ha) hm).1
      refine (corr_term hrd hpi hd hd).trans (add_le_add ?_ ?_)
      · exact mul_le_mul_of_nonneg_right (mul_le_mul_of_nonneg_left hpi2 (by positivity)) (abs_nonneg _)
      · exact mul_le_mul_of_nonneg_left (by linarith) (by positivity)) before
  have e1 : headingVariance rd m before l = l.foldl (fun s a => rd (s + rd (rd (rd (a.1 / sumWeights rd l) *
      Rounded.shortestAngularDistance rd a.2.theta m) * Rounded.shortestAngularDistance rd a.2.theta m))) before := by
    unfold headingVariance normalised
    rw [List.foldl_map]
  have e2 := weightedMean_near h (f := fun p => Rounded.shortestAngularDistance rd p.theta m * Rounded.shortestAngularDistance rd p.theta m)
    (g := fun p => turnBetween p.theta m ^ 2) (δ := 1e-13) (by
      intro a ha
      obtain ⟨d1, d2⟩ := shortest_turn hrd (hth a ha) hm
      have d3 : 0 ≤ turnBetween a.2.theta m := Real.arccos_nonneg _
      have d4 : turnBetween a.2.theta m ≤ Real.pi := Real.arccos_le_pi _
      have d5 := abs_nonneg (Rounded.shortestAngularDistance rd a.2.theta m)
      have hp2 := Real.pi_lt_d2
      show |_ * _ - _ ^ 2| ≤ _
      rw [← abs_mul_abs_self (Rounded.shortestAngularDistance rd a.2.theta m)]
      set x := |Rounded.shortestAngularDistance rd a.2.theta m|
      set y := turnBetween a.2.theta m
      rw [show x * x - y ^ 2 = (x - y) * (x + y) by ring, abs_mul, abs_of_nonneg (by linarith : 0 ≤ x + y)]
      have := mul_le_mul d2 (by linarith : x + y ≤ 6.3) (by linarith) (by norm_num)
      norm_num at this ⊢
      linarith)
  rw [weightedMean_eq (fun p => Rounded.shortestAngularDistance rd p.theta m * Rounded.shortestAngularDistance rd p.theta m)] at e2
  rw [e1]
  have h3 := abs_sub_le (l.foldl (fun s a => rd (s + rd (rd (rd (a.1 / sumWeights rd l) *
      Rounded.shortestAngularDistance rd a.2.theta m) * Rounded.shortestAngularDistance rd a.2.theta m))) before)
    (before + total (fun a => a.1 / total (·.1) l * (Rounded.shortestAngularDistance rd a.2.theta m * Rounded.shortestAngularDistance rd a.2.theta m)) l)
    (before + weightedMean (fun p => turnBetween p.theta m ^ 2) l)
  rw [add_sub_add_left_eq_sub] at h3
  exact h3.trans (add_le_add h1 e2)

/-! ### Particles that meet the hypotheses -/

/-- `atan2` rounded to the nearest double. -/
def Demo.atanR (y x : ℝ) : ℝ := rnd (atan2 y x)

theorem rnd_pi : rnd Real.pi = piD := by
  have h1 := Real.pi_gt_d20
  have h2 := Real.pi_lt_d20
  rw [rnd_eval' (x := Real.pi) (k := 7074237752028440) 51 (by norm_num) (by left; constructor <;> norm_num at * <;> linarith)
    (by left; constructor <;> norm_num at * <;> linarith)]
  unfold piD
  norm_num

theorem accurateAtan2_demo : AccurateAtan2 Demo.atanR := by
  have hb : ∀ y x, |atan2 y x| ≤ Real.pi := fun y x => Complex.abs_arg_le_pi _
  constructor
  · intro y x
    obtain ⟨h1, h2⟩ := abs_le.mp (hb y x)
    refine le_trans (abs_le.mpr ⟨?_, ?_⟩) piD_le_pi
    · have := rnd_rounds.mono h1
      rwa [rnd_neg, rnd_pi] at this
    · have := rnd_rounds.mono h2
      rwa [rnd_pi] at this
  · intro y x _
    refine ⟨0, ?_⟩
    have h1 := rnd_rounds.error (atan2 y x)
    have h2 := halfMin_tiny
    have h3 := hb y x
    have h4 := Real.pi_lt_d2
    unfold Demo.atanR
    norm_num at h1 h2 ⊢
    linarith

/-- Two particles that face a little to either side of backwards. -/
def backwards : List (ℝ × Pose2d) := [(1 / 2, ⟨0, 0, 3⟩), (1 / 2, ⟨0, 0, -3⟩)]

theorem backwards_weighted : Weighted backwards := by
  refine ⟨?_, ?_, by norm_num [backwards]⟩
  · intro a ha
    simp only [backwards, List.mem_cons, List.not_mem_nil, or_false] at ha
    rcases ha with rfl | rfl <;> norm_num
  · norm_num [total, backwards]

theorem cos_three : Real.cos 3 ≤ -0.9 := by
  have h := Real.one_sub_sq_div_two_le_cos (x := Real.pi - 3)
  rw [Real.cos_pi_sub] at h
  nlinarith [Real.pi_gt_three, Real.pi_lt_d2]

/-- Their mean heading is backwards, not forwards. -/
example : ∃ k : ℤ, |meanHeading rnd Demo.cosR Demo.sinR Demo.atanR backwards - (Real.pi + k * (2 * Real.pi))| ≤ 1e-11 := by
  have h3 := cos_three
  obtain ⟨-, k, hk⟩ := c131_heading rnd_rounds accurate_demo accurateAtan2_demo backwards_weighted (mu := Real.pi) (R := -Real.cos 3)
    (by norm_num at h3 ⊢; linarith) ⟨by norm_num [weightedMean, total, backwards]; ring, by norm_num [weightedMean, total, backwards]⟩
    (by norm_num [backwards] at h3 ⊢; linarith)
  refine ⟨k, hk.trans ?_⟩
  have : (backwards.length : ℝ) * 2⁻¹ ^ 42 / -Real.cos 3 ≤ 9e-12 := by
    rw [div_le_iff₀ (by norm_num at h3 ⊢; linarith)]
    norm_num [backwards] at h3 ⊢
    linarith
  norm_num at this ⊢
  linarith

example : ∃ k : ℤ, |meanHeading rnd Demo.cosR Demo.sinR Demo.atanR backwards - (Real.pi + k * (2 * Real.pi))| ≤
    0.2 + 2 * 2⁻¹ ^ 42 / Real.cos 0.2 + 2⁻¹ ^ 50 := by
  have p1 := Real.pi_gt_three
  have p2 := Real.pi_lt_d2
  have hc := Real.one_sub_sq_div_two_le_cos (x := 0.2)
  refine c131_among rnd_rounds accurate_demo accurateAtan2_demo backwards_weighted (dir := Real.pi) (a := 0.2) (by norm_num; linarith) ?_
    (by norm_num [backwards] at hc ⊢; linarith)
  intro q hq
  simp only [backwards, List.mem_cons, List.not_mem_nil, or_false] at hq
  rcases hq with rfl | rfl
  · exact ⟨0, by norm_num [abs_le] at p2 ⊢; constructor <;> linarith⟩
  · exact ⟨1, by norm_num [abs_le] at p2 ⊢; constructor <;> linarith⟩

/-- The angle between them is `2 pi - 6`, not 6. -/
example : |headingVariance rnd 3 0 backwards - (2 * Real.pi - 6) ^ 2 / 2| ≤ 3e-13 := by
  have h := c131_variance rnd_rounds backwards_weighted (m := 3) (by norm_num [abs_le]) (by
    intro a ha
    simp only [backwards, List.mem_cons, List.not_mem_nil, or_false] at ha
    rcases ha with rfl | rfl <;> norm_num [abs_le]) 0
  have e1 : turnBetween (-3) 3 = 2 * Real.pi - 6 := by
    unfold turnBetween
    rw [show (-3 - 3 : ℝ) = -6 by norm_num, Real.cos_neg, ← Real.cos_two_pi_sub]
    exact Real.arccos_cos (by linarith [Real.pi_gt_three]) (by linarith [Real.pi_lt_d2])
  have e2 : turnBetween 3 3 = 0 := by unfold turnBetween; simp
  have e3 : weightedMean (fun p => turnBetween p.theta 3 ^ 2) backwards = (2 * Real.pi - 6) ^ 2 / 2 := by
    norm_num [weightedMean, total, backwards, e1, e2]
    ring
  rw [e3, zero_add] at h
  refine h.trans ?_
  norm_num [backwards]

end

end Ndt
