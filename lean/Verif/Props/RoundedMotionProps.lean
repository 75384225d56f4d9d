import Verif.Proof.RoundedMotion
import Verif.Props.SingleProps
import Verif.Props.RoundedHeadingProps

/-! # Property C138: the motion model in double precision -/

namespace Ndt

open Real Rounded Spec

noncomputable section

theorem hypot_le {hyp : ℝ → ℝ → ℝ} (hh : AccurateHypot hyp) (x y : ℝ) : |hyp x y - hypot x y| ≤ 2.3e-16 * hypot x y + 1e-30 := by
  have h := hh x y
  have h0 := hypot_nonneg x y
  have e : Real.sqrt (x ^ 2 + y ^ 2) = hypot x y := rfl
  rw [e] at h
  have h1 : (2⁻¹ : ℝ) ^ 1074 ≤ 1e-30 := by
    have : (2⁻¹ : ℝ) ^ 1074 ≤ 2⁻¹ ^ 100 := pow_le_pow_of_le_one (by norm_num) (by norm_num) (by norm_num)
    refine this.trans ?_
    norm_num
  have h2 : (2⁻¹ : ℝ) ^ 52 * hypot x y ≤ 2.3e-16 * hypot x y := mul_le_mul_of_nonneg_right (by norm_num) h0
  exact h.trans (add_le_add h2 h1)

/-- Beyond one centimetre the direction of the motion is taken. -/
theorem rot1_near {rd : ℝ → ℝ} (hrd : RoundsToNearest rd) {hyp at2 : ℝ → ℝ → ℝ} (hh : AccurateHypot hyp) (hat : AccurateAtan2 at2)
    {dx dy : ℝ} (hd : 0.01 + 1e-15 ≤ hypot dx dy) :
    Rounded.rot1 rd hyp at2 dx dy = at2 dy dx ∧ |at2 dy dx| ≤ π ∧ ∃ n : ℤ, |at2 dy dx - (atan2 dy dx + n * (2 * π))| ≤ 1e-15 := by
  have h1 := abs_le.mp (hypot_le hh dx dy)
  have h2 := abs_le.mp (rd_near hrd (x := 0.01) (X := 0.01) (by rw [abs_of_pos (by norm_num)]))
  refine ⟨if_pos ?_, hat.range _ _, ?_⟩
  · norm_num at h1 h2 hd ⊢
    linarith [h1.1, h2.2]
  · have hne : dx ≠ 0 ∨ dy ≠ 0 := by
      by_contra h
      push Not at h
      rw [h.1, h.2] at hd
      norm_num [hypot] at hd
    obtain ⟨k, hk⟩ := hat.near dy dx hne
    exact ⟨k, hk.trans (by norm_num)⟩

theorem rot2_near {rd : ℝ → ℝ} (hrd : RoundsToNearest rd) {hyp at2 : ℝ → ℝ → ℝ} (hh : AccurateHypot hyp) (hat : AccurateAtan2 at2)
    {dx dy dth : ℝ} (hd : 0.01 + 1e-15 ≤ hypot dx dy) (hth : |dth| ≤ 3.5) :
    |Rounded.rot2 rd hyp at2 dx dy dth| ≤ π ∧
      ∃ n : ℤ, |Rounded.rot2 rd hyp at2 dx dy dth - (dth - atan2 dy dx + n * (2 * π))| ≤ 5e-15 := by
  obtain ⟨e, r, k, hk⟩ := rot1_near hrd hh hat hd
  unfold Rounded.rot2
  rw [e]
  have hp := pi_lt_d2
  obtain ⟨h1, n, hn⟩ := shortest_near hrd (a := at2 dy dx) (b := dth) (r.trans (by norm_num at hp ⊢; linarith)) hth
  refine ⟨normalizeAngle_le hrd _, n - k, ?_⟩
  have t := abs_add_le (Rounded.shortestAngularDistance rd (at2 dy dx) dth - (dth - at2 dy dx + n * (2 * π)))
    (-(at2 dy dx - (atan2 dy dx + k * (2 * π))))
  rw [abs_neg] at t
  have e2 : Rounded.shortestAngularDistance rd (at2 dy dx) dth - (dth - at2 dy dx + n * (2 * π)) + -(at2 dy dx - (atan2 dy dx + k * (2 * π))) =
      Rounded.shortestAngularDistance rd (at2 dy dx) dth - (dth - atan2 dy dx + (n - k : ℤ) * (2 * π)) := by push_cast; ring
  rw [e2] at t
  norm_num at hn hk t ⊢
  linarith

/-! ## Deviations -/

/-- **C138** With coefficients that are not negative the deviations are numbers that are not negative, in double precision too and whatever
the library's `hypot` and `atan2` return. -/
theorem c138_deviations_are_numbers {rd : ℝ → ℝ} (hrd : RoundsToNearest rd) (hyp at2 : ℝ → ℝ → ℝ) {m : MotionModel} (h1 : 0 ≤ m.a1) (h2 : 0 ≤ m.a2)
    (h3 : 0 ≤ m.a3) (h4 : 0 ≤ m.a4) (dx dy dth : ℝ) :
    (∃ s, sigmaRot1 rd hyp at2 m dx dy dth = .fin s ∧ 0 ≤ s) ∧ (∃ s, sigmaTrans rd hyp at2 m dx dy dth = .fin s ∧ 0 ≤ s) ∧
      ∃ s, sigmaRot2 rd hyp at2 m dx dy dth = .fin s ∧ 0 ≤ s := by
  have p := fun {a : ℝ} (ha : 0 ≤ a) x => timesSquare_nonneg hrd ha x
  refine ⟨?_, ?_, ?_⟩
  · obtain ⟨s, e, hs, -⟩ := sqrt_near hrd (hrd.nonneg (add_nonneg (p h1 (fold rd (Rounded.rot1 rd hyp at2 dx dy))) (p h2 (hyp dx dy))))
    exact ⟨s, e, hs⟩
  · obtain ⟨s, e, hs, -⟩ := sqrt_near hrd (hrd.nonneg (add_nonneg (hrd.nonneg (add_nonneg (p h3 (hyp dx dy))
      (p h4 (fold rd (Rounded.rot1 rd hyp at2 dx dy))))) (p h4 (fold rd (Rounded.rot2 rd hyp at2 dx dy dth)))))
    exact ⟨s, e, hs⟩
  · obtain ⟨s, e, hs, -⟩ := sqrt_near hrd (hrd.nonneg (add_nonneg (p h1 (fold rd (Rounded.rot2 rd hyp at2 dx dy dth))) (p h2 (hyp dx dy))))
    exact ⟨s, e, hs⟩

theorem axis_term {rd : ℝ → ℝ} (hrd : RoundsToNearest rd) {a r c : ℝ} (ha : 0 ≤ a) (hr : |r| ≤ 3.5) (h : ∃ n : ℤ, |r - (c + n * (2 * π))| ≤ 5e-15) :
    |timesSquare rd a (fold rd r) - a * offAxis c ^ 2| ≤ 8e-14 * a + 1e-29 ∧ a * offAxis c ^ 2 ≤ 2.6 * a := by
  obtain ⟨-, hf⟩ := fold_near hrd hr h
  have h0 := offAxis_nonneg c
  have h1 := offAxis_le c
  have hp := pi_lt_d2
  have h2 : offAxis c ≤ 1.6 := by norm_num at hp ⊢; linarith
  have := timesSquare_near hrd ha hf (B := 1.6) (by rw [abs_of_nonneg h0]; exact h2) (by norm_num)
  constructor
  · norm_num at this ⊢
    linarith
  · have h3 : offAxis c ^ 2 ≤ 1.6 ^ 2 := pow_le_pow_left₀ h0 h2 2
    have := mul_le_mul_of_nonneg_left h3 ha
    norm_num at this ⊢
    linarith

theorem trans_term {rd : ℝ → ℝ} (hrd : RoundsToNearest rd) {a : ℝ} {hyp : ℝ → ℝ → ℝ} (hh : AccurateHypot hyp) {dx dy : ℝ} (ha : 0 ≤ a)
    (hd : 0.01 + 1e-15 ≤ hypot dx dy) (hd2 : hypot dx dy ≤ 1e6) :
    |timesSquare rd a (hyp dx dy) - a * hypot dx dy ^ 2| ≤ 1e-15 * (a * hypot dx dy ^ 2) + 1e-23 := by
  have h0 := hypot_nonneg dx dy
  have h1 := hypot_le hh dx dy
  have h2 : |hyp dx dy - hypot dx dy| ≤ 2.4e-16 * hypot dx dy := by norm_num at h1 hd ⊢; linarith
  have := timesSquare_near hrd ha h2 (B := hypot dx dy) (le_of_eq (abs_of_nonneg h0)) (by norm_num; linarith)
  have e : a * (2.1 * (2.4e-16 * hypot dx dy) * hypot dx dy + 4e-16 * hypot dx dy ^ 2) = (2.1 * 2.4e-16 + 4e-16) * (a * hypot dx dy ^ 2) := by ring
  rw [e] at this
  have h3 : 0 ≤ a * hypot dx dy ^ 2 := by positivity
  norm_num at this hd2 ⊢
  linarith

/-- The deviation from two terms. -/
theorem deviation_near {rd : ℝ → ℝ} (hrd : RoundsToNearest rd) {v V E : ℝ} (hv0 : 0 ≤ v) (hV0 : 0 ≤ V) (hv : |v - V| ≤ E) :
    ∃ s, Fl.rounded rd (Fl.sqrt (.fin (rd v))) = .fin s ∧ 0 ≤ s ∧ |s ^ 2 - V| ≤ 1.1 * E + 5e-16 * V + 2e-29 := by
  obtain ⟨s, e, hs, h⟩ := sqrt_near hrd (hrd.nonneg hv0)
  refine ⟨s, e, hs, ?_⟩
  have h1 := abs_sub_abs_le_abs_sub v V
  rw [abs_of_nonneg hV0] at h1
  have h2 := rd_near hrd (le_refl |v|)
  have h3 := abs_sub_le (s ^ 2) (rd v) V
  have h4 := abs_sub_le (rd v) v V
  have h5 := abs_le.mp h2
  have h6 := le_abs_self v
  have h7 := (abs_nonneg (v - V)).trans hv
  norm_num at h h2 h5 ⊢
  linarith [h5.1, h5.2]

/-- **C138** The deviations are those of the formula for the exact motion: their squares are right up to a part in ten million million. -/
theorem c138_deviations {rd : ℝ → ℝ} (hrd : RoundsToNearest rd) {hyp at2 : ℝ → ℝ → ℝ} (hh : AccurateHypot hyp) (hat : AccurateAtan2 at2)
    {m : MotionModel} (h1 : 0 ≤ m.a1) (h2 : 0 ≤ m.a2) (h3 : 0 ≤ m.a3) (h4 : 0 ≤ m.a4) {dx dy dth : ℝ} (hd : 0.01 + 1e-15 ≤ hypot dx dy)
    (hd2 : hypot dx dy ≤ 1e6) (hth : |dth| ≤ 3.5) :
    let f1 := offAxis (atan2 dy dx)
    let f2 := offAxis (dth - atan2 dy dx)
    let D := hypot dx dy
    (∃ s, sigmaRot1 rd hyp at2 m dx dy dth = .fin s ∧ 0 ≤ s ∧ |s ^ 2 - (m.a1 * f1 ^ 2 + m.a2 * D ^ 2)| ≤ 1e-13 * (m.a1 + m.a2 * D ^ 2) + 1e-22) ∧
    (∃ s, sigmaTrans rd hyp at2 m dx dy dth = .fin s ∧ 0 ≤ s ∧
      |s ^ 2 - (m.a3 * D ^ 2 + m.a4 * f1 ^ 2 + m.a4 * f2 ^ 2)| ≤ 2e-13 * (m.a4 + m.a3 * D ^ 2) + 1e-22) ∧
    ∃ s, sigmaRot2 rd hyp at2 m dx dy dth = .fin s ∧ 0 ≤ s ∧ |s ^ 2 - (m.a1 * f2 ^ 2 + m.a2 * D ^ 2)| ≤ 1e-13 * (m.a1 + m.a2 * D ^ 2) + 1e-22 := by
  intro f1 f2 D
  obtain ⟨e, r, k, hk⟩ := rot1_near hrd hh hat hd
  obtain ⟨r2, hk2⟩ := rot2_near hrd hh hat hd hth
  have hp := pi_lt_d2
  have p35 : π ≤ 3.5 := by norm_num at hp ⊢; linarith
  have ax1 := fun {a : ℝ} (ha : 0 ≤ a) => axis_term hrd ha (r := Rounded.rot1 rd hyp at2 dx dy) (c := atan2 dy dx) (by rw [e]; exact r.trans p35)
    (by rw [e]; exact ⟨k, hk.trans (by norm_num)⟩)
  have ax2 := fun {a : ℝ} (ha : 0 ≤ a) => axis_term hrd ha (r := Rounded.rot2 rd hyp at2 dx dy dth) (c := dth - atan2 dy dx) (r2.trans p35) hk2
  have tr := fun {a : ℝ} (ha : 0 ≤ a) => trans_term hrd hh ha hd hd2
  have ns := fun {a : ℝ} (ha : 0 ≤ a) x => timesSquare_nonneg hrd ha x
  have pos := fun {a : ℝ} (ha : 0 ≤ a) (x : ℝ) => mul_nonneg ha (sq_nonneg x)
  have two : ∀ {t1 t2 g1 g2 e1 e2 : ℝ}, |t1 - g1| ≤ e1 → |t2 - g2| ≤ e2 → |t1 + t2 - (g1 + g2)| ≤ e1 + e2 := by
    intro t1 t2 g1 g2 e1 e2 a b
    rw [add_sub_add_comm]
    exact (abs_add_le _ _).trans (add_le_add a b)
  refine ⟨?_, ?_, ?_⟩
  · obtain ⟨s, e, hs, h⟩ := deviation_near hrd (add_nonneg (ns h1 (fold rd (Rounded.rot1 rd hyp at2 dx dy))) (ns h2 (hyp dx dy)))
      (add_nonneg (pos h1 f1) (pos h2 D)) (two (ax1 h1).1 (tr h2))
    refine ⟨s, e, hs, h.trans ?_⟩
    have q := (ax1 h1).2
    have q2 := pos h2 D
    change _ + 5e-16 * (m.a1 * f1 ^ 2 + m.a2 * D ^ 2) + _ ≤ _
    change m.a1 * f1 ^ 2 ≤ _ at q
    have e0 : hypot dx dy = D := rfl
    rw [e0]
    norm_num at q ⊢
    linarith
  · have i1 := two (tr h3) (ax1 h4).1
    have q1 := (ax1 h4).2
    have q2 := (ax2 h4).2
    have q3 := pos h3 D
    have w0 := add_nonneg (ns h3 (hyp dx dy)) (ns h4 (fold rd (Rounded.rot1 rd hyp at2 dx dy)))
    change m.a4 * f1 ^ 2 ≤ _ at q1
    change m.a4 * f2 ^ 2 ≤ _ at q2
    have e0 : hypot dx dy = D := rfl
    have e1 : offAxis (atan2 dy dx) = f1 := rfl
    rw [e0, e1] at i1
    set w := timesSquare rd m.a3 (hyp dx dy) + timesSquare rd m.a4 (fold rd (Rounded.rot1 rd hyp at2 dx dy))
    have i2 := rd_near hrd (le_of_eq (abs_of_nonneg w0))
    have i3 : |rd w - (m.a3 * D ^ 2 + m.a4 * f1 ^ 2)| ≤ 9e-14 * m.a4 + 1.2e-15 * (m.a3 * D ^ 2) + 2e-23 := by
      have t := abs_sub_le (rd w) w (m.a3 * D ^ 2 + m.a4 * f1 ^ 2)
      have t2 := abs_le.mp i1
      norm_num at i1 i2 t2 q1 ⊢
      linarith [t2.1, t2.2]
    obtain ⟨s, e, hs, h⟩ := deviation_near hrd (add_nonneg (hrd.nonneg w0) (ns h4 (fold rd (Rounded.rot2 rd hyp at2 dx dy dth))))
      (add_nonneg (add_nonneg (pos h3 D) (pos h4 f1)) (pos h4 f2)) (two i3 (ax2 h4).1)
    refine ⟨s, e, hs, h.trans ?_⟩
    norm_num at q1 q2 ⊢
    linarith
  · obtain ⟨s, e, hs, h⟩ := deviation_near hrd (add_nonneg (ns h1 (fold rd (Rounded.rot2 rd hyp at2 dx dy dth))) (ns h2 (hyp dx dy)))
      (add_nonneg (pos h1 f2) (pos h2 D)) (two (ax2 h1).1 (tr h2))
    refine ⟨s, e, hs, h.trans ?_⟩
    have q := (ax2 h1).2
    have q2 := pos h2 D
    change _ + 5e-16 * (m.a1 * f2 ^ 2 + m.a2 * D ^ 2) + _ ≤ _
    change m.a1 * f2 ^ 2 ≤ _ at q
    have e0 : hypot dx dy = D := rfl
    rw [e0]
    norm_num at q ⊢
    linarith

/-! ## Poses -/

theorem floatDraw_fin {rf : ℝ → ℝ} (z mean s : ℝ) : floatDraw rf z mean (.fin s) = .fin (rf (rf (z * rf s) + rf mean)) := rfl

theorem floatDraw_zero {rf : ℝ → ℝ} (hrf : RoundsToFloat rf) (z mean : ℝ) : floatDraw rf z mean (.fin 0) = .fin (rf mean) := by
  rw [floatDraw_fin, hrf.exact isFloat_zero, mul_zero, hrf.exact isFloat_zero, zero_add, hrf.exact (hrf.isFloat mean)]

/-- **C138** With coefficients that are not negative every draw is a number, and the pose is moved by the draws. -/
theorem c138_draws_are_numbers {rd : ℝ → ℝ} (hrd : RoundsToNearest rd) (rf co si : ℝ → ℝ) (hyp at2 : ℝ → ℝ → ℝ) {m : MotionModel} (h1 : 0 ≤ m.a1)
    (h2 : 0 ≤ m.a2) (h3 : 0 ≤ m.a3) (h4 : 0 ≤ m.a4) (z : Fin 3 → ℝ) (dx dy dth : ℝ) (p : Pose2d) :
    ∃ r1 t r2, sampleOne rd rf co si hyp at2 m z dx dy dth p = some (moved rd co si r1 t r2 p) := by
  obtain ⟨⟨s1, e1, -⟩, ⟨s2, e2, -⟩, ⟨s3, e3, -⟩⟩ := c138_deviations_are_numbers hrd hyp at2 h1 h2 h3 h4 dx dy dth
  unfold sampleOne
  rw [e1, e2, e3, floatDraw_fin, floatDraw_fin, floatDraw_fin]
  exact ⟨_, _, _, rfl⟩

/-- **C138** Whatever the draws, the pose is moved by them as it should be: forward by `t` in the direction turned by `r1`, and turned by both. -/
theorem c138_moved {rd : ℝ → ℝ} (hrd : RoundsToNearest rd) {co si : ℝ → ℝ} (hlib : Accurate co si) {r1 t r2 : ℝ} {p : Pose2d} {P L : ℝ}
    (hx : |p.x| ≤ P) (hy : |p.y| ≤ P) (hth : |p.theta| ≤ 3.5) (h1 : |r1| ≤ 3.2) (h2 : |r2| ≤ 3.2) (ht : |t| ≤ L) :
    |(moved rd co si r1 t r2 p).x - (p.x + t * cos (p.theta + r1))| ≤ 2e-15 * L + 1.3e-16 * P + 1e-29 ∧
    |(moved rd co si r1 t r2 p).y - (p.y + t * sin (p.theta + r1))| ≤ 2e-15 * L + 1.3e-16 * P + 1e-29 ∧
    |(moved rd co si r1 t r2 p).theta| ≤ π ∧
    ∃ n : ℤ, |(moved rd co si r1 t r2 p).theta - (p.theta + r1 + r2 + n * (2 * π))| ≤ 6e-15 := by
  have hP : 0 ≤ P := (abs_nonneg _).trans hx
  have hL : 0 ≤ L := (abs_nonneg _).trans ht
  have ha : |p.theta + r1| ≤ 6.7 := (abs_add_le _ _).trans (by norm_num at hth h1 ⊢; linarith)
  have ha2 := rd_near hrd ha
  have ha3 : |rd (p.theta + r1) - (p.theta + r1)| ≤ 8.1e-16 := ha2.trans (by norm_num)
  obtain ⟨c1, s1, c2, s2⟩ := lib_near hlib ha3
  have key : ∀ {c g x : ℝ}, |g| ≤ 1 → |c| ≤ 1.01 → |c - g| ≤ 8.1e-16 + 2.3e-16 → |x| ≤ P →
      |rd (x + rd (t * c)) - (x + t * g)| ≤ 2e-15 * L + 1.3e-16 * P + 1e-29 := by
    intro c g x hg hc hcg hxP
    have q := prod_near hrd hg hc hcg (x := t) (X := t) (δ := 0) (by simp) ht hL
    rw [mul_comm c t, mul_comm g t] at q
    have q2 : |t * g| ≤ L := by
      rw [abs_mul]
      exact (mul_le_mul ht hg (abs_nonneg _) hL).trans (by rw [mul_one])
    have q3 : |x + rd (t * c)| ≤ P + 1.1 * L + 1e-30 := by
      have t1 := abs_add_le x (rd (t * c))
      have t2 := abs_sub_abs_le_abs_sub (rd (t * c)) (t * g)
      norm_num [-abs_mul] at q ⊢
      linarith
    have q4 := rd_near hrd q3
    have q5 := abs_sub_le (rd (x + rd (t * c))) (x + rd (t * c)) (x + t * g)
    rw [add_sub_add_left_eq_sub] at q5
    norm_num [-abs_mul] at q q4 ⊢
    linarith
  refine ⟨key (abs_cos_le_one _) c2 c1 hx, key (abs_sin_le_one _) s2 s1 hy, normalizeAngle_le hrd _, ?_⟩
  have b0 := abs_le.mp ha
  have b1 := abs_le.mp ha3
  have b2 := abs_le.mp h2
  have b3 : |rd (p.theta + r1) + r2| ≤ 9.91 := by
    rw [abs_le]
    norm_num at b0 b1 b2 ⊢
    constructor <;> linarith [b0.1, b0.2, b1.1, b1.2, b2.1, b2.2]
  have b4 := rd_near hrd b3
  have b5 : |rd (rd (p.theta + r1) + r2)| ≤ 10 := by
    have := abs_sub_abs_le_abs_sub (rd (rd (p.theta + r1) + r2)) (rd (p.theta + r1) + r2)
    norm_num at b3 b4 ⊢
    linarith
  obtain ⟨n, hn⟩ := normalizeAngle_near10 hrd b5
  refine ⟨n, ?_⟩
  have b6 := abs_le.mp hn
  have b7 := abs_le.mp b4
  change |Rounded.normalizeAngle rd (rd (rd (p.theta + r1) + r2)) - _| ≤ _
  rw [abs_le]
  norm_num at b1 b6 b7 ⊢
  constructor <;> linarith [b1.1, b1.2, b6.1, b6.2, b7.1, b7.2]

theorem sqrt_zero_rounded {rd : ℝ → ℝ} (hrd : RoundsToNearest rd) : Fl.rounded rd (Fl.sqrt (.fin 0)) = .fin 0 := by
  have : Fl.sqrt (.fin 0) = .fin 0 := by simp [Fl.sqrt]
  rw [this]
  exact congrArg Fl.fin (hrd.exact isDouble_zero)

theorem timesSquare_zero {rd : ℝ → ℝ} (hrd : RoundsToNearest rd) (x : ℝ) : timesSquare rd 0 x = 0 ∧ timesSquare rd x 0 = 0 := by
  constructor <;> simp [timesSquare, hrd.exact isDouble_zero]

theorem noiseless_deviations {rd : ℝ → ℝ} (hrd : RoundsToNearest rd) (hyp at2 : ℝ → ℝ → ℝ) {m : MotionModel} (hm : Noiseless m) (dx dy dth : ℝ) :
    sigmaRot1 rd hyp at2 m dx dy dth = .fin 0 ∧ sigmaTrans rd hyp at2 m dx dy dth = .fin 0 ∧ sigmaRot2 rd hyp at2 m dx dy dth = .fin 0 := by
  obtain ⟨h1, h2, h3, h4⟩ := hm
  simp only [sigmaRot1, sigmaTrans, sigmaRot2, h1, h2, h3, h4, (timesSquare_zero hrd _).1, add_zero, hrd.exact isDouble_zero, sqrt_zero_rounded hrd,
    and_self]

theorem float_half_turn {rf : ℝ → ℝ} (hrf : RoundsToFloat rf) {a : ℝ} (h : |a| ≤ π) : |rf a - a| ≤ 2e-7 ∧ |rf a| ≤ 3.2 := by
  have h1 := hrf.error a
  have h2 := halfMinF_le
  have h3 := pi_lt_d2
  have h4 := abs_sub_abs_le_abs_sub (rf a) a
  norm_num at h1 h2 h3 ⊢
  constructor <;> linarith

/-- **C138** Without noise a motion of more than a centimetre moves a pose by the commanded motion, up to a millionth of its length and a
millionth of a radian, and up to the rounding of the coordinates. -/
theorem c138_noise_free {rd rf : ℝ → ℝ} (hrd : RoundsToNearest rd) (hrf : RoundsToFloat rf) {co si : ℝ → ℝ} (hlib : Accurate co si)
    {hyp at2 : ℝ → ℝ → ℝ} (hh : AccurateHypot hyp) (hat : AccurateAtan2 at2) {m : MotionModel} (hm : Noiseless m) (z : Fin 3 → ℝ)
    {dx dy dth P : ℝ} {p : Pose2d} (hd : 0.01 + 1e-15 ≤ hypot dx dy) (hth : |dth| ≤ 3.5) (hx : |p.x| ≤ P) (hy : |p.y| ≤ P) (hp : |p.theta| ≤ 3.5) :
    ∃ q, sampleOne rd rf co si hyp at2 m z dx dy dth p = some q ∧
      |q.x - (compose p ⟨dx, dy, dth⟩).x| ≤ 1e-6 * hypot dx dy + 1.3e-16 * P ∧
      |q.y - (compose p ⟨dx, dy, dth⟩).y| ≤ 1e-6 * hypot dx dy + 1.3e-16 * P ∧ |q.theta| ≤ π ∧
      ∃ n : ℤ, |q.theta - ((compose p ⟨dx, dy, dth⟩).theta + n * (2 * π))| ≤ 1e-6 := by
  obtain ⟨d1, d2, d3⟩ := noiseless_deviations hrd hyp at2 hm dx dy dth
  obtain ⟨e, r, k, hk⟩ := rot1_near hrd hh hat hd
  obtain ⟨r', k2, hk2⟩ := rot2_near hrd hh hat hd hth
  have hcx := hypot_mul_cos_atan2 dx dy
  have hcy := hypot_mul_sin_atan2 dx dy
  have hhy := hypot_le hh dx dy
  unfold sampleOne
  rw [d1, d2, d3, floatDraw_zero hrf, floatDraw_zero hrf, floatDraw_zero hrf, e]
  refine ⟨_, rfl, ?_⟩
  obtain ⟨f1, f2⟩ := float_half_turn hrf r
  obtain ⟨g1, g2⟩ := float_half_turn hrf r'
  set R1 := rf (at2 dy dx)
  set R2 := rf (Rounded.rot2 rd hyp at2 dx dy dth)
  set T := rf (hyp dx dy) with hT
  set D := hypot dx dy
  set A := atan2 dy dx
  have hD : 0 < D := lt_of_lt_of_le (by norm_num) hd
  have hTD : |T - D| ≤ 1e-7 * D := by
    have t1 := hrf.error (hyp dx dy)
    have t2 := halfMinF_le
    have t3 := abs_sub_abs_le_abs_sub (hyp dx dy) D
    have t4 := abs_sub_le T (hyp dx dy) D
    rw [abs_of_pos hD] at t3
    rw [← hT] at t1
    norm_num at t1 t2 hhy hd ⊢
    linarith
  have hTL : |T| ≤ 1.1 * D := by
    have t3 := abs_sub_abs_le_abs_sub T D
    rw [abs_of_pos hD] at t3
    norm_num at hTD ⊢
    linarith
  obtain ⟨m1, m2, m3, n, hn⟩ := c138_moved hrd hlib hx hy hp f2 g2 hTL
  have turn : |p.theta + R1 - (p.theta + A + k * (2 * π))| ≤ 2.1e-7 := by
    have t := abs_add_le (R1 - at2 dy dx) (at2 dy dx - (A + k * (2 * π)))
    have e2 : p.theta + R1 - (p.theta + A + k * (2 * π)) = (R1 - at2 dy dx) + (at2 dy dx - (A + k * (2 * π))) := by ring
    rw [e2]
    refine t.trans ?_
    norm_num at f1 hk ⊢
    linarith
  have key : ∀ {f g : ℝ}, |f| ≤ 1 → |f - g| ≤ 2.1e-7 → |T * f - D * g| ≤ 5e-7 * D := by
    intro f g hf hg
    have e : T * f - D * g = (T - D) * f + D * (f - g) := by ring
    rw [e]
    refine (abs_add_le _ _).trans ?_
    rw [abs_mul, abs_mul, abs_of_pos hD]
    have h3 : |T - D| * |f| ≤ 1e-7 * D * 1 := mul_le_mul hTD hf (abs_nonneg _) (by positivity)
    have h4 : D * |f - g| ≤ D * 2.1e-7 := mul_le_mul_of_nonneg_left hg hD.le
    norm_num at h3 h4 ⊢
    linarith
  refine ⟨?_, ?_, m3, ?_⟩
  · have w := key (abs_cos_le_one (p.theta + R1)) ((cos_diff_le _ _).trans turn)
    rw [cos_add_int_mul_two_pi, cos_add p.theta A] at w
    have e3 : (compose p ⟨dx, dy, dth⟩).x = p.x + D * (cos p.theta * cos A - sin p.theta * sin A) := by
      simp only [compose]
      linear_combination -cos p.theta * hcx + sin p.theta * hcy
    rw [e3]
    have w2 := abs_sub_le (moved rd co si R1 T R2 p).x (p.x + T * cos (p.theta + R1)) (p.x + D * (cos p.theta * cos A - sin p.theta * sin A))
    rw [add_sub_add_left_eq_sub] at w2
    norm_num at m1 w hd ⊢
    linarith
  · have w := key (abs_sin_le_one (p.theta + R1)) ((sin_diff_le _ _).trans turn)
    rw [sin_add_int_mul_two_pi, sin_add p.theta A] at w
    have e3 : (compose p ⟨dx, dy, dth⟩).y = p.y + D * (sin p.theta * cos A + cos p.theta * sin A) := by
      simp only [compose]
      linear_combination -sin p.theta * hcx - cos p.theta * hcy
    rw [e3]
    have w2 := abs_sub_le (moved rd co si R1 T R2 p).y (p.y + T * sin (p.theta + R1)) (p.y + D * (sin p.theta * cos A + cos p.theta * sin A))
    rw [add_sub_add_left_eq_sub] at w2
    norm_num at m2 w hd ⊢
    linarith
  · refine ⟨n + k + k2, ?_⟩
    have q1 := abs_le.mp hn
    have q2 := abs_le.mp turn
    have q3 := abs_le.mp g1
    have q4 := abs_le.mp hk2
    simp only [compose]
    rw [abs_le]
    push_cast
    norm_num at q1 q2 q3 q4 ⊢
    constructor <;> linarith [q1.1, q1.2, q2.1, q2.2, q3.1, q3.2, q4.1, q4.2]

theorem normalizeAngle_zero {rd : ℝ → ℝ} (hrd : RoundsToNearest rd) : Rounded.normalizeAngle rd 0 = 0 := by
  have hp := piD_pos
  have e : truncZ (piD / (2 * piD)) = 0 := by
    have : piD / (2 * piD) = 1 / 2 := by field_simp
    rw [this]
    unfold truncZ
    norm_num
  unfold Rounded.normalizeAngle fmod
  dsimp only
  rw [zero_add, hrd.exact isDouble_piD, e]
  simp only [Int.cast_zero, mul_zero, sub_zero]
  rw [if_neg (not_le.mpr hp), sub_self]
  exact hrd.exact isDouble_zero

/-- **C138** A robot that has not moved: the deviations are zero and the position is kept exactly, whatever the coefficients and the draws. -/
theorem c138_still {rd rf : ℝ → ℝ} (hrd : RoundsToNearest rd) (hrf : RoundsToFloat rf) (co si : ℝ → ℝ) {hyp : ℝ → ℝ → ℝ} (h0 : hyp 0 0 = 0)
    (at2 : ℝ → ℝ → ℝ) (m : MotionModel) (z : Fin 3 → ℝ) {p : Pose2d} (hx : IsDouble p.x) (hy : IsDouble p.y) (hp : |p.theta| ≤ 3.5)
    (hpd : IsDouble p.theta) :
    (sigmaRot1 rd hyp at2 m 0 0 0 = .fin 0 ∧ sigmaTrans rd hyp at2 m 0 0 0 = .fin 0 ∧ sigmaRot2 rd hyp at2 m 0 0 0 = .fin 0) ∧
    ∃ q, sampleOne rd rf co si hyp at2 m z 0 0 0 p = some q ∧ q.x = p.x ∧ q.y = p.y ∧ ∃ n : ℤ, |q.theta - (p.theta + n * (2 * π))| ≤ 3e-15 := by
  have z0 := hrd.exact isDouble_zero
  have e1 : Rounded.rot1 rd hyp at2 0 0 = 0 := by
    unfold Rounded.rot1
    rw [h0, if_neg (not_lt.mpr (hrd.nonneg (by norm_num)))]
  have e2 : Rounded.rot2 rd hyp at2 0 0 0 = 0 := by
    unfold Rounded.rot2 Rounded.shortestAngularDistance
    rw [e1, sub_zero, z0, normalizeAngle_zero hrd]
  have e3 : fold rd 0 = 0 := by
    unfold fold Rounded.shortestAngularDistance
    rw [sub_zero, z0, normalizeAngle_zero hrd, abs_zero]
    exact min_eq_left (abs_nonneg _)
  have d : sigmaRot1 rd hyp at2 m 0 0 0 = .fin 0 ∧ sigmaTrans rd hyp at2 m 0 0 0 = .fin 0 ∧ sigmaRot2 rd hyp at2 m 0 0 0 = .fin 0 := by
    simp only [sigmaRot1, sigmaTrans, sigmaRot2, e1, e2, e3, h0, (timesSquare_zero hrd _).2, add_zero, z0, sqrt_zero_rounded hrd, and_self]
  refine ⟨d, ?_⟩
  obtain ⟨n, hn⟩ := normalizeAngle_near10 hrd (a := p.theta) (hp.trans (by norm_num))
  unfold sampleOne
  rw [d.1, d.2.1, d.2.2, floatDraw_zero hrf, floatDraw_zero hrf, floatDraw_zero hrf, e1, e2, h0, hrf.exact isFloat_zero]
  refine ⟨_, rfl, ?_, ?_, n, ?_⟩
  · simp only [moved, zero_mul, z0, add_zero, hrd.exact hx]
  · simp only [moved, zero_mul, z0, add_zero, hrd.exact hy]
  · simpa only [moved, add_zero, hrd.exact hpd] using hn

/-! ## Examples -/

theorem accurateHypot_demo : AccurateHypot fun x y => rnd (hypot x y) := by
  intro x y
  have h := rnd_rounds.error (hypot x y)
  have h0 := hypot_nonneg x y
  rw [abs_of_nonneg h0] at h
  have e : Real.sqrt (x ^ 2 + y ^ 2) = hypot x y := rfl
  rw [e]
  have h1 : (2⁻¹ : ℝ) ^ 53 * hypot x y ≤ 2⁻¹ ^ 52 * hypot x y :=
    mul_le_mul_of_nonneg_right (pow_le_pow_of_le_one (by norm_num) (by norm_num) (by norm_num)) h0
  refine h.trans (add_le_add h1 ?_)
  exact pow_le_pow_of_le_one (by norm_num) (by norm_num) (by norm_num)

/-- Three metres forward and four to the left with all coefficients a tenth: the draws are numbers. -/
example : ∃ q, sampleOne rnd rndF Demo.cosR Demo.sinR (fun x y => rnd (hypot x y)) Demo.atanR ⟨0.1, 0.1, 0.1, 0.1, 0.1⟩ (fun _ => 1) 3 4 1
    ⟨5, 6, 1⟩ = some q := by
  obtain ⟨r1, t, r2, h⟩ := c138_draws_are_numbers rnd_rounds rndF Demo.cosR Demo.sinR (fun x y => rnd (hypot x y)) Demo.atanR
    (m := ⟨0.1, 0.1, 0.1, 0.1, 0.1⟩) (by norm_num) (by norm_num) (by norm_num) (by norm_num) (fun _ => 1) 3 4 1 ⟨5, 6, 1⟩
  exact ⟨_, h⟩

theorem hypot_three_four : hypot 3 4 = 5 := by
  have : ((3 : ℝ) ^ 2 + 4 ^ 2) = 5 ^ 2 := by norm_num
  rw [hypot, this, sqrt_sq (by norm_num)]

/-- The same motion without noise, from (100, 200) looking along the axis: the robot is at (103, 204) up to five millionths of a metre. -/
example : ∃ q, sampleOne rnd rndF Demo.cosR Demo.sinR (fun x y => rnd (hypot x y)) Demo.atanR ⟨0, 0, 0, 0, 0⟩ (fun _ => 1) 3 4 1
    ⟨100, 200, 0⟩ = some q ∧ |q.x - 103| ≤ 5.1e-6 ∧ |q.y - 204| ≤ 5.1e-6 ∧ ∃ n : ℤ, |q.theta - (1 + n * (2 * π))| ≤ 1e-6 := by
  obtain ⟨q, h, hx, hy, -, ht⟩ := c138_noise_free rnd_rounds rndF_rounds accurate_demo accurateHypot_demo accurateAtan2_demo
    (m := ⟨0, 0, 0, 0, 0⟩) ⟨rfl, rfl, rfl, rfl⟩ (fun _ => 1) (dx := 3) (dy := 4) (dth := 1) (P := 200) (p := ⟨100, 200, 0⟩)
    (by rw [hypot_three_four]; norm_num) (by norm_num) (by norm_num) (by norm_num) (by norm_num)
  rw [hypot_three_four] at hx hy
  norm_num [compose] at hx hy ht
  refine ⟨q, h, ?_, ?_, ?_⟩
  · norm_num; linarith
  · norm_num; linarith
  · norm_num; exact ht

/-- One metre straight back: driving backwards counts as no turn, so the deviation of the first rotation is that of a metre's drive. -/
example : ∃ s, sigmaRot1 rnd (fun x y => rnd (hypot x y)) Demo.atanR ⟨0.5, 0.25, 0.5, 0.5, 0⟩ (-1) 0 0 = .fin s ∧ 0 ≤ s ∧ |s ^ 2 - 0.25| ≤ 1e-12 := by
  have e : hypot (-1) 0 = 1 := by norm_num [hypot]
  have e2 : atan2 0 (-1) = π := by
    have := atan2_polar (r := 1) one_pos π
    rw [sin_pi, cos_pi] at this
    norm_num at this
    rw [this]
    exact normalizeAngle_of_mem ⟨by linarith [pi_pos], le_rfl⟩
  have e3 : offAxis π = 0 := by
    refine le_antisymm ((min_le_right _ _).trans ?_) (offAxis_nonneg _)
    simp [turnBetween]
  obtain ⟨⟨s, h, h0, hs⟩, -, -⟩ := c138_deviations rnd_rounds accurateHypot_demo accurateAtan2_demo (m := ⟨0.5, 0.25, 0.5, 0.5, 0⟩)
    (by norm_num) (by norm_num) (by norm_num) (by norm_num) (dx := -1) (dy := 0) (dth := 0) (by rw [e]; norm_num) (by rw [e]; norm_num) (by norm_num)
  rw [e, e2, e3] at hs
  refine ⟨s, h, h0, ?_⟩
  norm_num at hs ⊢
  linarith

/-- Standing at (3, 4): the pose is kept. -/
example (m : MotionModel) (z : Fin 3 → ℝ) : ∃ q, sampleOne rnd rndF Demo.cosR Demo.sinR (fun x y => rnd (hypot x y)) Demo.atanR m z 0 0 0 ⟨3, 4, 1⟩ =
    some q ∧ q.x = 3 ∧ q.y = 4 := by
  have h3 : IsDouble 3 := by simpa using isDouble_nat (n := 3) (by norm_num)
  have h4 : IsDouble 4 := by simpa using isDouble_nat (n := 4) (by norm_num)
  obtain ⟨-, q, h, hx, hy, -⟩ := c138_still rnd_rounds rndF_rounds Demo.cosR Demo.sinR (hyp := fun x y => rnd (hypot x y))
    (by simp [hypot, rnd_zero]) Demo.atanR m z (p := ⟨3, 4, 1⟩) h3 h4 (by norm_num) isDouble_one
  exact ⟨q, h, hx, hy⟩

end

end Ndt
