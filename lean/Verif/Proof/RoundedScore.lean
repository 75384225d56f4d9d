import Verif.Proof.RoundedCell

/-! # Helper lemmas: the score of a cell in double precision -/

namespace Ndt.Rounded

variable {rd : ℝ → ℝ}

/-- `X` is `x`, of size at most `A`, up to `k` units in the last place of `A` and up to `d`. -/
structure Near (X x A k d : ℝ) : Prop where
  size : |x| ≤ A
  err : |X - x| ≤ k * ulp * A + d
  hk : 0 ≤ k ∧ k ≤ 100
  hd : 0 ≤ d

theorem ulp_small : 100 * ulp ≤ 0.001 := by unfold ulp; norm_num

namespace Near

variable {X Y x y A B k l d e : ℝ}

theorem A_nonneg (h : Near X x A k d) : 0 ≤ A := (abs_nonneg _).trans h.size

theorem ku (h : Near X x A k d) : k * ulp ≤ 0.001 := by
  have := mul_le_mul_of_nonneg_right h.hk.2 ulp_pos.le
  linarith [ulp_small]

theorem abs_le (h : Near X x A k d) : |X| ≤ 1.001 * A + d := by
  have h1 : |X| ≤ |X - x| + |x| := by simpa using abs_add_le (X - x) x
  have h2 := mul_le_mul_of_nonneg_right h.ku h.A_nonneg
  have := h.err
  have := h.size
  linarith

theorem exact (x : ℝ) : Near x x |x| 0 0 := ⟨le_rfl, by simp, by norm_num, le_rfl⟩

theorem weaken (h : Near X x A k d) (hl : k ≤ l) (hl2 : l ≤ 100) (he : d ≤ e) : Near X x A l e := by
  refine ⟨h.size, ?_, ⟨h.hk.1.trans hl, hl2⟩, h.hd.trans he⟩
  have := mul_le_mul_of_nonneg_right (mul_le_mul_of_nonneg_right hl ulp_pos.le) h.A_nonneg
  linarith [h.err]

theorem round (hr : Spec.RoundsToNearest rd) (h : Near X x A k d) (hk : k ≤ 90) :
    Near (rd X) x A (k + 1.01) (2 * d + halfMin) := by
  refine ⟨h.size, ?_, ⟨by linarith [h.hk.1], by linarith⟩, by linarith [h.hd, halfMin_pos]⟩
  have h1 := error' hr X
  have h2 := mul_le_mul_of_nonneg_left h.abs_le ulp_pos.le
  have h3 : |rd X - x| ≤ |rd X - X| + |X - x| := abs_sub_le _ _ _
  have h4 := mul_nonneg ulp_pos.le h.A_nonneg
  have h5 : ulp * d ≤ d := by
    have := mul_le_mul_of_nonneg_right (by linarith [ulp_small] : ulp ≤ 1) h.hd
    linarith
  have := h.err
  linarith

theorem rounded (hr : Spec.RoundsToNearest rd) (h : |x| ≤ A) : Near (rd x) x A 1.01 halfMin := by
  refine ⟨h, ?_, by norm_num, halfMin_pos.le⟩
  have h1 := error' hr x
  have h2 := mul_le_mul_of_nonneg_left h ulp_pos.le
  have h3 := mul_nonneg ulp_pos.le ((abs_nonneg _).trans h)
  linarith

theorem mul (h : Near X x A k d) (g : Near Y y B l e) (hkl : 1.01 * k + l ≤ 100) :
    Near (X * Y) (x * y) (A * B) (1.01 * k + l) (d * (2 * B + e) + 2 * A * e) := by
  have hA := h.A_nonneg
  have hB := g.A_nonneg
  have hd := h.hd
  have he := g.hd
  refine ⟨?_, ?_, ⟨by linarith [h.hk.1, g.hk.1], hkl⟩, by positivity⟩
  · rw [abs_mul]; exact mul_le_mul h.size g.size (abs_nonneg _) hA
  · have s : X * Y - x * y = (X - x) * Y + x * (Y - y) := by ring
    rw [s]
    refine (abs_add_le _ _).trans ?_
    rw [abs_mul, abs_mul]
    have h1 := mul_le_mul h.err g.abs_le (abs_nonneg _) ((abs_nonneg _).trans h.err)
    have h2 := mul_le_mul h.size g.err (abs_nonneg _) hA
    have h3 := mul_le_mul_of_nonneg_right h.ku (mul_nonneg hA he)
    have h4 := mul_nonneg hA he
    have h5 := mul_nonneg hd hB
    have h6 := mul_nonneg (mul_nonneg (mul_nonneg h.hk.1 ulp_pos.le) hA) hB
    linarith

theorem add (h : Near X x A k d) (g : Near Y y B k e) : Near (X + Y) (x + y) (A + B) k (d + e) := by
  refine ⟨(abs_add_le _ _).trans (add_le_add h.size g.size), ?_, h.hk, by linarith [h.hd, g.hd]⟩
  have s : X + Y - (x + y) = (X - x) + (Y - y) := by ring
  rw [s]
  refine (abs_add_le _ _).trans ?_
  have := h.err
  have := g.err
  linarith

end Near

/-- The quadratic form of the exponent, with ten roundings. -/
theorem form_near (hr : Spec.RoundsToNearest rd) {q0 q1 i00 i01 i11 j00 j01 j11 W Q δ : ℝ}
    (h00 : Near j00 i00 W 1.01 halfMin) (h01 : Near j01 i01 W 1.01 halfMin) (h11 : Near j11 i11 W 1.01 halfMin)
    (hQ1 : 1 ≤ Q) (h0 : |q0| ≤ Q) (h1 : |q1| ≤ Q) (hη : halfMin ≤ δ) (hδ : halfMin * (2 * W + halfMin + Q) ≤ δ) :
    rd (rd (rd (rd (rd (-0.5 * q0) * j00) + rd (rd (-0.5 * q1) * j01)) * q0) +
        rd (rd (rd (rd (-0.5 * q0) * j01) + rd (rd (-0.5 * q1) * j11)) * q1)) ≤
      -0.5 * (q0 ^ 2 * i00 + 2 * (q0 * q1) * i01 + q1 ^ 2 * i11) + 7 * ulp * (q0 ^ 2 + q1 ^ 2) * W + 213 * (δ * Q) := by
  have hη0 := halfMin_pos
  have hδ0 : 0 ≤ δ := hη0.le.trans hη
  have hW := h00.A_nonneg
  have hδQ : δ ≤ δ * Q := le_mul_of_one_le_right hδ0 hQ1
  have half : ∀ q : ℝ, |q| ≤ Q → Near (rd (-0.5 * q)) (-0.5 * q) (0.5 * |q|) 1.01 halfMin := by
    intro q hq
    have h := (Near.exact (-0.5 * q)).round hr (by norm_num)
    have e : |(-0.5 : ℝ) * q| = 0.5 * |q| := by rw [abs_mul]; norm_num
    rw [e] at h
    exact h.weaken (by norm_num) (by norm_num) (by linarith)
  have entry : ∀ q j i : ℝ, |q| ≤ Q → Near j i W 1.01 halfMin →
      Near (rd (rd (-0.5 * q) * j)) (-0.5 * q * i) (0.5 * |q| * W) 3.06 (3 * δ) := by
    intro q j i hq hj
    refine (((half q hq).mul hj (by norm_num)).round hr (by norm_num)).weaken (by norm_num) (by norm_num) ?_
    have := mul_le_mul_of_nonneg_left hq hη0.le
    linarith
  have row : ∀ j j' i i' : ℝ, Near j i W 1.01 halfMin → Near j' i' W 1.01 halfMin →
      Near (rd (rd (rd (-0.5 * q0) * j) + rd (rd (-0.5 * q1) * j'))) (-0.5 * q0 * i + -0.5 * q1 * i')
        (0.5 * |q0| * W + 0.5 * |q1| * W) 4.07 (13 * δ) := by
    intro j j' i i' hj hj'
    exact (((entry q0 j i h0 hj).add (entry q1 j' i' h1 hj')).round hr (by norm_num)).weaken (by norm_num) (by norm_num)
      (by linarith)
  have term : ∀ r s A q : ℝ, |q| ≤ Q → Near r s A 4.07 (13 * δ) → Near (rd (r * q)) (s * q) (A * |q|) 5.13 (53 * (δ * Q)) := by
    intro r s A q hq hs
    refine ((hs.mul (Near.exact q) (by norm_num)).round hr (by norm_num)).weaken (by norm_num) (by norm_num) ?_
    have := mul_le_mul_of_nonneg_left hq hδ0
    linarith
  have all := (((term _ _ _ q0 h0 (row _ _ _ _ h00 h01)).add (term _ _ _ q1 h1 (row _ _ _ _ h01 h11))).round hr
    (by norm_num)).weaken (l := 6.2) (e := 213 * (δ * Q)) (by norm_num) (by norm_num) (by linarith)
  have b := (abs_le.mp all.err).2
  have a0 := sq_abs q0
  have a1 := sq_abs q1
  have hsq : (|q0| + |q1|) ^ 2 ≤ 2 * (q0 ^ 2 + q1 ^ 2) := by nlinarith [sq_nonneg (|q0| - |q1|)]
  have hsz : (0.5 * |q0| * W + 0.5 * |q1| * W) * |q0| + (0.5 * |q0| * W + 0.5 * |q1| * W) * |q1| ≤
      (q0 ^ 2 + q1 ^ 2) * W := by
    have := mul_le_mul_of_nonneg_right hsq hW
    nlinarith
  have hu := mul_le_mul_of_nonneg_left hsz ulp_pos.le
  have hp : 0 ≤ ulp * ((q0 ^ 2 + q1 ^ 2) * W) := mul_nonneg ulp_pos.le (mul_nonneg (by positivity) hW)
  linarith

theorem rd_half (hr : Spec.RoundsToNearest rd) {x : ℝ} (hx : 2⁻¹ ^ 900 ≤ x) : x / 2 ≤ rd x ∧ rd x ≤ 2 * x := by
  have hx0 : 0 < x := lt_of_lt_of_le (by positivity) hx
  have h1 := error' hr x
  have h2 := halfMin_small hx
  rw [abs_of_pos hx0] at h1
  have h3 : ulp * x ≤ 0.001 * x := mul_le_mul_of_nonneg_right (by linarith [ulp_small, ulp_pos]) hx0.le
  obtain ⟨h4, h5⟩ := abs_le.mp h1
  clear hx
  constructor <;> linarith

/-- The diagonal and the determinant of a matrix whose form is at least `lam`. -/
theorem form_facts {a b d lam : ℝ} (hl : 0 < lam)
    (hf : ∀ v w, lam * (v ^ 2 + w ^ 2) ≤ v ^ 2 * a + 2 * (v * w) * b + w ^ 2 * d) :
    lam ≤ a ∧ lam ≤ d ∧ lam * max a d ≤ a * d - b * b ∧ |b| ≤ max a d := by
  have ha : lam ≤ a := by simpa using hf 1 0
  have hd : lam ≤ d := by simpa using hf 0 1
  have ha0 : 0 < a := by linarith
  have hd0 : 0 < d := by linarith
  have h1 : lam * a ≤ a * d - b * b := by
    have := hf b (-a)
    have e : a * (lam * a) ≤ a * (a * d - b * b) := by nlinarith [mul_nonneg hl.le (sq_nonneg b)]
    exact le_of_mul_le_mul_left e ha0
  have h2 : lam * d ≤ a * d - b * b := by
    have := hf (-d) b
    have e : d * (lam * d) ≤ d * (a * d - b * b) := by nlinarith [mul_nonneg hl.le (sq_nonneg b)]
    exact le_of_mul_le_mul_left e hd0
  refine ⟨ha, hd, by rcases max_choice a d with h | h <;> rw [h] <;> assumption, ?_⟩
  apply abs_le_of_sq_le_sq _ (le_max_of_le_left ha0.le)
  have h3 : a * d ≤ max a d * max a d :=
    mul_le_mul (le_max_left _ _) (le_max_right _ _) hd0.le (le_max_of_le_left ha0.le)
  nlinarith [mul_pos hl ha0]

/-- The information is the adjugate of the covariance times a positive number, each entry rounded once. -/
theorem information_near (hr : Spec.RoundsToNearest rd) {a b d lam : ℝ} {ev : ℝ × ℝ} (hl : 2⁻¹ ^ 250 ≤ lam)
    (hf : ∀ v w, lam * (v ^ 2 + w ^ 2) ≤ v ^ 2 * a + 2 * (v * w) * b + w ^ 2 * d)
    (hM : 14 * (ulp * max a d) ≤ lam) (hM2 : max a d ≤ 2 ^ 210) (he : lam / 2 ≤ max ev.1 ev.2) :
    ∃ w, 0 < w ∧ w ≤ 2 ^ 520 ∧ informationOf rd ev ⟨a, b, b, d⟩ =
      ⟨.fin (rd (d * w)), .fin (rd (-b * w)), .fin (rd (-b * w)), .fin (rd (a * w))⟩ := by
  have hl0 : 0 < lam := lt_of_lt_of_le (by positivity) hl
  obtain ⟨ha, hd, hdet, hb⟩ := form_facts hl0 hf
  have hMl : lam ≤ max a d := le_max_of_le_left ha
  have hM0 : 0 < max a d := by linarith
  have hll : 2⁻¹ ^ 500 ≤ lam * lam := by
    have := mul_le_mul hl hl (by positivity) hl0.le
    refine le_trans (le_of_eq ?_) this
    rw [← pow_add]
  have inv : ∀ {t : ℝ}, 2⁻¹ ^ 519 ≤ t → 1 / t ≤ 2 ^ 519 := by
    intro t ht
    have h0 : (0 : ℝ) < 2⁻¹ ^ 519 := by positivity
    refine (one_div_le_one_div_of_le h0 ht).trans (le_of_eq ?_)
    rw [inv_pow, one_div, inv_inv]
  by_cases hs : (if ev.1 > ev.2 then ev.2 else ev.1) < rd (rd 0.001 * (if ev.1 > ev.2 then ev.1 else ev.2))
  · have hlg : (if ev.1 > ev.2 then ev.1 else ev.2) = max ev.1 ev.2 := by
      split
      · rw [max_eq_left (by linarith)]
      · rw [max_eq_right (by linarith)]
    rw [hlg] at hs
    have hL : lam / 2 ≤ max ev.1 ev.2 := he
    have hL0 : 0 < max ev.1 ev.2 := by linarith
    have hL2 : lam / 2 * (lam / 2) ≤ max ev.1 ev.2 * max ev.1 ev.2 := mul_le_mul hL hL (by linarith) hL0.le
    have p3 : (2⁻¹ : ℝ) ^ 900 ≤ 0.001 := le_trans (pow_le_pow_of_le_one (by norm_num) (by norm_num) (by norm_num : 10 ≤ 900)) (by norm_num)
    obtain ⟨k1, -⟩ := rd_half hr p3
    have k2 : 0.0005 * max ev.1 ev.2 ≤ rd 0.001 * max ev.1 ev.2 := mul_le_mul_of_nonneg_right (by linarith) hL0.le
    have small : ∀ (c x : ℝ) (n : ℕ), 2⁻¹ ^ 11 ≤ c → 2⁻¹ ^ n ≤ x → n ≤ 800 → 2⁻¹ ^ 900 ≤ c * x := by
      intro c x n hc hx hn
      have h := mul_le_mul hc hx (by positivity) ((by positivity : (0 : ℝ) ≤ 2⁻¹ ^ 11).trans hc)
      refine le_trans ?_ h
      rw [← pow_add]
      exact pow_le_pow_of_le_one (by norm_num) (by norm_num) (by omega)
    have hlam2 : 2⁻¹ ^ 251 ≤ max ev.1 ev.2 := by
      refine le_trans ?_ hL
      rw [pow_succ]; linarith
    have p4 : 2⁻¹ ^ 900 ≤ rd 0.001 * max ev.1 ev.2 := small _ _ 251 (by
      refine le_trans ?_ k1; norm_num) hlam2 (by norm_num)
    obtain ⟨k3, -⟩ := rd_half hr p4
    have k4 : 0.00025 * (max ev.1 ev.2 * max ev.1 ev.2) ≤ rd (rd 0.001 * max ev.1 ev.2) * max ev.1 ev.2 := by
      have : 0.00025 * max ev.1 ev.2 ≤ rd (rd 0.001 * max ev.1 ev.2) := by linarith
      have := mul_le_mul_of_nonneg_right this hL0.le
      linarith
    have k5 : 2⁻¹ ^ 515 ≤ rd (rd 0.001 * max ev.1 ev.2) * max ev.1 ev.2 := by
      refine le_trans ?_ k4
      have e : (2⁻¹ : ℝ) ^ 515 = 2⁻¹ ^ 15 * 2⁻¹ ^ 500 := by rw [← pow_add]
      have h15 : (2⁻¹ : ℝ) ^ 15 ≤ 0.00025 / 4 := by norm_num
      have := mul_le_mul h15 hll (by positivity) (by norm_num)
      rw [e]
      refine this.trans ?_
      linarith
    have p5 : (2⁻¹ : ℝ) ^ 900 ≤ rd (rd 0.001 * max ev.1 ev.2) * max ev.1 ev.2 :=
      le_trans (pow_le_pow_of_le_one (by norm_num) (by norm_num) (by norm_num)) k5
    obtain ⟨k6, -⟩ := rd_half hr p5
    have k7 : 2⁻¹ ^ 519 ≤ rd (rd (rd 0.001 * max ev.1 ev.2) * max ev.1 ev.2) := by
      refine le_trans ?_ (le_trans (div_le_div_of_nonneg_right k5 (by norm_num : (0 : ℝ) ≤ 2)) k6)
      rw [div_eq_mul_inv, ← pow_succ]
      exact pow_le_pow_of_le_one (by norm_num) (by norm_num) (by norm_num)
    have hT : 0 < rd (rd (rd 0.001 * max ev.1 ev.2) * max ev.1 ev.2) := lt_of_lt_of_le (by positivity) k7
    refine ⟨1 / rd (rd (rd 0.001 * max ev.1 ev.2) * max ev.1 ev.2), by positivity,
      (inv k7).trans (pow_le_pow_right₀ (by norm_num) (by norm_num)), ?_⟩
    simp only [informationOf, hlg, if_pos hs, Fl.fin_div hT.ne', Fl.rounded_fin, mul_one_div]
  · have hu := ulp_pos
    have hη := halfMin_pos
    generalize hMdef : max a d = M at *
    have haM : a ≤ M := hMdef ▸ le_max_left a d
    have hdM : d ≤ M := hMdef ▸ le_max_right a d
    have hMM : 0 < M * M := mul_pos hM0 hM0
    have hlM : 2⁻¹ ^ 500 ≤ lam * M := hll.trans (mul_le_mul_of_nonneg_left hMl hl0.le)
    have hη9 : 100 * halfMin ≤ ulp * (lam * M) :=
      halfMin_small ((pow_le_pow_of_le_one (by norm_num) (by norm_num) (by norm_num)).trans hlM)
    have hu1 : 1000 * ulp ≤ 0.01 := by linarith [ulp_small]
    have hη8 : 10000 * halfMin ≤ lam * M := by
      have := mul_le_mul_of_nonneg_right hu1 (mul_pos hl0 hM0).le
      linarith
    have hlMM : 14 * (ulp * (M * M)) ≤ lam * M := by
      have := mul_le_mul_of_nonneg_right hM hM0.le
      linarith
    have s1 : |a * d| ≤ M * M := by
      rw [abs_of_nonneg (by nlinarith)]; exact mul_le_mul haM hdM (by linarith) hM0.le
    have s2 : |b * b| ≤ M * M := by
      rw [abs_mul]; exact mul_le_mul hb hb (abs_nonneg _) hM0.le
    have e1 := error' hr (a * d)
    have e2 := error' hr (b * b)
    have e3 := error' hr (rd (a * d) - rd (b * b))
    have f1 := mul_le_mul_of_nonneg_left s1 hu.le
    have f2 := mul_le_mul_of_nonneg_left s2 hu.le
    have huMM : ulp * (M * M) ≤ 0.001 * (M * M) := mul_le_mul_of_nonneg_right (by linarith [ulp_small]) hMM.le
    have hlMM2 : lam * M ≤ M * M := mul_le_mul_of_nonneg_right hMl hM0.le
    have s3 : |rd (a * d) - rd (b * b)| ≤ 2.1 * (M * M) := by
      have : |rd (a * d) - rd (b * b)| ≤ |rd (a * d) - a * d| + |a * d| + (|rd (b * b) - b * b| + |b * b|) := by
        have h1 : |rd (a * d)| ≤ |rd (a * d) - a * d| + |a * d| := by simpa using abs_add_le (rd (a * d) - a * d) (a * d)
        have h2 : |rd (b * b)| ≤ |rd (b * b) - b * b| + |b * b| := by simpa using abs_add_le (rd (b * b) - b * b) (b * b)
        have := abs_sub (rd (a * d)) (rd (b * b))
        linarith
      linarith
    have f3 := mul_le_mul_of_nonneg_left s3 hu.le
    have g1 := abs_le.mp e1
    have g2 := abs_le.mp e2
    have g3 := abs_le.mp e3
    have low : lam * M / 4 ≤ rd (rd (a * d) - rd (b * b)) := by linarith
    have high : rd (rd (a * d) - rd (b * b)) ≤ 3 * (M * M) := by
      have := (abs_le.mp s3).2
      linarith
    have k7 : 2⁻¹ ^ 502 ≤ rd (rd (a * d) - rd (b * b)) := by
      refine le_trans ?_ low
      rw [pow_add _ 500 2]
      have : (2⁻¹ : ℝ) ^ 2 = 4⁻¹ := by norm_num
      rw [this, div_eq_mul_inv]
      exact mul_le_mul_of_nonneg_right hlM (by norm_num)
    have hT : 0 < rd (rd (a * d) - rd (b * b)) := lt_of_lt_of_le (by positivity) k7
    have lo2 : 2⁻¹ ^ 900 ≤ 1 / rd (rd (a * d) - rd (b * b)) := by
      have h1 : M * M ≤ 2 ^ 420 := by
        have := mul_le_mul hM2 hM2 hM0.le (by positivity)
        rwa [← pow_add] at this
      have h2 : rd (rd (a * d) - rd (b * b)) ≤ 2 ^ 422 := by
        have h4 : 3 * (M * M) ≤ M * M * 2 ^ 2 := by clear h1 hM2 hlM hll hl; linarith
        rw [pow_add _ 420 2]
        exact (high.trans h4).trans (mul_le_mul_of_nonneg_right h1 (by norm_num))
      have h3 := one_div_le_one_div_of_le hT h2
      refine le_trans ?_ h3
      rw [one_div, ← inv_pow]
      exact pow_le_pow_of_le_one (by norm_num) (by norm_num) (by norm_num)
    obtain ⟨w1, w2⟩ := rd_half hr lo2
    refine ⟨rd (1 / rd (rd (a * d) - rd (b * b))), ?_, ?_, ?_⟩
    · have : 0 < 1 / rd (rd (a * d) - rd (b * b)) := by positivity
      linarith
    · have h1 := inv (le_trans (pow_le_pow_of_le_one (by norm_num) (by norm_num) (by norm_num)) k7)
      exact (w2.trans (mul_le_mul_of_nonneg_left h1 (by norm_num))).trans (pow_succ' (2 : ℝ) 519).symm.le
    · simp only [informationOf, if_neg hs, inverse2, Fl.fin_div hT.ne', Fl.rounded_fin, Fl.fin_mul]

/-- A number that is hardly greater than zero has an exponential that is rounded to one at most. -/
theorem rd_exp_le_one (hr : Spec.RoundsToNearest rd) {e : ℝ} (he : e ≤ 2⁻¹ ^ 60) : rd (Real.exp e) ≤ 1 := by
  have h1 : Real.exp e ≤ 1 + 2⁻¹ ^ 59 := by
    have h2 := Real.exp_le_exp.mpr he
    have h3 := Real.abs_exp_sub_one_le (x := 2⁻¹ ^ 60) (by rw [abs_of_nonneg (by positivity)]; exact pow_le_one₀ (by norm_num) (by norm_num))
    rw [abs_of_nonneg (by positivity : (0 : ℝ) ≤ 2⁻¹ ^ 60)] at h3
    have h4 := (abs_le.mp h3).2
    have e59 : (2⁻¹ : ℝ) ^ 59 = 2 * 2⁻¹ ^ 60 := by norm_num
    rw [e59]
    linarith
  have d1 : Spec.IsDouble 1 := by exact_mod_cast isDouble_nat (n := 1) (by norm_num)
  have := hr.mono h1
  rwa [hr.absorbs d1 (by rw [abs_of_pos (by positivity)]; norm_num)] at this

/-- A form with perturbed coefficients. -/
theorem form_perturb {a b d a' b' d' L E : ℝ} (ha : |a' - a| ≤ E) (hb : |b' - b| ≤ E) (hd : |d' - d| ≤ E)
    (hf : ∀ v w, L * (v ^ 2 + w ^ 2) ≤ v ^ 2 * a + 2 * (v * w) * b + w ^ 2 * d) (v w : ℝ) :
    (L - 2 * E) * (v ^ 2 + w ^ 2) ≤ v ^ 2 * a' + 2 * (v * w) * b' + w ^ 2 * d' := by
  have h := hf v w
  have h1 := mul_le_mul_of_nonneg_left (abs_le.mp ha).1 (sq_nonneg v)
  have h2 := mul_le_mul_of_nonneg_left (abs_le.mp hd).1 (sq_nonneg w)
  have h3 : |2 * (v * w) * (b' - b)| ≤ (v ^ 2 + w ^ 2) * E := by
    rw [abs_mul]
    refine mul_le_mul ?_ hb (abs_nonneg _) (by positivity)
    rw [abs_le]
    constructor <;> nlinarith [sq_nonneg (v - w), sq_nonneg (v + w)]
  have := (abs_le.mp h3).1
  linarith

theorem fold_valid (ps : List Point) : (ps.foldl (addPoint rd) Cell.new).valid = false := by
  induction ps using List.reverseRecOn with
  | nil => rfl
  | append_singleton ps p _ => rw [List.foldl_append]; rfl

/-- The variance of numbers within `B` is at most `4 B²`. -/
theorem sampleCov_abs_le {f g : Point → ℝ} {B : ℝ} {ps : List Point} (hB : 0 < B) (h2 : 2 ≤ ps.length)
    (hf : ∀ p ∈ ps, |f p| ≤ B) (hg : ∀ p ∈ ps, |g p| ≤ B) : |Spec.sampleCov f g ps| ≤ 4 * (B * B) := by
  rw [← sampleCov_eq f g ps h2, abs_mul]
  have hn : (2 : ℝ) ≤ ps.length := by exact_mod_cast h2
  have h1 : |(ps.length : ℝ) / ((ps.length : ℝ) - 1)| ≤ 2 := by
    rw [abs_of_nonneg (div_nonneg (by linarith) (by linarith)), div_le_iff₀ (by linarith)]; linarith
  have h3 : |Spec.avg (fun p => f p * g p) ps - Spec.avg f ps * Spec.avg g ps| ≤ 2 * (B * B) := by
    refine (abs_sub _ _).trans ?_
    rw [abs_mul (Spec.avg f ps)]
    have a1 := avg_abs_le (mul_pos hB hB).le (f := fun p => f p * g p) (ps := ps)
      fun p hp => by rw [abs_mul]; exact mul_le_mul (hf p hp) (hg p hp) (abs_nonneg _) hB.le
    have a2 := mul_le_mul (avg_abs_le hB.le hf) (avg_abs_le hB.le hg) (abs_nonneg _) hB.le
    linarith
  have := mul_le_mul h3 h1 (abs_nonneg _) (by positivity)
  linarith

/-- The covariance of a cell is the sample covariance, up to rounding. -/
theorem cov_errors (hr : Spec.RoundsToNearest rd) {B : ℝ} (hB : 2⁻¹ ^ 100 ≤ B) {ps : List Point} (hn : ps.length ≤ 2 ^ 49)
    (hn2 : 2 ≤ ps.length) (hp : Spec.CoordsWithin B ps) {a b b' d : ℝ}
    (hc : covarianceOf rd (ps.foldl (addPoint rd) Cell.new) = ⟨a, b, b', d⟩) :
    |a - Spec.sampleCov (·.x) (·.x) ps| ≤ 80 * (ps.length * ulp * (B * B)) ∧
    |b - Spec.sampleCov (·.x) (·.y) ps| ≤ 80 * (ps.length * ulp * (B * B)) ∧
    |d - Spec.sampleCov (·.y) (·.y) ps| ≤ 80 * (ps.length * ulp * (B * B)) ∧ b' = b := by
  injection hc with h1 h2 h3 h4
  subst h1 h2 h3 h4
  refine ⟨?_, ?_, ?_, rfl⟩
  · exact covEntry_error hr (f := (·.x)) (g := (·.x)) (k := (·.correlation.m00)) (mf := (·.mean.x)) (mg := (·.mean.x)) hB
      rfl (fun _ _ => rfl) rfl (fun _ _ => rfl) rfl (fun _ _ => rfl) ps hn hn2 (fun p h => (hp p h).1) (fun p h => (hp p h).1) _ rfl
  · exact covEntry_error hr (f := (·.x)) (g := (·.y)) (k := (·.correlation.m01)) (mf := (·.mean.x)) (mg := (·.mean.y)) hB
      rfl (fun _ _ => rfl) rfl (fun _ _ => rfl) rfl (fun _ _ => rfl) ps hn hn2 (fun p h => (hp p h).1) (fun p h => (hp p h).2) _ rfl
  · exact covEntry_error hr (f := (·.y)) (g := (·.y)) (k := (·.correlation.m11)) (mf := (·.mean.y)) (mg := (·.mean.y)) hB
      rfl (fun _ _ => rfl) rfl (fun _ _ => rfl) rfl (fun _ _ => rfl) ps hn hn2 (fun p h => (hp p h).2) (fun p h => (hp p h).2) _ rfl

theorem mean_errors (hr : Spec.RoundsToNearest rd) {B : ℝ} (hB : 2⁻¹ ^ 100 ≤ B) {ps : List Point} (hn : ps.length ≤ 2 ^ 49)
    (hp : Spec.CoordsWithin B ps) :
    |(ps.foldl (addPoint rd) Cell.new).mean.x - Spec.avg (·.x) ps| ≤ 6 * ps.length * (ulp * B) ∧
    |(ps.foldl (addPoint rd) Cell.new).mean.y - Spec.avg (·.y) ps| ≤ 6 * ps.length * (ulp * B) := by
  have hB9 : 2⁻¹ ^ 900 ≤ B := le_trans (pow_le_pow_of_le_one (by norm_num) (by norm_num) (by norm_num)) hB
  exact ⟨fold_error hr (f := (·.x)) (g := (·.mean.x)) hB9 rfl (fun _ _ => rfl) ps hn fun p h => (hp p h).1,
    fold_error hr (f := (·.y)) (g := (·.mean.y)) hB9 rfl (fun _ _ => rfl) ps hn fun p h => (hp p h).2⟩

theorem isDouble_two_pow (n : ℕ) : Spec.IsDouble (2 ^ n) := by
  have := isDouble_dyadic (k := 1) (e := n) (by norm_num) (by omega)
  simpa using this

theorem isDouble_neg_two_pow (n : ℕ) : Spec.IsDouble (-2 ^ n) := by
  have := isDouble_dyadic (k := -1) (e := n) (by norm_num) (by omega)
  simpa using this

/-- The difference of two coordinates, rounded. -/
theorem diff_le (hr : Spec.RoundsToNearest rd) {x m : ℝ} (hx : |x| ≤ 2 ^ 100) (hm : |m| ≤ 2 ^ 101) : |rd (x - m)| ≤ 2 ^ 102 := by
  have h : |x - m| ≤ 2 ^ 102 := by
    refine (abs_sub x m).trans ((add_le_add hx hm).trans ?_)
    norm_num
  obtain ⟨h1, h2⟩ := abs_le.mp h
  exact abs_le.mpr ⟨hr.ge_of_ge (isDouble_neg_two_pow 102) h1, hr.le_of_le (isDouble_two_pow 102) h2⟩

theorem delta_facts {W : ℝ} (hW : W ≤ 2 ^ 730) : halfMin ≤ halfMin * 2 ^ 732 ∧
    halfMin * (2 * W + halfMin + 2 ^ 102) ≤ halfMin * 2 ^ 732 ∧ 213 * (halfMin * 2 ^ 732 * 2 ^ 102) ≤ 2⁻¹ ^ 60 := by
  have h1 : halfMin ≤ 1 := pow_le_one₀ (by norm_num) (by norm_num)
  refine ⟨le_mul_of_one_le_right halfMin_pos.le (one_le_pow₀ (by norm_num)),
    mul_le_mul_of_nonneg_left ?_ halfMin_pos.le, ?_⟩
  · have h2 : (2 : ℝ) ^ 732 = 4 * 2 ^ 730 := by rw [pow_add 2 730 2]; ring
    have h3 : (2 : ℝ) ^ 102 ≤ 2 ^ 730 := pow_le_pow_right₀ (by norm_num) (by norm_num)
    have h4 : (1 : ℝ) ≤ 2 ^ 730 := one_le_pow₀ (by norm_num)
    rw [h2]
    generalize (2 : ℝ) ^ 730 = P at h3 h4 hW ⊢
    generalize (2 : ℝ) ^ 102 = P' at h3 ⊢
    linarith
  · have h2 : halfMin * 2 ^ 732 * 2 ^ 102 = 2⁻¹ ^ 241 := by
      unfold halfMin
      rw [mul_assoc, ← pow_add, inv_pow, inv_pow, inv_mul_eq_iff_eq_mul₀ (by positivity), eq_mul_inv_iff_mul_eq₀ (by positivity), ← pow_add]
    rw [h2]
    norm_num

/-- A score is at most one if the points are spread more than rounding moves them. -/
theorem score_le_one (hr : Spec.RoundsToNearest rd) {B : ℝ} (hB : 2⁻¹ ^ 100 ≤ B) (hB2 : B ≤ 2 ^ 100) {ps : List Point}
    (hn : ps.length ≤ 2 ^ 49) (hn5 : 5 ≤ ps.length) (hp : Spec.CoordsWithin B ps)
    (hs : Spec.SpreadAtLeast (400 * (ps.length * ulp * (B * B))) ps) {es : Mat2 ℝ → ℝ × ℝ}
    (he : ∀ a b d, 0 < Spec.eigMax a b d → Spec.eigMax a b d / 2 ≤ max (es ⟨a, b, b, d⟩).1 (es ⟨a, b, b, d⟩).2)
    {p : Point} (hx : |p.x| ≤ 2 ^ 100) (hy : |p.y| ≤ 2 ^ 100) :
    ∃ v, score rd (cellOf rd es ps) p = .fin v ∧ 0 ≤ v ∧ v ≤ 1 := by
  have hu := ulp_pos
  have hB0 : 0 < B := lt_of_lt_of_le (by positivity) hB
  have hBB : 0 < B * B := mul_pos hB0 hB0
  have hN5 : (5 : ℝ) ≤ ps.length := by exact_mod_cast hn5
  have hN : (ps.length : ℝ) ≤ 2 ^ 49 := by exact_mod_cast hn
  have hNu : (ps.length : ℝ) * ulp ≤ 1 / 16 := by
    have := mul_le_mul_of_nonneg_right hN hu.le
    have e : (2 : ℝ) ^ 49 * ulp = 1 / 16 := by unfold ulp; norm_num
    linarith
  obtain ⟨a, b, b', d, hc⟩ : ∃ a b b' d, covarianceOf rd (ps.foldl (addPoint rd) Cell.new) = ⟨a, b, b', d⟩ := ⟨_, _, _, _, rfl⟩
  obtain ⟨ea, eb, ed, rfl⟩ := cov_errors hr hB hn (by omega) hp hc
  obtain ⟨mx, my⟩ := mean_errors hr hB hn hp
  have hc0 : cellOf rd es ps = { ps.foldl (addPoint rd) Cell.new with
      covariance := ⟨a, b', b', d⟩, information := informationOf rd (es ⟨a, b', b', d⟩) ⟨a, b', b', d⟩, valid := true } := by
    unfold cellOf compute
    rw [if_neg, hc]
    rw [fold_valid, fold_n hr ps hn]
    rintro (h | h)
    · exact absurd h (by decide)
    · linarith
  have hE : (5 : ℝ) * (ulp * (B * B)) ≤ ps.length * ulp * (B * B) := by
    have := mul_le_mul_of_nonneg_right hN5 (mul_pos hu hBB).le
    linarith
  have hE2 : ps.length * ulp * (B * B) ≤ 1 / 16 * (B * B) := mul_le_mul_of_nonneg_right hNu hBB.le
  have form := form_perturb ea eb ed hs
  generalize hG : (ps.length : ℝ) * ulp * (B * B) = G at *
  have hG0 : 0 < G := by linarith [mul_pos hu hBB]
  have hlam : 400 * G - 2 * (80 * G) = 240 * G := by ring
  rw [hlam] at form
  have hlam0 : 0 < 240 * G := by linarith
  obtain ⟨fa, fd, fdet, fb⟩ := form_facts hlam0 form
  have sx := sampleCov_abs_le (f := (·.x)) (g := (·.x)) hB0 (by omega) (fun p h => (hp p h).1) (fun p h => (hp p h).1)
  have sy := sampleCov_abs_le (f := (·.y)) (g := (·.y)) hB0 (by omega) (fun p h => (hp p h).2) (fun p h => (hp p h).2)
  have aM : a ≤ 9 * (B * B) := by
    have := (abs_le.mp ea).2
    have := (abs_le.mp sx).2
    clear hB hB2 hN hx hy
    linarith
  have dM : d ≤ 9 * (B * B) := by
    have := (abs_le.mp ed).2
    have := (abs_le.mp sy).2
    clear hB hB2 hN hx hy
    linarith
  have hM9 : max a d ≤ 9 * (B * B) := max_le aM dM
  have hBB200 : B * B ≤ 2 ^ 200 := by
    have := mul_le_mul hB2 hB2 hB0.le (by positivity)
    rwa [← pow_add] at this
  have hM210 : max a d ≤ 2 ^ 210 := by
    refine hM9.trans ?_
    rw [pow_add 2 200 10, mul_comm]
    exact mul_le_mul hBB200 (by norm_num) (by norm_num) (by positivity)
  have hl250 : 2⁻¹ ^ 250 ≤ 240 * G := by
    have h1 := mul_le_mul hB hB (by positivity) hB0.le
    rw [← pow_add] at h1
    have h2 := mul_le_mul_of_nonneg_left h1 hu.le
    have h3 : (2⁻¹ : ℝ) ^ 250 = 8 * (ulp * 2⁻¹ ^ (100 + 100)) := by
      unfold ulp
      rw [← pow_add]
      have : (8 : ℝ) = (2⁻¹ ^ 3)⁻¹ := by norm_num
      rw [this, eq_inv_mul_iff_mul_eq₀ (by positivity), ← pow_add]
    rw [h3]
    clear hB hB2 hN hx hy hBB200 hM210 h1 h3
    linarith
  have h14 : 14 * (ulp * max a d) ≤ 240 * G := by
    have := mul_le_mul_of_nonneg_left hM9 hu.le
    clear hB hB2 hN hx hy hM210 hBB200 hl250
    linarith
  have hev : 240 * G / 2 ≤ max (es ⟨a, b', b', d⟩).1 (es ⟨a, b', b', d⟩).2 := by
    have h1 : 240 * G ≤ Spec.eigMax a b' d := by
      have h2 := eig_add a b' d
      have h3 := eigMin_le_eigMax a b' d
      clear hB hB2 hN hx hy hM210 hBB200 hl250
      linarith
    have := he a b' d (by linarith)
    clear hB hB2 hN hx hy hM210 hBB200 hl250
    linarith
  obtain ⟨w, hw0, hw, hinf⟩ := information_near hr hl250 form h14 hM210 hev
  have hM0 : 0 < max a d := lt_of_lt_of_le (hlam0.trans_le fa) (le_max_left _ _)
  have hW : w * max a d ≤ 2 ^ 730 := by
    have := mul_le_mul hw hM210 hM0.le (by positivity)
    rwa [← pow_add] at this
  have n00 : Near (rd (d * w)) (d * w) (w * max a d) 1.01 halfMin := Near.rounded hr (by
    rw [abs_of_pos (mul_pos (hlam0.trans_le fd) hw0), mul_comm]
    exact mul_le_mul_of_nonneg_left (le_max_right _ _) hw0.le)
  have n01 : Near (rd (-b' * w)) (-b' * w) (w * max a d) 1.01 halfMin := Near.rounded hr (by
    rw [abs_mul, abs_neg, abs_of_pos hw0, mul_comm]
    exact mul_le_mul_of_nonneg_left fb hw0.le)
  have n11 : Near (rd (a * w)) (a * w) (w * max a d) 1.01 halfMin := Near.rounded hr (by
    rw [abs_of_pos (mul_pos (hlam0.trans_le fa) hw0), mul_comm]
    exact mul_le_mul_of_nonneg_left (le_max_left _ _) hw0.le)
  have hmean : ∀ {m e : ℝ}, |m - e| ≤ 6 * ps.length * (ulp * B) → |e| ≤ B → |m| ≤ 2 ^ 101 := by
    intro m e h1 h2
    have h3 : |m| ≤ |m - e| + |e| := by simpa using abs_add_le (m - e) e
    have h4 : ps.length * ulp * B ≤ 1 / 16 * B := mul_le_mul_of_nonneg_right hNu hB0.le
    have h5 : |m| ≤ B * 2 := by
      clear hB hB2 hN hx hy hM210 hBB200 hl250 hw hW
      linarith
    refine h5.trans ?_
    rw [pow_succ]
    exact mul_le_mul_of_nonneg_right hB2 (by norm_num)
  have q0 := diff_le hr hx (hmean mx (avg_abs_le hB0.le fun p h => (hp p h).1))
  have q1 := diff_le hr hy (hmean my (avg_abs_le hB0.le fun p h => (hp p h).2))
  have hδ := delta_facts hW
  have key := form_near hr n00 n01 n11 (Q := 2 ^ 102) (δ := halfMin * 2 ^ 732) (one_le_pow₀ (by norm_num)) q0 q1 hδ.1 hδ.2.1
  have hsc : score rd (cellOf rd es ps) p = expD rd (exponent rd (cellOf rd es ps) p) := by
    unfold score
    rw [if_neg]
    rw [hc0]
    show ¬ (ps.foldl (addPoint rd) Cell.new).n < 5
    rw [fold_n hr ps hn]
    linarith
  have neg : ∀ q0 q1 : ℝ, -0.5 * (q0 ^ 2 * (d * w) + 2 * (q0 * q1) * (-b' * w) + q1 ^ 2 * (a * w)) +
      7 * ulp * (q0 ^ 2 + q1 ^ 2) * (w * max a d) ≤ 0 := by
    intro q0 q1
    have h1 := mul_le_mul_of_nonneg_right (form q1 (-q0)) hw0.le
    have h2 := mul_le_mul_of_nonneg_right h14 (mul_nonneg (add_nonneg (sq_nonneg q0) (sq_nonneg q1)) hw0.le)
    clear hB hB2 hN hx hy hM210 hBB200 hl250 hw hW
    linarith
  obtain ⟨e, hex, hle⟩ : ∃ e, exponent rd (cellOf rd es ps) p = .fin e ∧ e ≤ 2⁻¹ ^ 60 := by
    rw [hc0, hinf]
    exact ⟨_, rfl, key.trans (le_trans (add_le_of_nonpos_left (neg _ _)) hδ.2.2)⟩
  rw [hsc, hex]
  have h1 := rd_exp_le_one hr hle
  refine ⟨rd (Real.exp e), if_neg ?_, hr.nonneg (Real.exp_pos _).le, h1⟩
  exact not_le.mpr (lt_of_le_of_lt h1 (one_lt_pow₀ (by norm_num) (by norm_num)))

end Ndt.Rounded
