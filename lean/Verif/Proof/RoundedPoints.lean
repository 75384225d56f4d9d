import Verif.Model.RoundedPoints
import Verif.Proof.RoundedPose
import Verif.Spec.Laser
import Verif.Props.SingleProps

/-! # Rounding of points -/

namespace Ndt.Rounded

noncomputable section

open Real Spec

theorem prod_near {rd : ℝ → ℝ} (hrd : RoundsToNearest rd) {c g x X P ε δ : ℝ} (hg : |g| ≤ 1) (hc : |c| ≤ 1.01)
    (hcg : |c - g| ≤ ε) (hx : |x - X| ≤ δ) (hX : |X| ≤ P) (hδ : δ ≤ P) :
    |rd (c * x) - g * X| ≤ 1.01 * δ + P * ε + 2.5e-16 * P + 1e-30 := by
  have hP : 0 ≤ P := (abs_nonneg _).trans hX
  have h1 : |x| ≤ P + δ := by
    have := abs_sub_abs_le_abs_sub x X
    linarith
  have h2 : |c * x| ≤ 1.01 * (P + δ) := by
    rw [abs_mul]; exact mul_le_mul hc h1 (abs_nonneg _) (by norm_num)
  have h3 := rd_near hrd h2
  have e : rd (c * x) - g * X = (rd (c * x) - c * x) + c * (x - X) + (c - g) * X := by ring
  have h4 : |c * (x - X)| ≤ 1.01 * δ := by rw [abs_mul]; exact mul_le_mul hc hx (abs_nonneg _) (by norm_num)
  have h5 : |(c - g) * X| ≤ ε * P := by
    rw [abs_mul]; exact mul_le_mul hcg hX (abs_nonneg _) ((abs_nonneg _).trans hcg)
  rw [e]
  have d1 := abs_add_le (rd (c * x) - c * x + c * (x - X)) ((c - g) * X)
  have d2 := abs_add_le (rd (c * x) - c * x) (c * (x - X))
  generalize |c * (x - X)| = A at *
  generalize |(c - g) * X| = B at *
  norm_num at h3 h4 ⊢
  linarith

/-- Two products added, and a shift. -/
theorem sum3_near {rd : ℝ → ℝ} (hrd : RoundsToNearest rd) {t1 t2 t g1 g2 g P T δ δt : ℝ} (h1 : |t1 - g1| ≤ δ)
    (h2 : |t2 - g2| ≤ δ) (ht : |t - g| ≤ δt) (hg1 : |g1| ≤ P) (hg2 : |g2| ≤ P) (hg : |g| ≤ T) (hδ : δ ≤ P + 1e-28)
    (hδt : δt ≤ T) :
    |rd (rd (t1 + t2) + t) - (g1 + g2 + g)| ≤ 2 * δ + δt + 1.2e-15 * P + 2.4e-16 * T + 3e-30 := by
  have hP : 0 ≤ P := (abs_nonneg _).trans hg1
  have hT : 0 ≤ T := (abs_nonneg _).trans hg
  have a1 : |t1| ≤ 2 * P + 1e-28 := by
    have := abs_sub_abs_le_abs_sub t1 g1
    linarith
  have a2 : |t2| ≤ 2 * P + 1e-28 := by
    have := abs_sub_abs_le_abs_sub t2 g2
    linarith
  have a3 : |t| ≤ 2 * T := by
    have := abs_sub_abs_le_abs_sub t g
    linarith
  have b1 : |t1 + t2| ≤ 4 * P + 2e-28 := by
    have := abs_add_le t1 t2
    norm_num at a1 a2 ⊢
    linarith
  have c1 := rd_near hrd b1
  have b2 : |rd (t1 + t2) + t| ≤ 4.1 * P + 2 * T + 3e-28 := by
    have e1 := abs_sub_abs_le_abs_sub (rd (t1 + t2)) (t1 + t2)
    have e2 := abs_add_le (rd (t1 + t2)) t
    norm_num at c1 b1 ⊢
    linarith
  have c2 := rd_near hrd b2
  have e : rd (rd (t1 + t2) + t) - (g1 + g2 + g) =
      (rd (rd (t1 + t2) + t) - (rd (t1 + t2) + t)) + (rd (t1 + t2) - (t1 + t2)) + (t1 - g1) + (t2 - g2) + (t - g) := by ring
  rw [e]
  have d1 := abs_add_le (rd (rd (t1 + t2) + t) - (rd (t1 + t2) + t) + (rd (t1 + t2) - (t1 + t2)) + (t1 - g1) + (t2 - g2)) (t - g)
  have d2 := abs_add_le (rd (rd (t1 + t2) + t) - (rd (t1 + t2) + t) + (rd (t1 + t2) - (t1 + t2)) + (t1 - g1)) (t2 - g2)
  have d3 := abs_add_le (rd (rd (t1 + t2) + t) - (rd (t1 + t2) + t) + (rd (t1 + t2) - (t1 + t2))) (t1 - g1)
  have d4 := abs_add_le (rd (rd (t1 + t2) + t) - (rd (t1 + t2) + t)) (rd (t1 + t2) - (t1 + t2))
  norm_num at c1 c2 ⊢
  linarith

theorem lib_near {cosD sinD : ℝ → ℝ} (hlib : Accurate cosD sinD) {a h H : ℝ} (hH : |a - h| ≤ H) :
    |cosD a - cos h| ≤ H + 2.3e-16 ∧ |sinD a - sin h| ≤ H + 2.3e-16 ∧ |cosD a| ≤ 1.01 ∧ |sinD a| ≤ 1.01 := by
  have c1 := hlib.cos a
  have s1 := hlib.sin a
  have c2 : |cos a - cos h| ≤ |a - h| := cos_diff_le a h
  have s2 : |sin a - sin h| ≤ |a - h| := sin_diff_le a h
  have c3 := abs_sub_le (cosD a) (cos a) (cos h)
  have s3 := abs_sub_le (sinD a) (sin a) (sin h)
  have c4 := abs_sub_abs_le_abs_sub (cosD a) (cos a)
  have s4 := abs_sub_abs_le_abs_sub (sinD a) (sin a)
  have c5 := abs_cos_le_one a
  have s5 := abs_sin_le_one a
  norm_num at c1 s1 ⊢
  refine ⟨?_, ?_, ?_, ?_⟩ <;> linarith

/-- A rotated and shifted point: its error from those of the point (`δ`), the heading (`H`) and the shift (`δt`). -/
theorem worldPoint_near {rd cosD sinD : ℝ → ℝ} (hrd : RoundsToNearest rd) (hlib : Accurate cosD sinD) {m m' : Pose2d}
    {p q : Point} {P T H δ δt : ℝ} (hx : |p.x - q.x| ≤ δ) (hy : |p.y - q.y| ≤ δ) (hqx : |q.x| ≤ P) (hqy : |q.y| ≤ P)
    (hmx : |m.x - m'.x| ≤ δt) (hmy : |m.y - m'.y| ≤ δt) (htx : |m'.x| ≤ T) (hty : |m'.y| ≤ T)
    (hH : |m.theta - m'.theta| ≤ H) (hH1 : H ≤ 0.1) (hδ : δ ≤ 0.1 * P) (hδt : δt ≤ T) :
    |(worldPoint rd cosD sinD m p).x - (move m' q).x| ≤ 2.02 * δ + 2 * P * H + 2.2e-15 * P + 2.4e-16 * T + δt + 5e-30 ∧
    |(worldPoint rd cosD sinD m p).y - (move m' q).y| ≤ 2.02 * δ + 2 * P * H + 2.2e-15 * P + 2.4e-16 * T + δt + 5e-30 := by
  have hP : 0 ≤ P := (abs_nonneg _).trans hqx
  obtain ⟨c1, s1, c2, s2⟩ := lib_near hlib hH
  have hd : δ ≤ P := by linarith
  have t1 := prod_near hrd (abs_cos_le_one m'.theta) c2 c1 hx hqx hd
  have t2 := prod_near hrd (abs_sin_le_one m'.theta) s2 s1 hy hqy hd
  have t3 := prod_near hrd (abs_sin_le_one m'.theta) s2 s1 hx hqx hd
  have t4 := prod_near hrd (abs_cos_le_one m'.theta) c2 c1 hy hqy hd
  have g : ∀ D c : ℝ, |D| ≤ P → |c| ≤ 1 → |c * D| ≤ P := by
    intro D c h1 h2
    rw [abs_mul]
    have := mul_le_mul h2 h1 (abs_nonneg _) zero_le_one
    linarith
  have hPH : P * H ≤ P * 0.1 := mul_le_mul_of_nonneg_left hH1 hP
  have hδ' : 1.01 * δ + P * (H + 2.3e-16) + 2.5e-16 * P + 1e-30 ≤ P + 1e-28 := by
    norm_num at hPH hδ ⊢
    linarith
  have fin : 2 * (1.01 * δ + P * (H + 2.3e-16) + 2.5e-16 * P + 1e-30) + δt + 1.2e-15 * P + 2.4e-16 * T + 3e-30 ≤
      2.02 * δ + 2 * P * H + 2.2e-15 * P + 2.4e-16 * T + δt + 5e-30 := by
    norm_num
    linarith
  constructor
  · have t2' : |-rd (sinD m.theta * p.y) - -(sin m'.theta * q.y)| ≤ 1.01 * δ + P * (H + 2.3e-16) + 2.5e-16 * P + 1e-30 := by
      rw [neg_sub_neg, abs_sub_comm]; exact t2
    have := sum3_near hrd t1 t2' hmx (g _ _ hqx (abs_cos_le_one _)) (by rw [abs_neg]; exact g _ _ hqy (abs_sin_le_one _)) htx
      hδ' hδt
    unfold worldPoint turn move
    dsimp only
    rw [show m'.x + cos m'.theta * q.x - sin m'.theta * q.y = cos m'.theta * q.x + -(sin m'.theta * q.y) + m'.x by ring,
      sub_eq_add_neg (rd (cosD m.theta * p.x))]
    exact this.trans fin
  · have := sum3_near hrd t3 t4 hmy (g _ _ hqx (abs_sin_le_one _)) (g _ _ hqy (abs_cos_le_one _)) hty hδ' hδt
    unfold worldPoint turn move
    dsimp only
    rw [show m'.y + sin m'.theta * q.x + cos m'.theta * q.y = sin m'.theta * q.x + cos m'.theta * q.y + m'.y by ring]
    exact this.trans fin

theorem share_near {rd : ℝ → ℝ} (hrd : RoundsToNearest rd) {a b M : ℝ} {n i : ℕ} (hD : |b - a| ≤ M) (hM : 1 ≤ M) (hi : i ≤ n)
    (hn0 : 0 < n) (hn : n < 2 ^ 24) : |share rd a b n i - (b - a) / n * i| ≤ 4e-16 * M := by
  unfold share
  rw [hrd.exact (isDouble_nat (by omega)), hrd.exact (isDouble_nat (n := i) (by omega))]
  have hn' : (0 : ℝ) < n := by exact_mod_cast hn0
  have hi0 : (0 : ℝ) ≤ i := Nat.cast_nonneg i
  have hin : (i : ℝ) ≤ n := by exact_mod_cast hi
  have hq : (i : ℝ) / n ≤ 1 := by rw [div_le_one hn']; exact hin
  have hq0 : 0 ≤ (i : ℝ) / n := div_nonneg hi0 hn'.le
  have hi24 : (i : ℝ) ≤ 16777216 := by
    have : i ≤ 16777216 := by omega
    exact_mod_cast this
  have h1 := rd_near hrd hD
  have h1' : |rd (b - a)| ≤ 1.01 * M := by
    have := abs_sub_abs_le_abs_sub (rd (b - a)) (b - a)
    norm_num at h1 ⊢
    linarith
  have h2 := rd_near hrd (x := rd (b - a) / n) (X := 1.01 * M / n) (by
    rw [abs_div, abs_of_pos hn']; exact div_le_div_of_nonneg_right h1' hn'.le)
  set d := rd (b - a)
  set e := rd (d / n)
  have h3 : |e * i - d / n * i| ≤ 1.22e-16 * M := by
    rw [← sub_mul, abs_mul, abs_of_nonneg hi0]
    have := mul_le_mul_of_nonneg_right h2 hi0
    refine this.trans ?_
    have e1 : (1.2e-16 * (1.01 * M / n) + 1e-30) * i = 1.2e-16 * 1.01 * M * (i / n) + 1e-30 * i := by
      field_simp
    rw [e1]
    have : 1.2e-16 * 1.01 * M * ((i : ℝ) / n) ≤ 1.2e-16 * 1.01 * M * 1 :=
      mul_le_mul_of_nonneg_left hq (by positivity)
    generalize 1.2e-16 * 1.01 * M * ((i : ℝ) / n) = A at *
    norm_num at this ⊢
    linarith
  have h4 : |d / n * i - (b - a) / n * i| ≤ 1.2e-16 * M + 1e-30 := by
    have : d / n * i - (b - a) / n * i = (d - (b - a)) * (i / n) := by field_simp
    rw [this, abs_mul, abs_of_nonneg hq0]
    have := mul_le_mul h1 hq hq0 (by positivity)
    linarith
  have h5 : |(b - a) / n * i| ≤ M := by
    have : (b - a) / n * i = (b - a) * (i / n) := by field_simp
    rw [this, abs_mul, abs_of_nonneg hq0]
    have := mul_le_mul hD hq hq0 (by linarith)
    linarith
  have h6 : |e * i| ≤ 1.01 * M := by
    have k1 := abs_sub_abs_le_abs_sub (e * i) (d / n * i)
    have k2 := abs_sub_abs_le_abs_sub (d / n * i) ((b - a) / n * i)
    generalize |e * i - d / n * i| = A at *
    generalize |d / n * i - (b - a) / n * i| = B at *
    generalize |(b - a) / n * i| = C at *
    generalize |e * i| = D at *
    generalize |d / n * i| = E at *
    norm_num at h3 h4 ⊢
    linarith
  have h7 := rd_near hrd h6
  have k1 := abs_sub_le (rd (e * i)) (e * i) ((b - a) / n * i)
  have k2 := abs_sub_le (e * i) (d / n * i) ((b - a) / n * i)
  generalize |e * i - d / n * i| = A at *
  generalize |d / n * i - (b - a) / n * i| = B at *
  norm_num at h3 h4 h7 ⊢
  linarith

theorem share_le {a b M : ℝ} {n i : ℕ} (hD : |b - a| ≤ M) (hi : i ≤ n) (hn0 : 0 < n) : |(b - a) / n * i| ≤ M := by
  have hn' : (0 : ℝ) < n := by exact_mod_cast hn0
  have hi0 : (0 : ℝ) ≤ i := Nat.cast_nonneg i
  have hin : (i : ℝ) ≤ n := by exact_mod_cast hi
  have hq : (i : ℝ) / n ≤ 1 := by rw [div_le_one hn']; exact hin
  have hq0 : 0 ≤ (i : ℝ) / n := div_nonneg hi0 hn'.le
  have : (b - a) / n * i = (b - a) * (i / n) := by field_simp
  rw [this, abs_mul, abs_of_nonneg hq0]
  have := mul_le_mul hD hq hq0 ((abs_nonneg _).trans hD)
  linarith

theorem remaining_near {rd : ℝ → ℝ} (hrd : RoundsToNearest rd) {a b M : ℝ} {n i : ℕ} (hD : |b - a| ≤ M) (hM : 1 ≤ M)
    (hi : i ≤ n) (hn0 : 0 < n) (hn : n < 2 ^ 24) :
    |remaining rd a b n i - (b - a - (b - a) / n * i)| ≤ 8e-16 * M := by
  unfold remaining
  have h1 := rd_near hrd hD
  have h2 := share_near hrd hD hM hi hn0 hn
  have h3 := share_le hD hi hn0
  have h4 : |rd (b - a) - share rd a b n i| ≤ 2.01 * M := by
    have k1 := abs_sub (rd (b - a)) (share rd a b n i)
    have k2 := abs_sub_abs_le_abs_sub (rd (b - a)) (b - a)
    have k3 := abs_sub_abs_le_abs_sub (share rd a b n i) ((b - a) / n * i)
    norm_num at h1 h2 ⊢
    linarith
  have h5 := rd_near hrd h4
  have e : rd (rd (b - a) - share rd a b n i) - (b - a - (b - a) / n * i) =
      (rd (rd (b - a) - share rd a b n i) - (rd (b - a) - share rd a b n i)) + (rd (b - a) - (b - a))
      - (share rd a b n i - (b - a) / n * i) := by ring
  rw [e]
  have d1 := abs_sub (rd (rd (b - a) - share rd a b n i) - (rd (b - a) - share rd a b n i) + (rd (b - a) - (b - a)))
    (share rd a b n i - (b - a) / n * i)
  have d2 := abs_add_le (rd (rd (b - a) - share rd a b n i) - (rd (b - a) - share rd a b n i)) (rd (b - a) - (b - a))
  norm_num at h1 h2 h5 ⊢
  linarith

theorem remaining_le {a b M : ℝ} {n i : ℕ} (hD : |b - a| ≤ M) (hi : i ≤ n) (hn0 : 0 < n) :
    |b - a - (b - a) / n * i| ≤ M := by
  have hn' : (0 : ℝ) < n := by exact_mod_cast hn0
  have hi0 : (0 : ℝ) ≤ i := Nat.cast_nonneg i
  have hin : (i : ℝ) ≤ n := by exact_mod_cast hi
  have hq : (i : ℝ) / n ≤ 1 := by rw [div_le_one hn']; exact hin
  have hq0 : 0 ≤ (i : ℝ) / n := div_nonneg hi0 hn'.le
  have : b - a - (b - a) / n * i = (b - a) * (1 - i / n) := by field_simp
  rw [this, abs_mul, abs_of_nonneg (sub_nonneg.mpr hq)]
  have := mul_le_mul hD (sub_le_self 1 hq0) (sub_nonneg.mpr hq) ((abs_nonneg _).trans hD)
  linarith

theorem move_le {m : Pose2d} {q : Point} {P T : ℝ} (hx : |q.x| ≤ P) (hy : |q.y| ≤ P) (htx : |m.x| ≤ T) (hty : |m.y| ≤ T) :
    |(move m q).x| ≤ 2 * P + T ∧ |(move m q).y| ≤ 2 * P + T := by
  have g : ∀ D c : ℝ, |D| ≤ P → |c| ≤ 1 → |c * D| ≤ P := by
    intro D c h1 h2
    rw [abs_mul]
    have := mul_le_mul h2 h1 (abs_nonneg _) zero_le_one
    linarith
  unfold move
  dsimp only
  constructor
  · have k1 := abs_sub (m.x + cos m.theta * q.x) (sin m.theta * q.y)
    have k2 := abs_add_le m.x (cos m.theta * q.x)
    have := g _ _ hx (abs_cos_le_one m.theta)
    have := g _ _ hy (abs_sin_le_one m.theta)
    linarith
  · have k1 := abs_add_le (m.y + sin m.theta * q.x) (cos m.theta * q.y)
    have k2 := abs_add_le m.y (sin m.theta * q.x)
    have := g _ _ hx (abs_sin_le_one m.theta)
    have := g _ _ hy (abs_cos_le_one m.theta)
    linarith

theorem project_near {rd cosD sinD : ℝ → ℝ} (hrd : RoundsToNearest rd) (hlib : Accurate cosD sinD) {lt : Pose2d} {angle r M : ℝ}
    (hM : 1 ≤ M) (hr : |r| ≤ M) (hx : |lt.x| ≤ M) (hy : |lt.y| ≤ M) :
    |(project rd cosD sinD lt angle r).x - (move lt (polar angle r)).x| ≤ 4e-15 * M ∧
    |(project rd cosD sinD lt angle r).y - (move lt (polar angle r)).y| ≤ 4e-15 * M := by
  obtain ⟨c1, s1, c2, s2⟩ := lib_near hlib (a := angle) (h := angle) (H := 0) (by simp)
  have t1 := prod_near hrd (abs_cos_le_one angle) c2 c1 (x := r) (X := r) (δ := 0) (by simp) hr (by linarith)
  have t2 := prod_near hrd (abs_sin_le_one angle) s2 s1 (x := r) (X := r) (δ := 0) (by simp) hr (by linarith)
  rw [mul_comm (cos angle)] at t1
  rw [mul_comm (sin angle)] at t2
  have hp : ∀ c : ℝ, |c| ≤ 1 → |r * c| ≤ M := by
    intro c hc
    rw [abs_mul]
    have := mul_le_mul hr hc (abs_nonneg _) (by linarith)
    linarith
  have u1 : |rd (cosD angle * r) - (polar angle r).x| ≤ 5e-16 * M := by
    refine t1.trans ?_
    norm_num
    linarith
  have u2 : |rd (sinD angle * r) - (polar angle r).y| ≤ 5e-16 * M := by
    refine t2.trans ?_
    norm_num
    linarith
  have := worldPoint_near hrd hlib (m := lt) (m' := lt) (p := ⟨rd (cosD angle * r), rd (sinD angle * r)⟩)
    (q := polar angle r) (P := M) (T := M) (H := 0) (δ := 5e-16 * M) (δt := 0) u1 u2 (hp _ (abs_cos_le_one _))
    (hp _ (abs_sin_le_one _)) (by simp) (by simp) hx hy (by simp) (by norm_num) (by norm_num; linarith) (by linarith)
  refine ⟨this.1.trans ?_, this.2.trans ?_⟩ <;> norm_num <;> linarith

end

end Ndt.Rounded
