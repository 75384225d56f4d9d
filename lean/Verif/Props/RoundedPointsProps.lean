import Verif.Proof.RoundedPoints
import Verif.Spec.Agree

/-! # C121: points and constraints in double precision -/

namespace Ndt

noncomputable section

open Real Spec Rounded

/-- **C121** A point of a scan in the map, as the NDT, the matcher and the occupancy grid compute it, for points that reach to
`P` and poses that reach to `T`. -/
theorem c121_points_in_the_map {rd cosD sinD : ℝ → ℝ} (hrd : RoundsToNearest rd) (hlib : Accurate cosD sinD) (pose : Pose2d)
    (p : Point) {P T : ℝ} (hpx : |p.x| ≤ P) (hpy : |p.y| ≤ P) (htx : |pose.x| ≤ T) (hty : |pose.y| ≤ T) :
    |(worldPoint rd cosD sinD pose p).x - (move pose p).x| ≤ 2.2e-15 * P + 2.4e-16 * T + 5e-30 ∧
    |(worldPoint rd cosD sinD pose p).y - (move pose p).y| ≤ 2.2e-15 * P + 2.4e-16 * T + 5e-30 := by
  have hP : 0 ≤ P := (abs_nonneg _).trans hpx
  have hT : 0 ≤ T := (abs_nonneg _).trans htx
  have := worldPoint_near hrd hlib (m := pose) (m' := pose) (p := p) (q := p) (H := 0) (δ := 0) (δt := 0) (by simp) (by simp)
    hpx hpy (by simp) (by simp) htx hty (by simp) (by norm_num) (by norm_num; exact hP) hT
  refine ⟨this.1.trans (le_of_eq ?_), this.2.trans (le_of_eq ?_)⟩ <;> ring

/-- The rounded point of a beam is near that with the same angle and no other rounding. -/
theorem beam_near {rd cosD sinD : ℝ → ℝ} (hrd : RoundsToNearest rd) (hlib : Accurate cosD sinD) {lt m m' : Pose2d}
    {angle r M : ℝ} (hM : 1 ≤ M) (hr : |r| ≤ M) (hx : |lt.x| ≤ M) (hy : |lt.y| ≤ M) (hmx : |m.x - m'.x| ≤ 8e-16 * M)
    (hmy : |m.y - m'.y| ≤ 8e-16 * M) (htx : |m'.x| ≤ M) (hty : |m'.y| ≤ M) (hH : |m.theta - m'.theta| ≤ 5.6e-15) :
    |(worldPoint rd cosD sinD m (project rd cosD sinD lt angle r)).x - (move m' (move lt (polar angle r))).x| ≤ 6e-14 * M ∧
    |(worldPoint rd cosD sinD m (project rd cosD sinD lt angle r)).y - (move m' (move lt (polar angle r))).y| ≤ 6e-14 * M := by
  obtain ⟨p1, p2⟩ := project_near hrd hlib (angle := angle) hM hr hx hy
  have hp : ∀ c : ℝ, |c| ≤ 1 → |r * c| ≤ M := by
    intro c hc
    rw [abs_mul]
    have := mul_le_mul hr hc (abs_nonneg _) (by linarith)
    linarith
  obtain ⟨q1, q2⟩ := move_le (m := lt) (q := polar angle r) (P := M) (T := M) (hp _ (abs_cos_le_one _)) (hp _ (abs_sin_le_one _))
    hx hy
  have := worldPoint_near hrd hlib (m := m) (m' := m') (P := 2 * M + M) (T := M) (H := 5.6e-15) p1 p2 q1 q2
    hmx hmy htx hty hH (by norm_num) (by norm_num; linarith) (by norm_num; linarith)
  refine ⟨this.1.trans ?_, this.2.trans ?_⟩ <;> norm_num <;> linarith

theorem coordinates_le_dist (p q : Point) : |p.x - q.x| ≤ Spec.dist p q ∧ |p.y - q.y| ≤ Spec.dist p q := by
  unfold Spec.dist
  constructor
  · apply Real.abs_le_sqrt
    nlinarith [sq_nonneg (p.y - q.y)]
  · apply Real.abs_le_sqrt
    nlinarith [sq_nonneg (p.x - q.x)]

/-- **C121** The points of a laser message, whichever way the laser is mounted, are those that real numbers would give, up to a
millionth of the range (the angle is computed in single precision) and `6e-14` of the largest length involved. -/
theorem c121_points_of_a_message {rd rf cosD sinD : ℝ → ℝ} (hrd : RoundsToNearest rd) (hrf : RoundsToFloat rf)
    (hlib : Accurate cosD sinD) (msg : LaserMsg) (lt o o' : Pose2d) {i : ℕ} {r M : ℝ} (hi : i < msg.ranges.length)
    (hn : msg.ranges.length < 2 ^ 24) (hM : 1 ≤ M) (hr : |r| ≤ M) (hx : |lt.x| ≤ M) (hy : |lt.y| ≤ M) (hox : |o'.x - o.x| ≤ M)
    (hoy : |o'.y - o.y| ≤ M) (hoth : |o'.theta - o.theta| ≤ 7) (hs : |i * msg.angleIncrement| ≤ 6.3)
    (ha : |msg.angleMin + i * msg.angleIncrement| ≤ 3.2) :
    (∃ p, IsPoint (Laser.forwardPoint msg lt (Laser.translation o o') i (.fin r)) p ∧
      |(Rounded.forwardPoint rd rf cosD sinD msg lt o o' i r).x - p.x| ≤ |r| * 1e-6 + 6e-14 * M ∧
      |(Rounded.forwardPoint rd rf cosD sinD msg lt o o' i r).y - p.y| ≤ |r| * 1e-6 + 6e-14 * M) ∧
    ∃ p, IsPoint (Laser.invertedPoint msg lt (Laser.translation o o') i (.fin r)) p ∧
      |(Rounded.invertedPoint rd rf cosD sinD msg lt o o' i r).x - p.x| ≤ |r| * 1e-6 + 6e-14 * M ∧
      |(Rounded.invertedPoint rd rf cosD sinD msg lt o o' i r).y - p.y| ≤ |r| * 1e-6 + 6e-14 * M := by
  have hn0 : 0 < msg.ranges.length := by omega
  have hth := c112_angle_within_a_millionth hrf msg (hi.trans hn) hs ha
  set n := msg.ranges.length with hnn
  have key : ∀ (m m' : Pose2d) (a b : ℝ), |m.x - m'.x| ≤ 8e-16 * M → |m.y - m'.y| ≤ 8e-16 * M → |m'.x| ≤ M → |m'.y| ≤ M →
      |m.theta - m'.theta| ≤ 5.6e-15 → |a - b| ≤ 1e-6 →
      |(worldPoint rd cosD sinD m (Rounded.project rd cosD sinD lt a r)).x - (move m' (move lt (polar b r))).x| ≤
        |r| * 1e-6 + 6e-14 * M ∧
      |(worldPoint rd cosD sinD m (Rounded.project rd cosD sinD lt a r)).y - (move m' (move lt (polar b r))).y| ≤
        |r| * 1e-6 + 6e-14 * M := by
    intro m m' a b h1 h2 h3 h4 h5 h6
    obtain ⟨b1, b2⟩ := beam_near hrd hlib (angle := a) hM hr hx hy h1 h2 h3 h4 h5
    have hd : Spec.dist (move m' (move lt (polar a r))) (move m' (move lt (polar b r))) ≤ |r| * 1e-6 := by
      rw [dist_move_eq, dist_move_eq]
      exact (dist_polar_le a b r).trans (mul_le_mul_of_nonneg_left h6 (abs_nonneg r))
    obtain ⟨d1, d2⟩ := coordinates_le_dist (move m' (move lt (polar a r))) (move m' (move lt (polar b r)))
    constructor
    · refine (abs_sub_le _ (move m' (move lt (polar a r))).x _).trans ?_
      linarith
    · refine (abs_sub_le _ (move m' (move lt (polar a r))).y _).trans ?_
      linarith
  have hin : i ≤ n := hi.le
  constructor
  · refine ⟨_, shift_fin _ (project_fin lt _ r), ?_⟩
    refine key ⟨share rd o.x o'.x n i, share rd o.y o'.y n i, share rd o.theta o'.theta n i⟩ _ _ _ ?_ ?_ ?_ ?_ ?_ hth
    · exact (share_near hrd hox hM hin hn0 hn).trans (by norm_num; linarith)
    · exact (share_near hrd hoy hM hin hn0 hn).trans (by norm_num; linarith)
    · exact share_le hox hin hn0
    · exact share_le hoy hin hn0
    · exact (share_near hrd hoth (by norm_num) hin hn0 hn).trans (by norm_num)
  · refine ⟨_, shift_fin _ (project_fin lt _ r), ?_⟩
    refine key ⟨remaining rd o.x o'.x n i, remaining rd o.y o'.y n i, remaining rd o.theta o'.theta n i⟩ _ _ _ ?_ ?_ ?_ ?_ ?_ ?_
    · exact remaining_near hrd hox hM hin hn0 hn
    · exact remaining_near hrd hoy hM hin hn0 hn
    · exact remaining_le hox hin hn0
    · exact remaining_le hoy hin hn0
    · exact (remaining_near hrd hoth (by norm_num) hin hn0 hn).trans (by norm_num)
    · rw [neg_sub_neg, abs_sub_comm]; exact hth

/-- **C121** The constraint between two poses leads from the one to the other, up to `6e-15` of the way between them, and to
rounding of the difference of the headings. -/
theorem c121_constraints {rd cosD sinD : ℝ → ℝ} (hrd : RoundsToNearest rd) (hlib : Accurate cosD sinD) (a b : Pose2d) {D Θ : ℝ}
    (hx : |b.x - a.x| ≤ D) (hy : |b.y - a.y| ≤ D) (hth : |b.theta - a.theta| ≤ Θ) :
    let q := compose a (constraintTransform rd cosD sinD a b)
    |q.x - b.x| ≤ 6e-15 * D + 1e-28 ∧ |q.y - b.y| ≤ 6e-15 * D + 1e-28 ∧ |q.theta - b.theta| ≤ 1.2e-16 * Θ + 1e-30 := by
  intro q
  have hD : 0 ≤ D := (abs_nonneg _).trans hx
  obtain ⟨c1, s1, c2, s2⟩ := lib_near hlib (a := a.theta) (h := a.theta) (H := 0) (by simp)
  have e1 := rd_near hrd hx
  have e2 := rd_near hrd hy
  have pr : ∀ {c g x X : ℝ}, |g| ≤ 1 → |c| ≤ 1.01 → |c - g| ≤ 0 + 2.3e-16 → |X| ≤ D → |x - X| ≤ 1.2e-16 * D + 1e-30 →
      |rd (c * x) - g * X| ≤ 8e-16 * D + 4e-30 := by
    intro c g x X hg hc hcg hX hxX
    have k1 : |x| ≤ 1.01 * D + 1e-30 := by
      have := abs_sub_abs_le_abs_sub x X
      norm_num at hxX ⊢
      linarith
    have k2 : |c * x| ≤ 1.03 * D + 2e-30 := by
      rw [abs_mul]
      have := mul_le_mul hc k1 (abs_nonneg _) (by norm_num)
      norm_num at this ⊢
      linarith
    have k3 := rd_near hrd k2
    have k4 : |c * (x - X)| ≤ 1.01 * (1.2e-16 * D + 1e-30) := by
      rw [abs_mul]; exact mul_le_mul hc hxX (abs_nonneg _) (by norm_num)
    have k5 : |(c - g) * X| ≤ (0 + 2.3e-16) * D := by
      rw [abs_mul]; exact mul_le_mul hcg hX (abs_nonneg _) (by norm_num)
    have e : rd (c * x) - g * X = (rd (c * x) - c * x) + c * (x - X) + (c - g) * X := by ring
    rw [e]
    have d1 := abs_add_le (rd (c * x) - c * x + c * (x - X)) ((c - g) * X)
    have d2 := abs_add_le (rd (c * x) - c * x) (c * (x - X))
    generalize |c * (x - X)| = A at *
    generalize |(c - g) * X| = B at *
    norm_num at k3 k4 k5 ⊢
    linarith
  have su : ∀ {t1 t2 g1 g2 : ℝ}, |t1 - g1| ≤ 8e-16 * D + 4e-30 → |t2 - g2| ≤ 8e-16 * D + 4e-30 → |g1| ≤ D → |g2| ≤ D →
      |rd (t1 + t2) - (g1 + g2)| ≤ 2e-15 * D + 1e-29 := by
    intro t1 t2 g1 g2 h1 h2 hg1 hg2
    have k1 : |t1 + t2| ≤ 2.1 * D + 1e-29 := by
      have m1 := abs_sub_abs_le_abs_sub t1 g1
      have m2 := abs_sub_abs_le_abs_sub t2 g2
      have m3 := abs_add_le t1 t2
      norm_num at h1 h2 ⊢
      linarith
    have k2 := rd_near hrd k1
    have e : rd (t1 + t2) - (g1 + g2) = (rd (t1 + t2) - (t1 + t2)) + (t1 - g1) + (t2 - g2) := by ring
    rw [e]
    have d1 := abs_add_le (rd (t1 + t2) - (t1 + t2) + (t1 - g1)) (t2 - g2)
    have d2 := abs_add_le (rd (t1 + t2) - (t1 + t2)) (t1 - g1)
    norm_num at h1 h2 k2 ⊢
    linarith
  have g : ∀ {X c : ℝ}, |c| ≤ 1 → |X| ≤ D → |c * X| ≤ D := by
    intro X c h1 h2
    rw [abs_mul]
    have := mul_le_mul h1 h2 (abs_nonneg _) zero_le_one
    linarith
  have hc0 := abs_cos_le_one a.theta
  have hs0 := abs_sin_le_one a.theta
  have hs0' : |(-sin a.theta)| ≤ 1 := by rw [abs_neg]; exact hs0
  have s1' : |(-sinD a.theta) - (-sin a.theta)| ≤ 0 + 2.3e-16 := by rw [neg_sub_neg, abs_sub_comm]; exact s1
  have u := su (pr hc0 c2 c1 hx e1) (pr hs0 s2 s1 hy e2) (g hc0 hx) (g hs0 hy)
  have v := su (pr hs0' (by rw [abs_neg]; exact s2) s1' hx e1) (pr hc0 c2 c1 hy e2) (g hs0' hx) (g hc0 hy)
  set tx := rd (rd (cosD a.theta * rd (b.x - a.x)) + rd (sinD a.theta * rd (b.y - a.y))) with htx
  set ty := rd (rd (-sinD a.theta * rd (b.x - a.x)) + rd (cosD a.theta * rd (b.y - a.y))) with hty
  have trig := sin_sq_add_cos_sq a.theta
  set ex := tx - (cos a.theta * (b.x - a.x) + sin a.theta * (b.y - a.y)) with hex
  set ey := ty - (-sin a.theta * (b.x - a.x) + cos a.theta * (b.y - a.y)) with hey
  have hE : (0 : ℝ) ≤ 2e-15 * D + 1e-29 := by positivity
  have gE : ∀ {c X : ℝ}, |c| ≤ 1 → |X| ≤ 2e-15 * D + 1e-29 → |c * X| ≤ 2e-15 * D + 1e-29 := by
    intro c X h1 h2
    rw [abs_mul]
    have := mul_le_mul h1 h2 (abs_nonneg _) zero_le_one
    linarith
  refine ⟨?_, ?_, ?_⟩
  · have e : q.x - b.x = cos a.theta * ex - sin a.theta * ey := by
      show a.x + cos a.theta * tx - sin a.theta * ty - b.x = _
      rw [hex, hey]
      linear_combination (b.x - a.x) * trig
    rw [e]
    refine (abs_sub _ _).trans ((add_le_add (gE hc0 u) (gE hs0 v)).trans ?_)
    norm_num
    linarith
  · have e : q.y - b.y = sin a.theta * ex + cos a.theta * ey := by
      show a.y + sin a.theta * tx + cos a.theta * ty - b.y = _
      rw [hex, hey]
      linear_combination (b.y - a.y) * trig
    rw [e]
    refine (abs_add_le _ _).trans ((add_le_add (gE hs0 u) (gE hc0 v)).trans ?_)
    norm_num
    linarith
  · have := rd_near hrd hth
    have e : q.theta - b.theta = rd (b.theta - a.theta) - (b.theta - a.theta) := by
      show a.theta + rd (b.theta - a.theta) - b.theta = _
      ring
    rw [e]; exact this

/-- Example: the functions of real numbers are accurate, and there are such roundings; a laser of 720 beams that reaches
thirty metres. -/
example : RoundsToNearest rnd ∧ RoundsToFloat rndF ∧ Accurate cos sin ∧ (719 : ℕ) < (List.replicate 720 (Fl.fin 30)).length ∧
    |((719 : ℕ) : ℝ) * 0.0087| ≤ 6.3 ∧ |(-3.13 : ℝ) + (719 : ℕ) * 0.0087| ≤ 3.2 := by
  refine ⟨rnd_rounds, rndF_rounds, ⟨fun a => by simp, fun a => by simp⟩, by rw [List.length_replicate]; norm_num, ?_, ?_⟩ <;> norm_num [abs_of_pos]

end

end Ndt
