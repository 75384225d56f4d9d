import Verif.Model.Motion
import Verif.Proof.Angles
import Verif.Spec.Geometry

/-! # C28, C29: the motion model -/

namespace Ndt

noncomputable section

open Real Spec

/-- Draws without noise: every draw is the mean. -/
def noiseFree : MotionModel.Draws := fun _ mean _ => mean

/-- **C28** Without noise every pose is moved by exactly the commanded motion, given in the pose's own frame, and
the heading ends in (-pi, pi] (translations above one centimetre). -/
theorem c28_noise_free_motion_is_composition (m : MotionModel) (dx dy dth : ℝ) (hd : 0.01 < hypot dx dy)
    (poses : List Pose2d) :
    (m.sample noiseFree dx dy dth poses).length = poses.length ∧
    ∀ (i : ℕ) (p q : Pose2d), poses[i]? = some p → (m.sample noiseFree dx dy dth poses)[i]? = some q →
      q.x = (compose p ⟨dx, dy, dth⟩).x ∧ q.y = (compose p ⟨dx, dy, dth⟩).y ∧
      (-π < q.theta ∧ q.theta ≤ π) ∧ ∃ n : ℤ, q.theta = (compose p ⟨dx, dy, dth⟩).theta + n * (2 * π) := by
  refine ⟨by simp [MotionModel.sample], ?_⟩
  intro i p q hp hq
  simp only [MotionModel.sample, List.getElem?_mapIdx, hp, Option.map_some, Option.some.injEq] at hq
  subst hq
  have h1 : MotionModel.rot1 dx dy = atan2 dy dx := if_pos hd
  simp only [MotionModel.sampleOne, noiseFree, compose, h1, MotionModel.trans]
  have hx := hypot_mul_cos_atan2 dx dy
  have hy := hypot_mul_sin_atan2 dx dy
  refine ⟨?_, ?_, normalizeAngle_mem _, ?_⟩
  · rw [cos_add]; linear_combination cos p.theta * hx - sin p.theta * hy
  · rw [sin_add]; linear_combination sin p.theta * hx + cos p.theta * hy
  · obtain ⟨n, hn⟩ := normalizeAngle_congr (p.theta + atan2 dy dx + MotionModel.rot2 dx dy dth)
    obtain ⟨k, hk⟩ := normalizeAngle_congr (dth - MotionModel.rot1 dx dy)
    refine ⟨n + k, ?_⟩
    rw [hn, MotionModel.rot2, shortestAngularDistance, hk, h1]
    push_cast; ring

/-- **C28** Up to one centimetre the robot is moved the same distance along its heading, and turned by exactly the
commanded turn. -/
theorem c28_small_motion_along_heading (m : MotionModel) (dx dy dth : ℝ) (hd : hypot dx dy ≤ 0.01)
    (poses : List Pose2d) :
    (m.sample noiseFree dx dy dth poses).length = poses.length ∧
    ∀ (i : ℕ) (p q : Pose2d), poses[i]? = some p → (m.sample noiseFree dx dy dth poses)[i]? = some q →
      q.x = (compose p ⟨hypot dx dy, 0, dth⟩).x ∧ q.y = (compose p ⟨hypot dx dy, 0, dth⟩).y ∧
      (-π < q.theta ∧ q.theta ≤ π) ∧ ∃ n : ℤ, q.theta = p.theta + dth + n * (2 * π) := by
  refine ⟨by simp [MotionModel.sample], ?_⟩
  intro i p q hp hq
  simp only [MotionModel.sample, List.getElem?_mapIdx, hp, Option.map_some, Option.some.injEq] at hq
  subst hq
  have h1 : MotionModel.rot1 dx dy = 0 := if_neg (not_lt.mpr hd)
  simp only [MotionModel.sampleOne, noiseFree, compose, h1, MotionModel.trans]
  refine ⟨by ring_nf, by ring_nf, normalizeAngle_mem _, ?_⟩
  obtain ⟨n, hn⟩ := normalizeAngle_congr (p.theta + 0 + MotionModel.rot2 dx dy dth)
  obtain ⟨k, hk⟩ := normalizeAngle_congr (dth - MotionModel.rot1 dx dy)
  refine ⟨n + k, ?_⟩
  rw [hn, MotionModel.rot2, shortestAngularDistance, hk, h1]
  push_cast; ring

/-- **C28** Whatever the noise, the number of poses is kept, headings end in (-pi, pi], and a pose moves by the
distance drawn. -/
theorem c28_any_noise_shape (m : MotionModel) (nrm : MotionModel.Draws) (dx dy dth : ℝ) (poses : List Pose2d) :
    (m.sample nrm dx dy dth poses).length = poses.length ∧
    ∀ (i : ℕ) (p q : Pose2d), poses[i]? = some p → (m.sample nrm dx dy dth poses)[i]? = some q →
      (-π < q.theta ∧ q.theta ≤ π) ∧
      Spec.dist ⟨p.x, p.y⟩ ⟨q.x, q.y⟩ =
        |nrm (3 * i + 1) (hypot dx dy) (sqrt (m.radTrans dx dy dth))| := by
  refine ⟨by simp [MotionModel.sample], ?_⟩
  intro i p q hp hq
  simp only [MotionModel.sample, List.getElem?_mapIdx, hp, Option.map_some, Option.some.injEq] at hq
  subst hq
  simp only [MotionModel.sampleOne, MotionModel.trans]
  refine ⟨normalizeAngle_mem _, ?_⟩
  unfold Spec.dist
  simp only
  rw [← sqrt_sq_eq_abs]
  congr 1
  set t := nrm (3 * i + 1) (hypot dx dy) (sqrt (m.radTrans dx dy dth))
  set r := nrm (3 * i) (MotionModel.rot1 dx dy) (sqrt (m.radRot1 dx dy dth))
  have := sin_sq_add_cos_sq (p.theta + r)
  linear_combination t ^ 2 * this

/-- A quarter circle to the left, from a pose facing left, meets the hypotheses. -/
example : (0.01 : ℝ) < hypot 3 4 := by
  rw [show hypot 3 4 = 5 by unfold hypot; rw [show (3 : ℝ) ^ 2 + 4 ^ 2 = 5 ^ 2 by norm_num]; exact sqrt_sq (by norm_num)]
  norm_num

example : hypot (0.003 : ℝ) 0.004 ≤ 0.01 := by
  unfold hypot
  rw [show (0.003 : ℝ) ^ 2 + 0.004 ^ 2 = 0.005 ^ 2 by norm_num, sqrt_sq (by norm_num)]; norm_num

/-! ### C29 -/

theorem fold_congr {a b : ℝ} (n : ℤ) (h : a = b + n * π) : MotionModel.fold a = MotionModel.fold b := by
  unfold MotionModel.fold shortestAngularDistance
  rcases Int.even_or_odd n with ⟨k, hk⟩ | ⟨k, hk⟩
  · rw [normalizeAngle_eq_of_congr (a := 0 - a) (b := 0 - b) (-k) (by rw [h, hk]; push_cast; ring),
      normalizeAngle_eq_of_congr (a := π - a) (b := π - b) (-k) (by rw [h, hk]; push_cast; ring)]
  · rw [normalizeAngle_eq_of_congr (a := 0 - a) (b := π - b) (-k - 1) (by rw [h, hk]; push_cast; ring),
      normalizeAngle_eq_of_congr (a := π - a) (b := 0 - b) (-k) (by rw [h, hk]; push_cast; ring), min_comm]

theorem fold_nonneg (a : ℝ) : 0 ≤ MotionModel.fold a := le_min (abs_nonneg _) (abs_nonneg _)

/-- `fold` is the distance to the nearest multiple of pi. -/
theorem fold_spec (a : ℝ) : MotionModel.fold a ≤ π / 2 ∧ (∃ n : ℤ, MotionModel.fold a = |a - n * π|) ∧
    ∀ n : ℤ, MotionModel.fold a ≤ |a - n * π| := by
  have hpi := pi_pos
  -- reduce to |b| ≤ pi/2
  have base : ∀ b : ℝ, |b| ≤ π / 2 → MotionModel.fold b = |b| := by
    intro b hb
    obtain ⟨h1, h2⟩ := abs_le.mp hb
    unfold MotionModel.fold shortestAngularDistance
    rw [normalizeAngle_of_mem (a := 0 - b) ⟨by linarith, by linarith⟩, zero_sub, abs_neg]
    apply min_eq_left
    by_cases h0 : 0 ≤ b
    · rw [normalizeAngle_of_mem (a := π - b) ⟨by linarith, by linarith⟩, abs_of_nonneg h0,
        abs_of_nonneg (by linarith)]
      linarith
    · rw [normalizeAngle_eq_of_congr (a := π - b) (b := -π - b) 1 (by push_cast; ring),
        normalizeAngle_of_mem (a := -π - b) ⟨by linarith, by linarith⟩, abs_of_neg (by linarith),
        abs_of_neg (by linarith)]
      linarith
  obtain ⟨n, hn⟩ : ∃ n : ℤ, |a - n * π| ≤ π / 2 := by
    refine ⟨round (a / π), ?_⟩
    have := abs_sub_round (a / π)
    have e : a - round (a / π) * π = (a / π - round (a / π)) * π := by field_simp
    rw [e, abs_mul, abs_of_pos hpi]
    nlinarith
  have hf : MotionModel.fold a = |a - n * π| := by
    rw [fold_congr (b := a - n * π) n (by ring), base _ hn]
  refine ⟨by rw [hf]; exact hn, ⟨n, hf⟩, ?_⟩
  intro k
  rw [hf]
  by_cases hk : k = n
  · rw [hk]
  · have h1 : (1 : ℝ) ≤ |(k : ℝ) - n| := by
      have : (1 : ℤ) ≤ |k - n| := Int.one_le_abs (sub_ne_zero.mpr hk)
      exact_mod_cast this
    have h2 : π ≤ |(k - n : ℝ) * π| := by
      rw [abs_mul, abs_of_pos hpi]; nlinarith
    have h3 : |(k - n : ℝ) * π| ≤ |a - n * π| + |a - k * π| := by
      have := abs_sub (a - n * π) (a - k * π)
      calc |(k - n : ℝ) * π| = |(a - n * π) - (a - k * π)| := by congr 1; ring
        _ ≤ _ := abs_sub _ _
    linarith

/-- **C29** With non-negative coefficients the three radicands are not negative, so that the standard deviations
are real numbers whose squares they are. -/
theorem c29_sigmas_are_real (m : MotionModel) (h1 : 0 ≤ m.a1) (h2 : 0 ≤ m.a2) (h3 : 0 ≤ m.a3) (h4 : 0 ≤ m.a4)
    (dx dy dth : ℝ) :
    (0 ≤ m.radRot1 dx dy dth ∧ sqrt (m.radRot1 dx dy dth) ^ 2 = m.radRot1 dx dy dth) ∧
    (0 ≤ m.radTrans dx dy dth ∧ sqrt (m.radTrans dx dy dth) ^ 2 = m.radTrans dx dy dth) ∧
    (0 ≤ m.radRot2 dx dy dth ∧ sqrt (m.radRot2 dx dy dth) ^ 2 = m.radRot2 dx dy dth) := by
  have ht : 0 ≤ MotionModel.trans dx dy := hypot_nonneg _ _
  have hf1 := fold_nonneg (MotionModel.rot1 dx dy)
  have hf2 := fold_nonneg (MotionModel.rot2 dx dy dth)
  have a : 0 ≤ m.radRot1 dx dy dth := by unfold MotionModel.radRot1; positivity
  have b : 0 ≤ m.radTrans dx dy dth := by unfold MotionModel.radTrans; positivity
  have c : 0 ≤ m.radRot2 dx dy dth := by unfold MotionModel.radRot2; positivity
  exact ⟨⟨a, sq_sqrt a⟩, ⟨b, sq_sqrt b⟩, ⟨c, sq_sqrt c⟩⟩

theorem not_negativeNoise {m : MotionModel} (h1 : 0 ≤ m.a1) (h2 : 0 ≤ m.a2) (h3 : 0 ≤ m.a3) (h4 : 0 ≤ m.a4)
    (d : Pose2d) : ¬ m.NegativeNoise d := by
  obtain ⟨⟨a, -⟩, ⟨b, -⟩, ⟨c, -⟩⟩ := c29_sigmas_are_real m h1 h2 h3 h4 d.x d.y d.theta
  rintro (h | h | h) <;> linarith

/-- **C29** Without motion the standard deviations are zero. (`std::normal_distribution` asks for a positive one.) -/
theorem c29_no_motion_no_noise (m : MotionModel) :
    m.radRot1 0 0 0 = 0 ∧ m.radTrans 0 0 0 = 0 ∧ m.radRot2 0 0 0 = 0 := by
  have ht : MotionModel.trans 0 0 = 0 := by simp [MotionModel.trans, hypot]
  have hr : MotionModel.rot1 0 0 = 0 := by
    unfold MotionModel.rot1; rw [ht, if_neg (by norm_num)]
  have hf : MotionModel.fold 0 = 0 := by
    have := (fold_spec 0).2.2 0
    have h0 := fold_nonneg 0
    simp at this
    linarith
  have hn : normalizeAngle 0 = 0 := normalizeAngle_of_mem ⟨by linarith [pi_pos], pi_pos.le⟩
  have hr2 : MotionModel.rot2 0 0 0 = 0 := by
    unfold MotionModel.rot2 shortestAngularDistance; rw [hr, sub_zero, hn]
  simp [MotionModel.radRot1, MotionModel.radTrans, MotionModel.radRot2, ht, hr, hr2, hf]

/-- **C29** The rotations that enter the noise are the distances to the nearest multiple of pi: at most pi/2. -/
theorem c29_rotation_magnitude (dx dy dth : ℝ) :
    MotionModel.fold (MotionModel.rot1 dx dy) ≤ π / 2 ∧ MotionModel.fold (MotionModel.rot2 dx dy dth) ≤ π / 2 ∧
    (∀ n : ℤ, MotionModel.fold (MotionModel.rot1 dx dy) ≤ |MotionModel.rot1 dx dy - n * π|) ∧
    (∀ n : ℤ, MotionModel.fold (MotionModel.rot2 dx dy dth) ≤ |MotionModel.rot2 dx dy dth - n * π|) :=
  ⟨(fold_spec _).1, (fold_spec _).1, (fold_spec _).2.2, (fold_spec _).2.2⟩

/-- **C29** Driving the opposite way along the same line, with the same turn, gives the same noise. -/
theorem c29_reverse_same_noise (m : MotionModel) (dx dy dth : ℝ) :
    m.radRot1 (-dx) (-dy) dth = m.radRot1 dx dy dth ∧ m.radTrans (-dx) (-dy) dth = m.radTrans dx dy dth ∧
    m.radRot2 (-dx) (-dy) dth = m.radRot2 dx dy dth := by
  have ht : MotionModel.trans (-dx) (-dy) = MotionModel.trans dx dy := by
    simp [MotionModel.trans, hypot]
  have hr : ∃ n : ℤ, MotionModel.rot1 (-dx) (-dy) = MotionModel.rot1 dx dy + n * π := by
    unfold MotionModel.rot1
    rw [ht]
    by_cases h : MotionModel.trans dx dy > 0.01
    · rw [if_pos h, if_pos h]
      have hpos : 0 < hypot dx dy := lt_trans (by norm_num) h
      have hneg : hypot (-dx) (-dy) = hypot dx dy := ht
      have ex := hypot_mul_cos_atan2 dx dy
      have ey := hypot_mul_sin_atan2 dx dy
      have fx := hypot_mul_cos_atan2 (-dx) (-dy)
      have fy := hypot_mul_sin_atan2 (-dx) (-dy)
      rw [hneg] at fx fy
      have hc : cos (atan2 (-dy) (-dx)) = cos (atan2 dy dx + π) := by
        rw [cos_add_pi]
        apply mul_left_cancel₀ hpos.ne'
        linarith
      have hs : sin (atan2 (-dy) (-dx)) = sin (atan2 dy dx + π) := by
        rw [sin_add_pi]
        apply mul_left_cancel₀ hpos.ne'
        linarith
      obtain ⟨n, hn⟩ := congr_of_cos_sin hc hs
      exact ⟨1 + 2 * n, by rw [hn]; push_cast; ring⟩
    · rw [if_neg h, if_neg h]; exact ⟨0, by simp⟩
  obtain ⟨n, hn⟩ := hr
  have hf1 : MotionModel.fold (MotionModel.rot1 (-dx) (-dy)) = MotionModel.fold (MotionModel.rot1 dx dy) :=
    fold_congr n hn
  have hf2 : MotionModel.fold (MotionModel.rot2 (-dx) (-dy) dth) = MotionModel.fold (MotionModel.rot2 dx dy dth) := by
    obtain ⟨k, hk⟩ := normalizeAngle_congr (dth - MotionModel.rot1 (-dx) (-dy))
    obtain ⟨l, hl⟩ := normalizeAngle_congr (dth - MotionModel.rot1 dx dy)
    refine fold_congr (2 * k - n - 2 * l) ?_
    unfold MotionModel.rot2 shortestAngularDistance
    rw [hk, hl, hn]
    push_cast; ring
  simp [MotionModel.radRot1, MotionModel.radTrans, MotionModel.radRot2, ht, hf1, hf2]

/-- `d` is the distance of the angle `r` from the nearest multiple of pi. -/
def PiDist (r d : ℝ) : Prop := (∃ n : ℤ, d = |r - n * π|) ∧ ∀ n : ℤ, d ≤ |r - n * π|

/-- **C29** The noise that is drawn. The three draws for a pose are around the direction of travel `r1`, the distance, and
the rest of the turn `r2`. Their variances are those of the odometry motion model (Thrun et al., Table 5.6) with
rotations measured to the nearest multiple of pi: `a1 d1² + a2 t²`, `a3 t² + a4 (d1² + d2²)` and `a1 d2² + a2 t²`. -/
theorem c29_noise_law (m : MotionModel) (nrm : MotionModel.Draws) (dx dy dth : ℝ) (poses : List Pose2d) :
    ∃ r1 r2 d1 d2 : ℝ, PiDist r1 d1 ∧ PiDist r2 d2 ∧
      (0.01 < hypot dx dy → hypot dx dy * cos r1 = dx ∧ hypot dx dy * sin r1 = dy) ∧
      (hypot dx dy ≤ 0.01 → r1 = 0) ∧
      (∃ n : ℤ, r1 + r2 = dth + n * (2 * π)) ∧ (-π < r2 ∧ r2 ≤ π) ∧
      ∀ (i : ℕ) (p : Pose2d), poses[i]? = some p → ∃ u t v : ℝ,
        u = nrm (3 * i) r1 (sqrt (m.a1 * d1 ^ 2 + m.a2 * hypot dx dy ^ 2)) ∧
        t = nrm (3 * i + 1) (hypot dx dy) (sqrt (m.a3 * hypot dx dy ^ 2 + m.a4 * (d1 ^ 2 + d2 ^ 2))) ∧
        v = nrm (3 * i + 2) r2 (sqrt (m.a1 * d2 ^ 2 + m.a2 * hypot dx dy ^ 2)) ∧
        (m.sample nrm dx dy dth poses)[i]? =
          some ⟨p.x + t * cos (p.theta + u), p.y + t * sin (p.theta + u), normalizeAngle (p.theta + u + v)⟩ := by
  refine ⟨MotionModel.rot1 dx dy, MotionModel.rot2 dx dy dth, MotionModel.fold (MotionModel.rot1 dx dy),
    MotionModel.fold (MotionModel.rot2 dx dy dth), (fold_spec _).2, (fold_spec _).2, ?_, ?_, ?_, normalizeAngle_mem _, ?_⟩
  · intro h
    rw [show MotionModel.rot1 dx dy = atan2 dy dx from if_pos h]
    exact ⟨hypot_mul_cos_atan2 dx dy, hypot_mul_sin_atan2 dx dy⟩
  · intro h
    exact if_neg (not_lt.mpr h)
  · obtain ⟨k, hk⟩ := normalizeAngle_congr (dth - MotionModel.rot1 dx dy)
    exact ⟨k, by unfold MotionModel.rot2 shortestAngularDistance; rw [hk]; ring⟩
  · intro i p hp
    refine ⟨_, _, _, rfl, rfl, rfl, ?_⟩
    simp only [MotionModel.sample, List.getElem?_mapIdx, hp, Option.map_some, MotionModel.sampleOne, MotionModel.radRot1,
      MotionModel.radTrans, MotionModel.radRot2, MotionModel.trans]
    ring_nf

/-- The coefficients of the README's defaults are not negative; a backward metre has noise. -/
example : (0 : ℝ) < (⟨0.2, 0.2, 0.2, 0.2, 0.2⟩ : MotionModel).radTrans (-1) 0 0 := by
  unfold MotionModel.radTrans
  have ht : MotionModel.trans (-1) 0 = 1 := by simp [MotionModel.trans, hypot]
  have := fold_nonneg (MotionModel.rot1 (-1) 0)
  have := fold_nonneg (MotionModel.rot2 (-1) 0 0)
  rw [ht]
  positivity

end

end Ndt
