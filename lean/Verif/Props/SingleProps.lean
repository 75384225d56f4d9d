import Verif.Model.Single
import Verif.Model.Filter
import Verif.Proof.Filter
import Verif.Proof.Single
import Verif.Props.LaserProps
import Verif.Props.MotionProps

/-! # C112, C113: single precision -/

namespace Ndt

noncomputable section

open Real Spec Laser

/-! ## Helpers -/

theorem halfMinF_le : halfMinF ≤ 2⁻¹ ^ 60 := by
  unfold halfMinF
  exact pow_le_pow_of_le_one (by norm_num) (by norm_num) (by norm_num)

theorem beamAngle_eq {rf : ℝ → ℝ} (hrf : RoundsToFloat rf) (msg : LaserMsg) {i : ℕ} (hi : i < 2 ^ 24) :
    beamAngle rf msg i = rf (msg.angleMin + rf (i * msg.angleIncrement)) := by
  rw [beamAngle, hrf.exact (isFloat_nat hi)]

theorem dist_move_eq (m : Pose2d) (p q : Point) : Spec.dist (move m p) (move m q) = Spec.dist p q := by
  unfold Spec.dist move
  dsimp only
  congr 1
  linear_combination ((p.x - q.x) ^ 2 + (p.y - q.y) ^ 2) * sin_sq_add_cos_sq m.theta

theorem cos_diff_le (a b : ℝ) : |cos a - cos b| ≤ |a - b| := by
  have h := cos_sub_cos a b
  rw [h, abs_mul, abs_mul, abs_neg, abs_two]
  have h1 := abs_sin_le_one ((a + b) / 2)
  have h2 : |sin ((a - b) / 2)| ≤ |(a - b) / 2| := abs_sin_le_abs
  rw [abs_div, abs_two] at h2
  have h3 := abs_nonneg (sin ((a - b) / 2))
  nlinarith

theorem sin_diff_le (a b : ℝ) : |sin a - sin b| ≤ |a - b| := by
  have := cos_diff_le (π / 2 - a) (π / 2 - b)
  rw [cos_pi_div_two_sub, cos_pi_div_two_sub] at this
  refine this.trans (le_of_eq ?_)
  rw [abs_sub_comm]; congr 1; ring

theorem dist_polar_le (a b r : ℝ) : Spec.dist (polar a r) (polar b r) ≤ |r| * |a - b| := by
  unfold Spec.dist polar
  dsimp only
  have e : (r * cos a - r * cos b) ^ 2 + (r * sin a - r * sin b) ^ 2 = (2 * r * sin ((a - b) / 2)) ^ 2 := by
    have h1 := cos_sub_cos a b
    have h2 := sin_sub_sin a b
    have h3 := sin_sq_add_cos_sq ((a + b) / 2)
    rw [← mul_sub, ← mul_sub, h1, h2]
    linear_combination (2 * r * sin ((a - b) / 2)) ^ 2 * h3
  rw [e, sqrt_sq_eq_abs, abs_mul, abs_mul, abs_two]
  have h2 : |sin ((a - b) / 2)| ≤ |(a - b) / 2| := abs_sin_le_abs
  rw [abs_div, abs_two] at h2
  have := mul_le_mul_of_nonneg_left h2 (abs_nonneg r)
  linarith

/-! ## C112 Angles of beams -/

/-- **C112** The angle of a beam is that of the message up to rounding: relative to the product and to the sum. -/
theorem c112_angle_error {rf : ℝ → ℝ} (hrf : RoundsToFloat rf) (msg : LaserMsg) {i : ℕ} (hi : i < 2 ^ 24) :
    |beamAngle rf msg i - (msg.angleMin + i * msg.angleIncrement)| ≤
      2⁻¹ ^ 24 * |msg.angleMin + i * msg.angleIncrement| + 2⁻¹ ^ 23 * |i * msg.angleIncrement| + 2⁻¹ ^ 58 := by
  rw [beamAngle_eq hrf msg hi]
  set p := (i : ℝ) * msg.angleIncrement
  have h1 := hrf.error p
  have h2 := hrf.error (msg.angleMin + rf p)
  have h3 := halfMinF_le
  have h4 := abs_sub_le (rf (msg.angleMin + rf p)) (msg.angleMin + rf p) (msg.angleMin + p)
  have h5 : msg.angleMin + rf p - (msg.angleMin + p) = rf p - p := by ring
  rw [h5] at h4
  have h6 : |msg.angleMin + rf p| ≤ |msg.angleMin + p| + |rf p - p| := by
    have := abs_add_le (msg.angleMin + p) (rf p - p)
    rwa [show msg.angleMin + p + (rf p - p) = msg.angleMin + rf p by ring] at this
  have h7 : (2⁻¹ : ℝ) ^ 24 * |msg.angleMin + rf p| ≤ 2⁻¹ ^ 24 * (|msg.angleMin + p| + |rf p - p|) :=
    mul_le_mul_of_nonneg_left h6 (by positivity)
  have h8 := abs_nonneg p
  norm_num at h1 h2 h3 h7 ⊢
  linarith

/-- **C112** For a laser that sees at most a full turn around, every angle is within a millionth of a radian of that of
the message. -/
theorem c112_angle_within_a_millionth {rf : ℝ → ℝ} (hrf : RoundsToFloat rf) (msg : LaserMsg) {i : ℕ} (hi : i < 2 ^ 24)
    (hs : |i * msg.angleIncrement| ≤ 6.3) (ha : |msg.angleMin + i * msg.angleIncrement| ≤ 3.2) :
    |beamAngle rf msg i - (msg.angleMin + i * msg.angleIncrement)| ≤ 1e-6 := by
  have := c112_angle_error hrf msg hi
  norm_num at *
  linarith

/-- **C112** Hence every point is where real angles would put it, up to a millionth of the range: a tenth of a millimetre
at a hundred metres. Both mountings, whatever the mounting pose and the movement during the scan. -/
theorem c112_points_within_a_millionth {rf : ℝ → ℝ} (hrf : RoundsToFloat rf) (msg : LaserMsg) (lt t : Pose2d) {i : ℕ}
    (hi : i < 2 ^ 24) (hs : |i * msg.angleIncrement| ≤ 6.3) (ha : |msg.angleMin + i * msg.angleIncrement| ≤ 3.2) (r : ℝ) :
    (∃ p q, IsPoint (forwardPoint msg lt t i (.fin r)) p ∧ IsPoint (forwardPointF rf msg lt t i (.fin r)) q ∧
      Spec.dist p q ≤ |r| * 1e-6) ∧
    ∃ p q, IsPoint (invertedPoint msg lt t i (.fin r)) p ∧ IsPoint (invertedPointF rf msg lt t i (.fin r)) q ∧
      Spec.dist p q ≤ |r| * 1e-6 := by
  have h := c112_angle_within_a_millionth hrf msg hi hs ha
  constructor
  · refine ⟨_, _, shift_fin _ (project_fin lt _ r), shift_fin _ (project_fin lt _ r), ?_⟩
    rw [dist_move_eq, dist_move_eq]
    refine (dist_polar_le _ _ r).trans (mul_le_mul_of_nonneg_left ?_ (abs_nonneg r))
    rwa [abs_sub_comm]
  · refine ⟨_, _, shift_fin _ (project_fin lt _ r), shift_fin _ (project_fin lt _ r), ?_⟩
    rw [dist_move_eq, dist_move_eq]
    refine (dist_polar_le _ _ r).trans (mul_le_mul_of_nonneg_left ?_ (abs_nonneg r))
    rwa [show -(msg.angleMin + i * msg.angleIncrement) - -beamAngle rf msg i
      = beamAngle rf msg i - (msg.angleMin + i * msg.angleIncrement) by ring]

/-- **C112** Rounding keeps the order of the beams, for any number of them. -/
theorem c112_beams_keep_their_order {rf : ℝ → ℝ} (hrf : RoundsToFloat rf) (msg : LaserMsg)
    (hinc : 0 ≤ msg.angleIncrement) {i j : ℕ} (hij : i ≤ j) : beamAngle rf msg i ≤ beamAngle rf msg j := by
  unfold beamAngle
  refine hrf.mono (add_le_add_right (hrf.mono (mul_le_mul_of_nonneg_right (hrf.mono ?_) hinc)) _)
  exact_mod_cast hij

/-- **C112** Two beams of a full turn have different angles when the increment is more than two millionths of a radian:
no laser in use comes near. -/
theorem c112_beams_distinct {rf : ℝ → ℝ} (hrf : RoundsToFloat rf) (msg : LaserMsg)
    (hinc : 2e-6 < msg.angleIncrement) {i j : ℕ} (hij : i < j) (hj : j < 2 ^ 24)
    (hs : j * msg.angleIncrement ≤ 6.3) (ha : |msg.angleMin + i * msg.angleIncrement| ≤ 3.2)
    (hb : |msg.angleMin + j * msg.angleIncrement| ≤ 3.2) : beamAngle rf msg i < beamAngle rf msg j := by
  have hi0 : (0 : ℝ) ≤ i := Nat.cast_nonneg i
  have hij' : (i : ℝ) + 1 ≤ j := by exact_mod_cast hij
  have hpos : 0 < msg.angleIncrement := lt_trans (by norm_num) hinc
  have e1 := c112_angle_within_a_millionth hrf msg (hij.trans hj)
    (by rw [abs_of_nonneg (mul_nonneg hi0 hpos.le)]; nlinarith) ha
  have e2 := c112_angle_within_a_millionth hrf msg hj
    (by rw [abs_of_nonneg (mul_nonneg (by linarith) hpos.le)]; exact hs) hb
  rw [abs_le] at e1 e2
  have : i * msg.angleIncrement + msg.angleIncrement ≤ j * msg.angleIncrement := by nlinarith
  norm_num at *
  linarith [e1.1, e1.2, e2.1, e2.2]

/-- **C112** Below that it fails: with an increment of a billionth of a radian the first two beams of a scan that starts
at -3 get the same angle. -/
theorem c112_tiny_increments_merge {rf : ℝ → ℝ} (hrf : RoundsToFloat rf) (ranges : List Fl) :
    beamAngle rf ⟨-3, 2⁻¹ ^ 30, .fin 10, ranges⟩ 0 = beamAngle rf ⟨-3, 2⁻¹ ^ 30, .fin 10, ranges⟩ 1 := by
  have h3 : IsFloat (-3) := isFloat_neg (by simpa using isFloat_nat (n := 3) (by norm_num))
  have h30 : IsFloat (2⁻¹ ^ 30) := ⟨1, -30, by norm_num, by norm_num, by norm_num⟩
  rw [beamAngle_eq hrf _ (by norm_num), beamAngle_eq hrf _ (by norm_num)]
  simp only [Nat.cast_zero, zero_mul, Nat.cast_one, one_mul]
  rw [hrf.exact isFloat_zero, hrf.exact h30, add_zero, hrf.exact h3]
  exact (hrf.absorbs h3 (by norm_num [abs_of_pos])).symm

/-- **C112** Without rounding this is the model of the other chapters. -/
theorem c112_exact_angles (msg : LaserMsg) (lt t : Pose2d) (i : ℕ) (r : Fl) :
    forwardPointF id msg lt t i r = forwardPoint msg lt t i r ∧
    invertedPointF id msg lt t i r = invertedPoint msg lt t i r := ⟨rfl, rfl⟩

/-- A laser of 720 beams at half a degree: the last beam meets the hypotheses. -/
example : |(719 : ℝ) * 0.0087| ≤ 6.3 ∧ |(-3.13 : ℝ) + 719 * 0.0087| ≤ 3.2 ∧ (2e-6 : ℝ) < 0.0087 := by
  norm_num [abs_of_pos]

/-- There is such a rounding. -/
example : RoundsToFloat rndF := rndF_rounds

/-! ## C113 Poses of particles -/

theorem floatDraws_still {rf : ℝ → ℝ} (hrf : RoundsToFloat rf) (z : ℕ → ℝ) (k : ℕ) (mean : ℝ) :
    MotionModel.floatDraws rf z k mean 0 = rf mean := by
  unfold MotionModel.floatDraws
  rw [hrf.exact isFloat_zero, mul_zero, hrf.exact isFloat_zero, zero_add, hrf.exact (hrf.isFloat mean)]

theorem init_particles {f g : Filter} {nrm : MotionModel.Draws} {x y th sx sy sth : ℝ}
    (h : f.init nrm x y th sx sy sth = .ok g) :
    g.particles = f.particles.mapIdx fun i _ =>
      (⟨nrm (3 * i) x sx, nrm (3 * i + 1) y sy, normalizeAngle (nrm (3 * i + 2) th sth)⟩ : Pose2d) := by
  exact (Filter.updateStatistics_ok h).2.2.2.1

/-- **C113** An initial pose without uncertainty puts every particle there up to the spacing of single precision numbers:
a ten-millionth of the coordinate, the heading up to full turns. -/
theorem c113_initial_pose {rf : ℝ → ℝ} (hrf : RoundsToFloat rf) (z : ℕ → ℝ) (f g : Filter) (x y th : ℝ)
    (h : f.init (MotionModel.floatDraws rf z) x y th 0 0 0 = .ok g) :
    g.particles.length = f.particles.length ∧
    ∀ p ∈ g.particles, |p.x - x| ≤ 1e-7 * |x| + 1e-18 ∧ |p.y - y| ≤ 1e-7 * |y| + 1e-18 ∧
      (-π < p.theta ∧ p.theta ≤ π) ∧ ∃ n : ℤ, |p.theta - (th + n * (2 * π))| ≤ 1e-7 * |th| + 1e-18 := by
  have hb : ∀ v : ℝ, |rf v - v| ≤ 1e-7 * |v| + 1e-18 := by
    intro v
    have h1 := hrf.error v
    have h2 := halfMinF_le
    have h3 := abs_nonneg v
    norm_num at h1 h2 ⊢
    linarith
  rw [init_particles h]
  refine ⟨by simp, ?_⟩
  intro p hp
  obtain ⟨i, hi, rfl⟩ := List.mem_mapIdx.mp hp
  simp only [floatDraws_still hrf]
  refine ⟨hb x, hb y, normalizeAngle_mem _, ?_⟩
  obtain ⟨n, hn⟩ := normalizeAngle_congr (rf th)
  refine ⟨n, ?_⟩
  rw [hn, show rf th + n * (2 * π) - (th + n * (2 * π)) = rf th - th by ring]
  exact hb th

/-- **C113** The spacing is felt far from the origin (in projected map coordinates, say): with a northing of 4194304.25 m,
which a double holds exactly, every particle is a quarter of a metre off, whatever the rounding rule for ties. -/
theorem c113_far_from_the_origin {rf : ℝ → ℝ} (hrf : RoundsToFloat rf) (z : ℕ → ℝ) (f g : Filter) (x th : ℝ)
    (h : f.init (MotionModel.floatDraws rf z) x 4194304.25 th 0 0 0 = .ok g) :
    ∀ p ∈ g.particles, |p.y - 4194304.25| = 0.25 := by
  rw [init_particles h]
  intro p hp
  obtain ⟨i, hi, rfl⟩ := List.mem_mapIdx.mp hp
  simp only [floatDraws_still hrf]
  apply le_antisymm
  · have := hrf.nearest 4194304.25 4194304 (by exact_mod_cast isFloat_nat (n := 4194304) (by norm_num))
    refine this.trans (le_of_eq ?_)
    norm_num
  · obtain ⟨k, e, hk, he, hd⟩ := hrf.isFloat 4194304.25
    rw [hd]
    rcases le_or_gt e (-2) with h2 | h2
    · have h3 : |(k : ℝ) * 2 ^ e| ≤ 4194304 := by
        have h4 : (2 : ℝ) ^ e ≤ 2 ^ (-2 : ℤ) := zpow_le_zpow_right₀ (by norm_num) h2
        have h5 : (0 : ℝ) < 2 ^ e := zpow_pos (by norm_num) _
        have h6 : |(k : ℝ)| ≤ 2 ^ 24 := by exact_mod_cast hk.le
        rw [abs_mul, abs_of_pos h5]
        calc |(k : ℝ)| * 2 ^ e ≤ 2 ^ 24 * 2 ^ (-2 : ℤ) := mul_le_mul h6 h4 h5.le (by positivity)
          _ = 4194304 := by norm_num
      have := le_abs_self ((k : ℝ) * 2 ^ e)
      rw [abs_sub_comm, abs_of_nonneg (by norm_num at *; linarith)]
      norm_num at *
      linarith
    · -- a multiple of a half
      obtain ⟨n, hn⟩ : ∃ n : ℕ, e = n - 1 := ⟨(e + 1).toNat, by omega⟩
      have h3 : (k : ℝ) * 2 ^ e = ((k * 2 ^ n : ℤ) : ℝ) / 2 := by
        rw [hn, zpow_sub₀ (by norm_num)]
        push_cast
        rw [zpow_natCast, zpow_one]
        ring
      rw [h3]
      generalize k * 2 ^ n = m
      have h4 : (1 : ℤ) ≤ |2 * m - 16777217| := Int.one_le_abs (by omega)
      have h5 : (1 : ℝ) ≤ |2 * (m : ℝ) - 16777217| := by exact_mod_cast h4
      have h6 : (m : ℝ) / 2 - 4194304.25 = (2 * m - 16777217) / 4 := by norm_num; ring
      rw [h6, abs_div]
      norm_num at *
      linarith

/-- The hypothesis is met by every filter: initialising goes through. -/
example (z : ℕ → ℝ) (f : Filter) (hf : f.particles ≠ []) : ∃ g, f.init (MotionModel.floatDraws rndF z) 3 4194304.25 1 0 0 0 = .ok g ∧
    ∃ p ∈ g.particles, |p.y - 4194304.25| = 0.25 := by
  obtain ⟨g, hg⟩ := Filter.updateStatistics_total
    (f := { f with
            particles := f.particles.mapIdx fun i _ =>
              (⟨MotionModel.floatDraws rndF z (3 * i) 3 0, MotionModel.floatDraws rndF z (3 * i + 1) 4194304.25 0,
                normalizeAngle (MotionModel.floatDraws rndF z (3 * i + 2) 1 0)⟩ : Pose2d)
            weights := List.replicate (f.particles.mapIdx fun i _ =>
              (⟨MotionModel.floatDraws rndF z (3 * i) 3 0, MotionModel.floatDraws rndF z (3 * i + 1) 4194304.25 0,
                normalizeAngle (MotionModel.floatDraws rndF z (3 * i + 2) 1 0)⟩ : Pose2d)).length
              (.fin 1 / .fin ((f.particles.mapIdx fun i _ =>
              (⟨MotionModel.floatDraws rndF z (3 * i) 3 0, MotionModel.floatDraws rndF z (3 * i + 1) 4194304.25 0,
                normalizeAngle (MotionModel.floatDraws rndF z (3 * i + 2) 1 0)⟩ : Pose2d)).length : ℕ)) }) (by simp)
  have hi : f.init (MotionModel.floatDraws rndF z) 3 4194304.25 1 0 0 0 = .ok g := hg
  refine ⟨g, hi, ?_⟩
  have hl := (c113_initial_pose rndF_rounds z f g 3 4194304.25 1 hi).1
  obtain ⟨p, hp⟩ := List.exists_mem_of_ne_nil g.particles (by
    intro h0; rw [h0] at hl; exact hf (List.length_eq_zero_iff.mp hl.symm))
  exact ⟨p, hp, c113_far_from_the_origin rndF_rounds z f g 3 1 hi p hp⟩

/-- Noise parameters of zero. -/
def Noiseless (m : MotionModel) : Prop := m.a1 = 0 ∧ m.a2 = 0 ∧ m.a3 = 0 ∧ m.a4 = 0

theorem Noiseless.deviations {m : MotionModel} (hm : Noiseless m) (dx dy dth : ℝ) :
    sqrt (m.radRot1 dx dy dth) = 0 ∧ sqrt (m.radTrans dx dy dth) = 0 ∧ sqrt (m.radRot2 dx dy dth) = 0 := by
  obtain ⟨h1, h2, h3, h4⟩ := hm
  simp [MotionModel.radRot1, MotionModel.radTrans, MotionModel.radRot2, h1, h2, h3, h4]

theorem float_angle {rf : ℝ → ℝ} (hrf : RoundsToFloat rf) {a : ℝ} (h : -π < a ∧ a ≤ π) : |rf a - a| ≤ 2e-7 := by
  have h1 := hrf.error a
  have h2 := halfMinF_le
  have h3 : |a| ≤ 3.15 := by
    rw [abs_le]
    have := pi_lt_d2
    constructor <;> linarith
  norm_num at h1 h2 h3 ⊢
  linarith

/-- **C113** Without noise a motion moves a pose by the commanded motion, up to a millionth of its length and a millionth
of a radian. -/
theorem c113_motion {rf : ℝ → ℝ} (hrf : RoundsToFloat rf) (z : ℕ → ℝ) {m : MotionModel} (hm : Noiseless m)
    (dx dy dth : ℝ) (hd : 0.01 < hypot dx dy) (poses : List Pose2d) :
    (m.sample (MotionModel.floatDraws rf z) dx dy dth poses).length = poses.length ∧
    ∀ (i : ℕ) (p q : Pose2d), poses[i]? = some p →
      (m.sample (MotionModel.floatDraws rf z) dx dy dth poses)[i]? = some q →
      |q.x - (compose p ⟨dx, dy, dth⟩).x| ≤ 1e-6 * hypot dx dy ∧ |q.y - (compose p ⟨dx, dy, dth⟩).y| ≤ 1e-6 * hypot dx dy ∧
      (-π < q.theta ∧ q.theta ≤ π) ∧
      ∃ n : ℤ, |q.theta - ((compose p ⟨dx, dy, dth⟩).theta + n * (2 * π))| ≤ 1e-6 := by
  refine ⟨by simp [MotionModel.sample], ?_⟩
  intro i p q hp hq
  simp only [MotionModel.sample, List.getElem?_mapIdx, hp, Option.map_some, Option.some.injEq] at hq
  subst hq
  obtain ⟨d1, d2, d3⟩ := hm.deviations dx dy dth
  have h1 : MotionModel.rot1 dx dy = atan2 dy dx := if_pos hd
  simp only [MotionModel.sampleOne, compose, h1, MotionModel.trans, d1, d2, d3, floatDraws_still hrf]
  have hx := hypot_mul_cos_atan2 dx dy
  have hy := hypot_mul_sin_atan2 dx dy
  have hr1 := float_angle hrf (atan2_mem dy dx)
  have hr2 := float_angle hrf (a := MotionModel.rot2 dx dy dth) (normalizeAngle_mem _)
  set r := atan2 dy dx
  set t := hypot dx dy
  have ht := hrf.error t
  have ht' : |rf t - t| ≤ 1e-7 * t := by
    have h2 := halfMinF_le
    rw [abs_of_pos (lt_trans (by norm_num) hd)] at ht
    norm_num at ht h2 hd ⊢
    linarith
  have ht0 : 0 < t := lt_trans (by norm_num) hd
  have key : ∀ f g : ℝ, |f| ≤ 1 → |f - g| ≤ 2e-7 → |rf t * f - t * g| ≤ 1e-6 * t := by
    intro f g hf hg
    have e : rf t * f - t * g = (rf t - t) * f + t * (f - g) := by ring
    rw [e]
    refine (abs_add_le _ _).trans ?_
    rw [abs_mul, abs_mul, abs_of_pos ht0]
    have h3 : |rf t - t| * |f| ≤ 1e-7 * t * 1 := mul_le_mul ht' hf (abs_nonneg _) (by positivity)
    have h4 : t * |f - g| ≤ t * 2e-7 := mul_le_mul_of_nonneg_left hg ht0.le
    norm_num at h3 h4 ⊢
    linarith
  refine ⟨?_, ?_, normalizeAngle_mem _, ?_⟩
  · have := key (cos (p.theta + rf r)) (cos (p.theta + r)) (abs_cos_le_one _)
      ((cos_diff_le _ _).trans (by rwa [add_sub_add_left_eq_sub]))
    convert this using 2
    rw [cos_add p.theta r]
    linear_combination cos p.theta * hx - sin p.theta * hy
  · have := key (sin (p.theta + rf r)) (sin (p.theta + r)) (abs_sin_le_one _)
      ((sin_diff_le _ _).trans (by rwa [add_sub_add_left_eq_sub]))
    convert this using 2
    rw [sin_add p.theta r]
    linear_combination sin p.theta * hx + cos p.theta * hy
  · obtain ⟨n, hn⟩ := normalizeAngle_congr (p.theta + rf r + rf (MotionModel.rot2 dx dy dth))
    obtain ⟨k, hk⟩ := normalizeAngle_congr (dth - MotionModel.rot1 dx dy)
    refine ⟨n + k, ?_⟩
    rw [hn]
    have e : MotionModel.rot2 dx dy dth = dth - r + k * (2 * π) := by
      rw [MotionModel.rot2, shortestAngularDistance, hk, h1]
    have e2 : p.theta + rf r + rf (MotionModel.rot2 dx dy dth) + n * (2 * π)
        - (p.theta + dth + ((n + k : ℤ) : ℝ) * (2 * π))
        = (rf r - r) + (rf (MotionModel.rot2 dx dy dth) - MotionModel.rot2 dx dy dth) := by
      rw [show MotionModel.rot2 dx dy dth = dth - r + k * (2 * π) from e]
      push_cast; ring
    rw [e2]
    refine (abs_add_le _ _).trans ?_
    norm_num at hr1 hr2 ⊢
    linarith

/-- The poses after a number of motions, each with its own random numbers. -/
def moveAll (rf : ℝ → ℝ) (m : MotionModel) (poses : List Pose2d) (ds : List ((ℕ → ℝ) × Pose2d)) : List Pose2d :=
  ds.foldl (fun ps d => m.sample (MotionModel.floatDraws rf d.1) d.2.x d.2.y d.2.theta ps) poses

/-- Where exact arithmetic takes a pose. -/
def exactPath (p : Pose2d) (ds : List ((ℕ → ℝ) × Pose2d)) : Pose2d := ds.foldl (fun q d => compose q d.2) p

theorem compose_near {p q : Pose2d} {d : Pose2d} {E H : ℝ} (hx : |p.x - q.x| ≤ E) (hy : |p.y - q.y| ≤ E)
    (hth : ∃ n : ℤ, |p.theta - (q.theta + n * (2 * π))| ≤ H) :
    |(compose p d).x - (compose q d).x| ≤ E + hypot d.x d.y * H ∧
    |(compose p d).y - (compose q d).y| ≤ E + hypot d.x d.y * H ∧
    ∃ n : ℤ, |(compose p d).theta - ((compose q d).theta + n * (2 * π))| ≤ H := by
  obtain ⟨n, hn⟩ := hth
  have ex := hypot_mul_cos_atan2 d.x d.y
  have ey := hypot_mul_sin_atan2 d.x d.y
  have h0 : 0 ≤ hypot d.x d.y := sqrt_nonneg _
  set t := hypot d.x d.y
  set r := atan2 d.y d.x
  refine ⟨?_, ?_, n, ?_⟩
  · have e : (compose p d).x - (compose q d).x
        = (p.x - q.x) + t * (cos (p.theta + r) - cos (q.theta + n * (2 * π) + r)) := by
      rw [show q.theta + n * (2 * π) + r = q.theta + r + n * (2 * π) by ring, cos_add_int_mul_two_pi]
      simp only [compose]
      rw [cos_add, cos_add]
      linear_combination (cos q.theta - cos p.theta) * ex - (sin q.theta - sin p.theta) * ey
    rw [e]
    refine (abs_add_le _ _).trans (add_le_add hx ?_)
    rw [abs_mul, abs_of_nonneg h0]
    refine mul_le_mul_of_nonneg_left ((cos_diff_le _ _).trans ?_) h0
    rwa [add_sub_add_right_eq_sub]
  · have e : (compose p d).y - (compose q d).y
        = (p.y - q.y) + t * (sin (p.theta + r) - sin (q.theta + n * (2 * π) + r)) := by
      rw [show q.theta + n * (2 * π) + r = q.theta + r + n * (2 * π) by ring, sin_add_int_mul_two_pi]
      simp only [compose]
      rw [sin_add, sin_add]
      linear_combination (sin q.theta - sin p.theta) * ex + (cos q.theta - cos p.theta) * ey
    rw [e]
    refine (abs_add_le _ _).trans (add_le_add hy ?_)
    rw [abs_mul, abs_of_nonneg h0]
    refine mul_le_mul_of_nonneg_left ((sin_diff_le _ _).trans ?_) h0
    rwa [add_sub_add_right_eq_sub]
  · simp only [compose]
    rwa [show p.theta + d.theta - (q.theta + d.theta + n * (2 * π)) = p.theta - (q.theta + n * (2 * π)) by ring]

theorem drift_aux {rf : ℝ → ℝ} (hrf : RoundsToFloat rf) {m : MotionModel} (hm : Noiseless m) {L : ℝ} (i : ℕ) :
    ∀ (ds : List ((ℕ → ℝ) × Pose2d)), (∀ d ∈ ds, 0.01 < hypot d.2.x d.2.y ∧ hypot d.2.x d.2.y ≤ L) →
    ∀ (poses : List Pose2d) (p p' q : Pose2d) (E H : ℝ), 0 ≤ H → poses[i]? = some p →
      (moveAll rf m poses ds)[i]? = some q →
      |p.x - p'.x| ≤ E → |p.y - p'.y| ≤ E → (∃ n : ℤ, |p.theta - (p'.theta + n * (2 * π))| ≤ H) →
      |q.x - (exactPath p' ds).x| ≤ E + L * (ds.length * H + 1e-6 * (ds.length * (ds.length + 1) / 2)) ∧
      |q.y - (exactPath p' ds).y| ≤ E + L * (ds.length * H + 1e-6 * (ds.length * (ds.length + 1) / 2)) ∧
      ∃ n : ℤ, |q.theta - ((exactPath p' ds).theta + n * (2 * π))| ≤ H + 1e-6 * ds.length := by
  intro ds
  induction ds with
  | nil =>
    intro _ poses p p' q E H hH hp hq hx hy hth
    have e : p = q := by simpa [moveAll, hp] using hq
    subst e
    simpa [exactPath] using ⟨hx, hy, hth⟩
  | cons d ds ih =>
    intro hall poses p p' q E H hH hp hq hx hy hth
    obtain ⟨hd, hL⟩ := hall d (by simp)
    have hstep := c113_motion hrf d.1 hm d.2.x d.2.y d.2.theta hd poses
    obtain ⟨p1, hp1⟩ : ∃ p1, (m.sample (MotionModel.floatDraws rf d.1) d.2.x d.2.y d.2.theta poses)[i]? = some p1 := by
      have hi : i < poses.length := by
        rcases lt_or_ge i poses.length with h | h
        · exact h
        · rw [List.getElem?_eq_none h] at hp; cases hp
      exact ⟨_, List.getElem?_eq_getElem (by rw [hstep.1]; exact hi)⟩
    obtain ⟨s1, s2, -, n1, s3⟩ := hstep.2 i p p1 hp hp1
    obtain ⟨c1, c2, n2, c3⟩ := compose_near (d := d.2) hx hy hth
    set t := hypot d.2.x d.2.y
    have hLH : t * H ≤ L * H := mul_le_mul_of_nonneg_right hL hH
    have hb : ∀ a b c : ℝ, |a - b| ≤ 1e-6 * t → |b - c| ≤ E + t * H → |a - c| ≤ E + L * (H + 1e-6) := by
      intro a b c h1 h2
      have := abs_sub_le a b c
      norm_num at h1 ⊢
      linarith
    have h := ih (fun d' hd' => hall d' (by simp [hd'])) _ p1 (compose p' d.2) q (E + L * (H + 1e-6)) (H + 1e-6)
      (add_nonneg hH (by norm_num)) hp1 hq (hb _ _ _ s1 c1) (hb _ _ _ s2 c2)
      ⟨n1 + n2, by
        have e : p1.theta - ((compose p' d.2).theta + ((n1 + n2 : ℤ) : ℝ) * (2 * π))
            = (p1.theta - ((compose p d.2).theta + n1 * (2 * π)))
              + ((compose p d.2).theta - ((compose p' d.2).theta + n2 * (2 * π))) := by push_cast; ring
        rw [e]
        refine (abs_add_le _ _).trans ?_
        rw [add_comm H]
        exact add_le_add s3 c3⟩
    obtain ⟨h1, h2, n, h3⟩ := h
    refine ⟨h1.trans (le_of_eq ?_), h2.trans (le_of_eq ?_), n, h3.trans (le_of_eq ?_)⟩
    all_goals
      simp only [List.length_cons]
      push_cast
      ring

/-- **C113** Rounding adds up slowly: after any number of noise-free motions of at most `L` metres the heading of every
particle is off by a millionth of a radian per motion, its place by the sum of what follows from that. -/
theorem c113_drift {rf : ℝ → ℝ} (hrf : RoundsToFloat rf) {m : MotionModel} (hm : Noiseless m) {L : ℝ}
    (ds : List ((ℕ → ℝ) × Pose2d)) (hds : ∀ d ∈ ds, 0.01 < hypot d.2.x d.2.y ∧ hypot d.2.x d.2.y ≤ L)
    (poses : List Pose2d) (i : ℕ) (p q : Pose2d) (hp : poses[i]? = some p) (hq : (moveAll rf m poses ds)[i]? = some q) :
    |q.x - (exactPath p ds).x| ≤ 1e-6 * L * (ds.length * (ds.length + 1) / 2) ∧
    |q.y - (exactPath p ds).y| ≤ 1e-6 * L * (ds.length * (ds.length + 1) / 2) ∧
    ∃ n : ℤ, |q.theta - ((exactPath p ds).theta + n * (2 * π))| ≤ 1e-6 * ds.length := by
  obtain ⟨h1, h2, n, h3⟩ := drift_aux hrf hm i ds hds poses p p q 0 0 le_rfl hp hq (by simp) (by simp) ⟨0, by simp⟩
  exact ⟨h1.trans (le_of_eq (by ring)), h2.trans (le_of_eq (by ring)), n, h3.trans (le_of_eq (by ring))⟩

/-- The hypotheses are met: a hundred steps of half a metre without noise are within three millimetres. -/
example (ds : List ((ℕ → ℝ) × Pose2d)) (hds : ∀ d ∈ ds, d.2 = ⟨0.3, 0.4, 0.1⟩) (hn : ds.length = 100)
    (poses : List Pose2d) (i : ℕ) (p q : Pose2d) (hp : poses[i]? = some p)
    (hq : (moveAll rndF ⟨0, 0, 0, 0, 0⟩ poses ds)[i]? = some q) : |q.x - (exactPath p ds).x| ≤ 0.003 := by
  have h5 : hypot (0.3 : ℝ) 0.4 = 0.5 := by
    unfold hypot
    rw [show (0.3 : ℝ) ^ 2 + 0.4 ^ 2 = 0.5 ^ 2 by norm_num, sqrt_sq (by norm_num)]
  have h := (c113_drift rndF_rounds (m := ⟨0, 0, 0, 0, 0⟩) ⟨rfl, rfl, rfl, rfl⟩ (L := 0.5) ds
    (fun d hd => by rw [hds d hd, h5]; norm_num) poses i p q hp hq).1
  refine h.trans ?_
  rw [hn]
  norm_num

end

end Ndt
