import Verif.Proof.Orientation
import Verif.Props.LaserProps
import Mathlib.Analysis.Real.Pi.Bounds

/-! # C90, C91: the mounting of the laser and headings, read from quaternions -/

namespace Ndt

noncomputable section

open Spec Laser

/-! ## C90 The laser is taken for what it is -/

/-- C90: a laser looking down is treated as inverted. -/
theorem c90_upside_down_is_seen (t : Transform3) (h : UnitQ t.rotation) (hu : upwards t.rotation < 0) :
    t.mount.2 = true := by
  rw [upwards_eq] at hu
  unfold UnitQ at h
  unfold Transform3.mount
  simp only [decide_eq_true_eq]
  by_contra hno
  push Not at hno
  have h1 := sq_le_sq' (neg_le_of_abs_le hno.1) (le_of_abs_le hno.1)
  have h2 := sq_le_sq' (neg_le_of_abs_le hno.2) (le_of_abs_le hno.2)
  nlinarith

/-- C90: a laser not treated as inverted looks up almost vertically: it is tilted by less than 3.3 degrees. -/
theorem c90_upright_is_level (t : Transform3) (h : UnitQ t.rotation) (hm : t.mount.2 = false) :
    0.9984 ≤ upwards t.rotation := by
  rw [upwards_eq]
  unfold UnitQ at h
  unfold Transform3.mount at hm
  simp only [decide_eq_false_iff_not] at hm
  push Not at hm
  have h1 := sq_le_sq' (neg_le_of_abs_le hm.1) (le_of_abs_le hm.1)
  have h2 := sq_le_sq' (neg_le_of_abs_le hm.2) (le_of_abs_le hm.2)
  nlinarith

theorem dist_le_of_sq {p q : Point} {r : ℝ} (h : (p.x - q.x) ^ 2 + (p.y - q.y) ^ 2 ≤ (1 / 100) ^ 2 * r ^ 2) :
    Spec.dist p q ≤ |r| / 100 := by
  unfold Spec.dist
  rw [show |r| / 100 = Real.sqrt ((1 / 100) ^ 2 * r ^ 2) by
    rw [← mul_pow, Real.sqrt_sq_eq_abs, abs_mul, abs_of_pos (by norm_num : (0 : ℝ) < 1 / 100)]; ring]
  exact Real.sqrt_le_sqrt h

/-- C90: a beam of a laser not treated as inverted ends, seen from above, within 1% of its length of where it is put. -/
theorem c90_upright_beam (t : Transform3) (h : UnitQ t.rotation) (hm : t.mount.2 = false) (angle r : ℝ) :
    Spec.dist (move t.mount.1 (polar angle r)) (seenFromAbove t (beamEnd angle r)) ≤ |r| / 100 := by
  have hup := c90_upright_is_level t h hm
  rw [upwards_eq] at hup
  have hq := h
  unfold UnitQ at hq
  have hb : t.rotation.w ^ 2 + t.rotation.z ^ 2 - t.rotation.x ^ 2 - t.rotation.y ^ 2 ≤ 1 := by
    nlinarith [sq_nonneg t.rotation.x, sq_nonneg t.rotation.y]
  have := beam_error h (s := 1) (by norm_num)
    (by nlinarith [sq_nonneg t.rotation.x, sq_nonneg t.rotation.y, sq_nonneg t.rotation.z, sq_nonneg t.rotation.w])
    (by rw [abs_le]; constructor <;> linarith) (r * Real.cos angle) (r * Real.sin angle)
  apply dist_le_of_sq
  have e : (r * Real.cos angle) ^ 2 + (r * Real.sin angle) ^ 2 = r ^ 2 := by
    linear_combination r ^ 2 * Real.sin_sq_add_cos_sq angle
  rw [e] at this
  refine le_trans (le_of_eq ?_) this
  simp only [move, polar, seenFromAbove, beamEnd, Transform3.mount, Transform3.fromMsg]
  ring

/-- C90: a laser upside down and level to 3.3 degrees is treated as inverted, and a beam ends, seen from above, within 1% of its
length of where it is put. -/
theorem c90_inverted_beam (t : Transform3) (h : UnitQ t.rotation) (hu : upwards t.rotation ≤ -0.9984) (angle r : ℝ) :
    t.mount.2 = true ∧
      Spec.dist (move t.mount.1 (polar (-angle) r)) (seenFromAbove t (beamEnd angle r)) ≤ |r| / 100 := by
  refine ⟨c90_upside_down_is_seen t h (by linarith), ?_⟩
  rw [upwards_eq] at hu
  have hq := h
  unfold UnitQ at hq
  have hb : -1 ≤ t.rotation.w ^ 2 + t.rotation.z ^ 2 - t.rotation.x ^ 2 - t.rotation.y ^ 2 := by
    nlinarith [sq_nonneg t.rotation.z, sq_nonneg t.rotation.w]
  have := beam_error h (s := -1) (by norm_num)
    (by nlinarith [sq_nonneg t.rotation.x, sq_nonneg t.rotation.y, sq_nonneg t.rotation.z, sq_nonneg t.rotation.w])
    (by rw [abs_le]; constructor <;> linarith) (r * Real.cos angle) (r * Real.sin angle)
  apply dist_le_of_sq
  have e : (r * Real.cos angle) ^ 2 + (r * Real.sin angle) ^ 2 = r ^ 2 := by
    linear_combination r ^ 2 * Real.sin_sq_add_cos_sq angle
  rw [e] at this
  refine le_trans (le_of_eq ?_) this
  simp only [move, polar, seenFromAbove, beamEnd, Transform3.mount, Transform3.fromMsg, Real.cos_neg, Real.sin_neg]
  ring

/-- C90: a level laser of any heading, upright or upside down, puts its beams exactly. -/
theorem c90_flat_is_exact (x y z yaw angle r : ℝ) :
    (let t : Transform3 := ⟨x, y, z, ⟨0, 0, Real.sin (yaw / 2), Real.cos (yaw / 2)⟩⟩
     t.mount.2 = false ∧ move t.mount.1 (polar angle r) = seenFromAbove t (beamEnd angle r)) ∧
    (let t : Transform3 := ⟨x, y, z, ⟨Real.cos (yaw / 2), Real.sin (yaw / 2), 0, 0⟩⟩
     t.mount.2 = true ∧ move t.mount.1 (polar (-angle) r) = seenFromAbove t (beamEnd angle r)) := by
  have hy : yaw = yaw / 2 + yaw / 2 := by ring
  have hc : Real.cos yaw = Real.cos (yaw / 2) ^ 2 - Real.sin (yaw / 2) ^ 2 := by
    conv_lhs => rw [hy]
    rw [Real.cos_add]; ring
  have hs : Real.sin yaw = 2 * (Real.sin (yaw / 2) * Real.cos (yaw / 2)) := by
    conv_lhs => rw [hy]
    rw [Real.sin_add]; ring
  have h1 := Real.sin_sq_add_cos_sq (yaw / 2)
  refine ⟨⟨?_, ?_⟩, ?_, ?_⟩
  · simp only [Transform3.mount, abs_zero, decide_eq_false_iff_not]
    norm_num
  · have e : (⟨0, 0, Real.sin (yaw / 2), Real.cos (yaw / 2)⟩ : Quat).getYaw = normalizeAngle yaw := by
      rw [getYaw_off_pole (by unfold UnitQ; linear_combination h1) (by norm_num), ← atan2_polar one_pos]
      congr 1 <;> rw [one_mul]
      · rw [hs]; ring
      · rw [hc]; ring
    simp only [move, polar, seenFromAbove, beamEnd, Transform3.mount, Transform3.fromMsg, rotate_x, rotate_y, e,
      cos_normalizeAngle, sin_normalizeAngle]
    congr 1
    · rw [hc, hs]; ring
    · rw [hc, hs]; ring
  · apply c90_upside_down_is_seen
    · unfold UnitQ
      simp only
      linear_combination h1
    · rw [upwards_eq]
      simp only
      nlinarith
  · have e : (⟨Real.cos (yaw / 2), Real.sin (yaw / 2), 0, 0⟩ : Quat).getYaw = normalizeAngle yaw := by
      rw [getYaw_off_pole (by unfold UnitQ; linear_combination h1) (by norm_num), ← atan2_polar one_pos]
      congr 1 <;> rw [one_mul]
      · rw [hs]; ring
      · rw [hc]; ring
    simp only [move, polar, seenFromAbove, beamEnd, Transform3.mount, Transform3.fromMsg, rotate_x, rotate_y, e,
      cos_normalizeAngle, sin_normalizeAngle, Real.cos_neg, Real.sin_neg]
    congr 1
    · rw [hc, hs]; ring
    · rw [hc, hs]; ring

/-- C90, what holds: with a laser level to 2.2 degrees (so that neither x nor y passes the threshold), or upside down and level
to 3.3 degrees, every point of a scan taken at rest is within 1% of its distance of where a measured beam ended, seen from above.
Missing: lasers tilted more (`c90_tilted_is_mirrored`). -/
theorem c90_points_partial (t : Transform3) (h : UnitQ t.rotation)
    (hl : t.mount.2 = false ∨ upwards t.rotation ≤ -0.9984) (msg : LaserMsg) (limit : ℝ) (a : Pose2d)
    (hn : ∀ r ∈ msg.ranges, r ≠ .ninf) (h0 : msg.ranges ≠ []) :
    ∃ l, points msg (.fin limit) t.mount.2 t.mount.1 a a = .ok l ∧
      ∀ f ∈ l, ∃ b ∈ validBeams limit msg.ranges, ∃ p, IsPoint f p ∧
        Spec.dist p (seenFromAbove t (beamEnd (msg.angleMin + b.1 * msg.angleIncrement) b.2)) ≤ |b.2| / 100 := by
  rcases hl with hm | hu
  · rw [hm]
    refine ⟨_, c47_forward_beams_partial msg limit t.mount.1 a a hn, ?_⟩
    intro f hf
    obtain ⟨b, hb, rfl⟩ := List.mem_map.mp hf
    exact ⟨b, hb, _, c48_projection_at_rest msg t.mount.1 a b.1 b.2, c90_upright_beam t h hm _ _⟩
  · have hm := c90_upside_down_is_seen t h (by linarith)
    rw [hm]
    refine ⟨_, c47_inverted_beams_partial msg limit t.mount.1 a a hn h0, ?_⟩
    intro f hf
    obtain ⟨b, hb, rfl⟩ := List.mem_map.mp hf
    have hb := (List.mem_filter.mp (List.mem_reverse.mp hb)).1
    exact ⟨b, hb, _, c48_projection_at_rest_inverted msg t.mount.1 a b.1 b.2, (c90_inverted_beam t h hu _ _).2⟩

/-- C90 is refuted for tilted lasers: one pitched by more than 2.3 degrees (half the angle has a sine above 0.02) is treated as
inverted though it looks up, and the beam to its left is put on the right. -/
theorem c90_tilted_is_mirrored (x y z pitch r : ℝ) (hp : 0.02 < Real.sin (pitch / 2)) (hup : 0 < Real.cos pitch)
    (hsin : |Real.sin pitch| < 0.99999) :
    let t : Transform3 := ⟨x, y, z, rollPitchYaw 0 pitch 0⟩
    UnitQ t.rotation ∧ t.mount.2 = true ∧ upwards t.rotation = Real.cos pitch ∧
      seenFromAbove t (beamEnd (Real.pi / 2) r) = ⟨x, y + r⟩ ∧
      move t.mount.1 (polar (-(Real.pi / 2)) r) = ⟨x, y - r⟩ := by
  intro t
  have hy : pitch = pitch / 2 + pitch / 2 := by ring
  have hc : Real.cos pitch = Real.cos (pitch / 2) ^ 2 - Real.sin (pitch / 2) ^ 2 := by
    conv_lhs => rw [hy]
    rw [Real.cos_add]; ring
  have hs : Real.sin pitch = 2 * (Real.sin (pitch / 2) * Real.cos (pitch / 2)) := by
    conv_lhs => rw [hy]
    rw [Real.sin_add]; ring
  have h1 := Real.sin_sq_add_cos_sq (pitch / 2)
  have hq : t.rotation = ⟨0, Real.sin (pitch / 2), 0, Real.cos (pitch / 2)⟩ := by
    simp [t, rollPitchYaw, qmul]
  have hu : UnitQ t.rotation := by
    rw [hq]
    unfold UnitQ
    linear_combination h1
  refine ⟨hu, ?_, ?_, ?_, ?_⟩
  · unfold Transform3.mount
    rw [hq]
    simp only [decide_eq_true_eq]
    right
    exact lt_of_lt_of_le hp (le_abs_self _)
  · rw [upwards_eq, hq, hc]
    ring
  · unfold seenFromAbove beamEnd
    rw [hq, rotate_x, rotate_y]
    simp only [Real.cos_pi_div_two, Real.sin_pi_div_two, t]
    congr 1
    · ring
    · linear_combination r * h1
  · have hyaw : t.rotation.getYaw = 0 := by
      have hw := abs_lt.mp hsin
      rw [getYaw_off_pole hu (by rw [hq, abs_lt]; constructor <;> simp only <;> linarith [hw.1, hw.2]), hq]
      have : atan2 (Real.cos pitch * Real.sin 0) (Real.cos pitch * Real.cos 0) = normalizeAngle 0 := atan2_polar hup 0
      rw [normalizeAngle_of_mem (by constructor <;> linarith [Real.pi_pos])] at this
      refine Eq.trans ?_ this
      congr 1
      · simp
      · rw [Real.cos_zero, hc]; ring
    unfold Transform3.mount Transform3.fromMsg
    simp only [hyaw]
    simp only [move, polar, Real.cos_neg, Real.sin_neg, Real.cos_pi_div_two, Real.sin_pi_div_two, Real.cos_zero,
      Real.sin_zero, t]
    congr 1
    · ring
    · ring

/-! ## C91 The heading read from a message is the yaw -/

/-- C91: whatever roll and pitch (short of straight up or down), the heading read is the yaw, made to lie within half a turn. -/
theorem c91_heading_is_yaw (roll pitch yaw : ℝ) (hc : 0 < Real.cos pitch) (hs : |Real.sin pitch| < 0.99999) :
    UnitQ (rollPitchYaw roll pitch yaw) ∧ (rollPitchYaw roll pitch yaw).getYaw = normalizeAngle yaw := by
  have half : ∀ u : ℝ, Real.cos u = Real.cos (u / 2) ^ 2 - Real.sin (u / 2) ^ 2 ∧
      Real.sin u = 2 * (Real.sin (u / 2) * Real.cos (u / 2)) := by
    intro u
    have hu : u = u / 2 + u / 2 := by ring
    constructor
    · conv_lhs => rw [hu]
      rw [Real.cos_add]; ring
    · conv_lhs => rw [hu]
      rw [Real.sin_add]; ring
  have h1 := Real.sin_sq_add_cos_sq (yaw / 2)
  have h2 := Real.sin_sq_add_cos_sq (pitch / 2)
  have h3 := Real.sin_sq_add_cos_sq (roll / 2)
  obtain ⟨cy, sy⟩ := half yaw
  obtain ⟨cp, sp⟩ := half pitch
  generalize hq : rollPitchYaw roll pitch yaw = q
  have hu : UnitQ q := by
    have : q.x ^ 2 + q.y ^ 2 + q.z ^ 2 + q.w ^ 2 = (Real.sin (yaw / 2) ^ 2 + Real.cos (yaw / 2) ^ 2) *
        (Real.sin (pitch / 2) ^ 2 + Real.cos (pitch / 2) ^ 2) * (Real.sin (roll / 2) ^ 2 + Real.cos (roll / 2) ^ 2) := by
      rw [← hq]
      simp only [rollPitchYaw, qmul]
      ring
    unfold UnitQ
    rw [this, h1, h2, h3]
    norm_num
  have ed : 2 * (q.x * q.z - q.w * q.y) = -Real.sin pitch := by
    have : 2 * (q.x * q.z - q.w * q.y) = -(2 * (Real.sin (pitch / 2) * Real.cos (pitch / 2))) *
        (Real.sin (yaw / 2) ^ 2 + Real.cos (yaw / 2) ^ 2) * (Real.sin (roll / 2) ^ 2 + Real.cos (roll / 2) ^ 2) := by
      rw [← hq]
      simp only [rollPitchYaw, qmul]
      ring
    rw [this, h1, h3, sp]
    ring
  have ea : q.w * q.w + q.x * q.x - q.y * q.y - q.z * q.z = Real.cos pitch * Real.cos yaw := by
    have : q.w * q.w + q.x * q.x - q.y * q.y - q.z * q.z = (Real.cos (pitch / 2) ^ 2 - Real.sin (pitch / 2) ^ 2) *
        (Real.cos (yaw / 2) ^ 2 - Real.sin (yaw / 2) ^ 2) * (Real.sin (roll / 2) ^ 2 + Real.cos (roll / 2) ^ 2) := by
      rw [← hq]
      simp only [rollPitchYaw, qmul]
      ring
    rw [this, h3, cp, cy]
    ring
  have eb : 2 * (q.x * q.y + q.w * q.z) = Real.cos pitch * Real.sin yaw := by
    have : 2 * (q.x * q.y + q.w * q.z) = (Real.cos (pitch / 2) ^ 2 - Real.sin (pitch / 2) ^ 2) *
        (2 * (Real.sin (yaw / 2) * Real.cos (yaw / 2))) * (Real.sin (roll / 2) ^ 2 + Real.cos (roll / 2) ^ 2) := by
      rw [← hq]
      simp only [rollPitchYaw, qmul]
      ring
    rw [this, h3, cp, sy]
    ring
  refine ⟨hu, ?_⟩
  rw [getYaw_off_pole hu (by rw [ed, abs_neg]; exact hs), ea, eb]
  exact atan2_polar hc yaw

/-- C91: the length of the quaternion does not matter. -/
theorem c91_scale (q : Quat) {k : ℝ} (hk : 0 < k) :
    (⟨k * q.x, k * q.y, k * q.z, k * q.w⟩ : Quat).getYaw = q.getYaw := by
  have hk2 : k ^ 2 ≠ 0 := by positivity
  have e0 : ∀ y x : ℝ, ∀ m : ℝ, 0 < m → atan2 (m * y) (m * x) = atan2 y x := by
    intro y x m hm
    unfold atan2
    have : (⟨m * x, m * y⟩ : ℂ) = (m : ℂ) * ⟨x, y⟩ := by
      apply Complex.ext <;> simp
    rw [this, Complex.arg_real_mul _ hm]
  unfold Quat.getYaw
  simp only
  have e1 : -2 * (k * q.x * (k * q.z) - k * q.w * (k * q.y)) /
      (k * q.x * (k * q.x) + k * q.y * (k * q.y) + k * q.z * (k * q.z) + k * q.w * (k * q.w)) =
      -2 * (q.x * q.z - q.w * q.y) / (q.x * q.x + q.y * q.y + q.z * q.z + q.w * q.w) := by
    rw [show -2 * (k * q.x * (k * q.z) - k * q.w * (k * q.y)) = k ^ 2 * (-2 * (q.x * q.z - q.w * q.y)) by ring,
      show k * q.x * (k * q.x) + k * q.y * (k * q.y) + k * q.z * (k * q.z) + k * q.w * (k * q.w) =
        k ^ 2 * (q.x * q.x + q.y * q.y + q.z * q.z + q.w * q.w) by ring]
    exact mul_div_mul_left _ _ hk2
  rw [e1, e0 _ _ _ hk,
    show 2 * (k * q.x * (k * q.y) + k * q.w * (k * q.z)) = k ^ 2 * (2 * (q.x * q.y + q.w * q.z)) by ring,
    show k * q.w * (k * q.w) + k * q.x * (k * q.x) - k * q.y * (k * q.y) - k * q.z * (k * q.z) =
      k ^ 2 * (q.w * q.w + q.x * q.x - q.y * q.y - q.z * q.z) by ring, e0 _ _ _ (by positivity)]

/-- C91: the planar quaternions written by the filter are read the same way by the planar and by the full formula. -/
theorem c91_planar (q : PlanarQuat) : (⟨0, 0, q.z, q.w⟩ : Quat).getYaw = getYaw q := by
  unfold Quat.getYaw getYaw
  simp only [zero_mul, mul_zero, sub_zero, zero_add, zero_div]
  rw [if_neg (by norm_num), if_neg (by norm_num)]
  congr 1
  ring

/-- C91: a message whose orientation was left empty is read as heading 0. -/
theorem c91_empty : (⟨0, 0, 0, 0⟩ : Quat).getYaw = 0 := by
  have := c91_planar ⟨0, 0⟩
  rw [this]
  unfold getYaw
  simp only [atan2, mul_zero, zero_pow two_ne_zero, sub_zero]
  exact Complex.arg_zero

/-- C91 has to stop short of straight up: there the branch of `tf2::getYaw` for the poles reads a heading that is half a turn off, and lies beyond half
a turn when the yaw is positive. -/
theorem c91_straight_up_is_half_a_turn_off {yaw : ℝ} (h1 : -Real.pi < yaw) (h2 : yaw < Real.pi) :
    UnitQ (rollPitchYaw 0 (Real.pi / 2) yaw) ∧ (rollPitchYaw 0 (Real.pi / 2) yaw).getYaw = yaw + Real.pi := by
  have h := Real.sin_sq_add_cos_sq (yaw / 2)
  have e4 : Real.pi / 2 / 2 = Real.pi / 4 := by ring
  set r := √2 / 2 with hr
  have r0 : 0 < r := by positivity
  have r2 : r * r = 1 / 2 := by
    rw [hr]
    have := Real.mul_self_sqrt (show (0 : ℝ) ≤ 2 by norm_num)
    linear_combination this / 4
  have eq : rollPitchYaw 0 (Real.pi / 2) yaw =
      ⟨-(r * Real.sin (yaw / 2)), r * Real.cos (yaw / 2), r * Real.sin (yaw / 2), r * Real.cos (yaw / 2)⟩ := by
    unfold rollPitchYaw qmul
    rw [e4, Real.sin_pi_div_four, Real.cos_pi_div_four, zero_div, Real.sin_zero, Real.cos_zero]
    simp only [Quat.mk.injEq]
    refine ⟨?_, ?_, ?_, ?_⟩ <;> simp only [← hr] <;> ring
  rw [eq]
  constructor
  · unfold UnitQ
    linear_combination (2 * (Real.sin (yaw / 2) ^ 2 + Real.cos (yaw / 2) ^ 2)) * r2 + h
  · unfold Quat.getYaw
    simp only
    have en : -(r * Real.sin (yaw / 2)) * -(r * Real.sin (yaw / 2)) + r * Real.cos (yaw / 2) * (r * Real.cos (yaw / 2)) +
        r * Real.sin (yaw / 2) * (r * Real.sin (yaw / 2)) + r * Real.cos (yaw / 2) * (r * Real.cos (yaw / 2)) = 1 := by
      linear_combination (2 * (Real.sin (yaw / 2) ^ 2 + Real.cos (yaw / 2) ^ 2)) * r2 + h
    have es : -2 * (-(r * Real.sin (yaw / 2)) * (r * Real.sin (yaw / 2)) - r * Real.cos (yaw / 2) * (r * Real.cos (yaw / 2))) = 1 := by
      linear_combination (2 * (Real.sin (yaw / 2) ^ 2 + Real.cos (yaw / 2) ^ 2)) * r2 + h
    rw [en, es, if_neg (by norm_num), if_pos (by norm_num)]
    have ea : atan2 (r * Real.cos (yaw / 2)) (-(r * Real.sin (yaw / 2))) = yaw / 2 + Real.pi / 2 := by
      have hp := atan2_polar r0 (yaw / 2 + Real.pi / 2)
      rw [Real.sin_add_pi_div_two, Real.cos_add_pi_div_two, mul_neg] at hp
      rw [hp]
      exact normalizeAngle_of_mem ⟨by linarith, by linarith⟩
    rw [ea]
    ring

/-- C91: the heading read always lies within half a turn, away from the poles. -/
theorem c91_within_half_a_turn (q : Quat) (h : UnitQ q) (hp : |2 * (q.x * q.z - q.w * q.y)| < 0.99999) :
    -Real.pi < q.getYaw ∧ q.getYaw ≤ Real.pi := by
  rw [getYaw_off_pole h hp]
  exact atan2_mem _ _

/-! ## Concrete cases -/

/-- A laser level and turned a half turn is upright; every beam is put exactly. -/
example (angle : ℝ) : move (⟨0.2, 0, 0.3, ⟨0, 0, Real.sin (Real.pi / 2), Real.cos (Real.pi / 2)⟩⟩ : Transform3).mount.1
    (polar angle 5) = seenFromAbove ⟨0.2, 0, 0.3, ⟨0, 0, Real.sin (Real.pi / 2), Real.cos (Real.pi / 2)⟩⟩ (beamEnd angle 5) :=
  (c90_flat_is_exact 0.2 0 0.3 Real.pi angle 5).1.2

/-- A quaternion of length 1 with a tilt below the threshold. -/
example : UnitQ ⟨0.015, 0, 0, Real.sqrt (1 - 0.015 ^ 2)⟩ ∧
    (⟨0, 0, 0, ⟨0.015, 0, 0, Real.sqrt (1 - 0.015 ^ 2)⟩⟩ : Transform3).mount.2 = false := by
  constructor
  · unfold UnitQ
    simp only
    rw [Real.sq_sqrt (by norm_num)]
    norm_num
  · unfold Transform3.mount
    simp only [decide_eq_false_iff_not, abs_zero]
    rw [abs_of_pos (by norm_num)]
    norm_num

/-- A laser upside down and tilted a little. -/
example : UnitQ ⟨Real.sqrt (1 - 0.015 ^ 2), 0, 0, 0.015⟩ ∧ upwards ⟨Real.sqrt (1 - 0.015 ^ 2), 0, 0, 0.015⟩ ≤ -0.9984 := by
  constructor
  · unfold UnitQ
    simp only
    rw [Real.sq_sqrt (by norm_num)]
    norm_num
  · rw [upwards_eq]
    simp only
    rw [Real.sq_sqrt (by norm_num)]
    norm_num

/-- A laser pitched by 30 degrees. -/
example : 0.02 < Real.sin (Real.pi / 6 / 2) ∧ 0 < Real.cos (Real.pi / 6) ∧ |Real.sin (Real.pi / 6)| < 0.99999 := by
  refine ⟨?_, ?_, ?_⟩
  · have h := Real.mul_le_sin (x := Real.pi / 6 / 2) (by positivity) (by linarith [Real.pi_pos])
    have : 2 / Real.pi * (Real.pi / 6 / 2) = 1 / 6 := by field_simp
    rw [this] at h
    linarith
  · rw [Real.cos_pi_div_six]
    positivity
  · rw [Real.sin_pi_div_six]
    norm_num [abs_of_pos]

/-- A robot driving east up a ramp of 30 degrees, then north on it. -/
example : (rollPitchYaw 0 (Real.pi / 6) (Real.pi / 2)).getYaw = Real.pi / 2 := by
  rw [(c91_heading_is_yaw 0 (Real.pi / 6) (Real.pi / 2) (by rw [Real.cos_pi_div_six]; positivity)
    (by rw [Real.sin_pi_div_six]; norm_num [abs_of_pos])).2]
  exact normalizeAngle_of_mem (by constructor <;> linarith [Real.pi_pos])

end

end Ndt
