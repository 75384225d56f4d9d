import Verif.Proof.RoundedTravel
import Verif.Props.OrientationProps
import Verif.Props.RoundedEndsProps
import Verif.Props.RoundedHeadingProps
import Verif.Props.RoundedMotionProps

/-! # Properties C141 and C142: travel between scans, and headings in messages, in double precision -/

namespace Ndt

open Real Rounded Spec

noncomputable section

/-! ## C141 Travel in double precision -/

/-- **C141** A scan is not ignored when the robot has gone the minimum distance, up to a part in 10¹⁵. -/
theorem c141_gone {rd : ℝ → ℝ} (hrd : RoundsToNearest rd) {minDist minRot : ℝ} (hm : 1e-6 ≤ minDist) {prev odom : Pose2d}
    (h : (1 + 1e-15) * minDist ≤ √((odom.x - prev.x) ^ 2 + (odom.y - prev.y) ^ 2)) : ¬ tooLittle rd minDist minRot prev odom :=
  fun ht => absurd ht.1 (not_lt.mpr (far_enough hrd hm h))

/-- **C141** A scan is not ignored when the robot has turned by the minimum rotation, up to 1.2e-14. -/
theorem c141_turned {rd : ℝ → ℝ} (hrd : RoundsToNearest rd) {minDist minRot : ℝ} {prev odom : Pose2d} (hp : |prev.theta| ≤ 3.5)
    (ho : |odom.theta| ≤ 3.5) (h : minRot + 1.2e-14 ≤ turnBetween prev.theta odom.theta) : ¬ tooLittle rd minDist minRot prev odom := by
  intro ht
  have h1 := (abs_le.mp (shortest_turn hrd hp ho).2).1
  have h2 := ht.2
  linarith

/-- **C141** A scan is ignored when the robot has neither gone nor turned that much. -/
theorem c141_ignored {rd : ℝ → ℝ} (hrd : RoundsToNearest rd) {minDist minRot : ℝ} (hm : 1e-6 ≤ minDist) {prev odom : Pose2d}
    (hp : |prev.theta| ≤ 3.5) (ho : |odom.theta| ≤ 3.5) (h : √((odom.x - prev.x) ^ 2 + (odom.y - prev.y) ^ 2) ≤ (1 - 1e-15) * minDist)
    (hr : turnBetween prev.theta odom.theta + 1.2e-14 < minRot) : tooLittle rd minDist minRot prev odom := by
  refine ⟨near_enough hrd hm h, ?_⟩
  have h1 := (abs_le.mp (shortest_turn hrd hp ho).2).2
  linarith

/-- **C141** A robot that stands still adds no scan, with no tolerance. -/
theorem c141_still {rd : ℝ → ℝ} (hrd : RoundsToNearest rd) {minDist minRot : ℝ} (hm : 1e-6 ≤ minDist) (hr : 0 < minRot) (p : Pose2d) :
    tooLittle rd minDist minRot p p := by
  refine ⟨near_enough hrd hm (by norm_num; linarith), ?_⟩
  have h0 : rd 0 = 0 := hrd.exact isDouble_zero
  have : Rounded.shortestAngularDistance rd p.theta p.theta = 0 := by
    unfold Rounded.shortestAngularDistance
    rw [sub_self, h0]
    exact Ndt.normalizeAngle_zero hrd
  rw [this, abs_zero]
  exact hr

/-- **C141** Two scans that follow each other in a map are apart: in place or in heading. -/
theorem c141_apart {rd : ℝ → ℝ} (hrd : RoundsToNearest rd) {minDist minRot : ℝ} (hm : 1e-6 ≤ minDist) {prev odom : Pose2d}
    (hp : |prev.theta| ≤ 3.5) (ho : |odom.theta| ≤ 3.5) (h : ¬ tooLittle rd minDist minRot prev odom) :
    (1 - 1e-15) * minDist < √((odom.x - prev.x) ^ 2 + (odom.y - prev.y) ^ 2) ∨ minRot ≤ turnBetween prev.theta odom.theta + 1.2e-14 := by
  by_contra hcon
  push Not at hcon
  exact h (c141_ignored hrd hm hp ho hcon.1 hcon.2)

/-- **C141** Without rounding the test is the one on the exact distance. -/
theorem c141_exact {minDist : ℝ} (hm : 0 < minDist) (prev odom : Pose2d) :
    sqDist id prev odom < id (minDist * minDist) ↔ √((odom.x - prev.x) ^ 2 + (odom.y - prev.y) ^ 2) < minDist := by
  rw [Real.sqrt_lt' hm]
  simp only [sqDist, id]
  constructor <;> intro h <;> linarith

/-- Half a metre. -/
example : ¬ tooLittle rnd 0.4 0.2 ⟨1, 2, 3⟩ ⟨1.3, 2.4, 3⟩ :=
  c141_gone rnd_rounds (by norm_num) (by
    rw [show ((1.3 : ℝ) - 1) ^ 2 + (2.4 - 2) ^ 2 = 0.5 ^ 2 by norm_num, Real.sqrt_sq (by norm_num)]; norm_num)

/-- A turn across the direction backwards. -/
example : tooLittle rnd 0.6 0.3 ⟨1, 2, 3⟩ ⟨1.3, 2.4, -3⟩ := by
  have p1 := Real.pi_gt_three
  have p2 := Real.pi_lt_d4
  refine c141_ignored rnd_rounds (by norm_num) (by norm_num [abs_le]) (by norm_num [abs_le]) (by
    rw [show ((1.3 : ℝ) - 1) ^ 2 + (2.4 - 2) ^ 2 = 0.5 ^ 2 by norm_num, Real.sqrt_sq (by norm_num)]; norm_num) ?_
  have e1 : turnBetween 3 (-3) = 2 * π - 6 := by
    unfold turnBetween
    rw [show (3 - -3 : ℝ) = 6 by norm_num, ← Real.cos_two_pi_sub]
    exact Real.arccos_cos (by linarith) (by linarith)
  simp only [e1]
  norm_num at p2 ⊢
  linarith

/-! ## C142 Headings in messages in double precision -/

/-- **C142** The heading read from a message is the yaw, whatever the roll and up to a pitch of 53 degrees, when the components of the message are
within `δ` of those of the orientation: it is off by 30 `δ` and 7e-15, up to full turns. -/
theorem c142_heading {rd : ℝ → ℝ} {at2 : ℝ → ℝ → ℝ} (hrd : RoundsToNearest rd) (hat : AccurateAtan2 at2) {roll pitch yaw δ : ℝ} {q : Quat}
    (hc : 0 < cos pitch) (hs : |sin pitch| ≤ 0.8) (hδ : δ ≤ 1e-4) (hx : |q.x - (rollPitchYaw roll pitch yaw).x| ≤ δ)
    (hy : |q.y - (rollPitchYaw roll pitch yaw).y| ≤ δ) (hz : |q.z - (rollPitchYaw roll pitch yaw).z| ≤ δ)
    (hw : |q.w - (rollPitchYaw roll pitch yaw).w| ≤ δ) :
    |Rounded.getYaw rd at2 q| ≤ π ∧ ∃ k : ℤ, |Rounded.getYaw rd at2 q - (yaw + k * (2 * π))| ≤ 30 * δ + 7e-15 := by
  obtain ⟨hu, hyaw⟩ := c91_heading_is_yaw roll pitch yaw hc (lt_of_le_of_lt hs (by norm_num))
  have hp : 2 * ((rollPitchYaw roll pitch yaw).x * (rollPitchYaw roll pitch yaw).z -
      (rollPitchYaw roll pitch yaw).w * (rollPitchYaw roll pitch yaw).y) = -sin pitch := by
    have h1 := sin_sq_add_cos_sq (yaw / 2)
    have h3 := sin_sq_add_cos_sq (roll / 2)
    have sp : sin pitch = 2 * (sin (pitch / 2) * cos (pitch / 2)) := by
      conv_lhs => rw [show pitch = 2 * (pitch / 2) by ring, sin_two_mul]
      ring
    have : 2 * ((rollPitchYaw roll pitch yaw).x * (rollPitchYaw roll pitch yaw).z -
      (rollPitchYaw roll pitch yaw).w * (rollPitchYaw roll pitch yaw).y) = -(2 * (sin (pitch / 2) * cos (pitch / 2))) *
        (sin (yaw / 2) ^ 2 + cos (yaw / 2) ^ 2) * (sin (roll / 2) ^ 2 + cos (roll / 2) ^ 2) := by
      simp only [rollPitchYaw, qmul]
      ring
    rw [this, h1, h3, sp]
    ring
  obtain ⟨h1, k, hk⟩ := yaw_near hrd hat hu ⟨hx, hy, hz, hw⟩ ((abs_nonneg _).trans hx) hδ (by rw [hp, abs_neg]; exact hs)
  refine ⟨h1, ?_⟩
  rw [hyaw] at hk
  obtain ⟨l, hl⟩ := normalizeAngle_congr yaw
  refine ⟨k + l, ?_⟩
  rw [hl] at hk
  push_cast
  have e : yaw + (k + l) * (2 * π) = yaw + l * (2 * π) + k * (2 * π) := by ring
  rw [e]
  exact hk

/-- What is written for a heading. -/
theorem written_near {rd co si : ℝ → ℝ} (hrd : RoundsToNearest rd) (hlib : Accurate co si) (theta : ℝ) :
    |(particleQuat rd co si theta).z - sin (theta / 2)| ≤ 6e-17 * |theta| + 2.4e-16 ∧
      |(particleQuat rd co si theta).w - cos (theta / 2)| ≤ 6e-17 * |theta| + 2.4e-16 := by
  have h := rd_near hrd (le_refl |theta / 2|)
  rw [abs_div, abs_of_pos (by norm_num : (0 : ℝ) < 2)] at h
  obtain ⟨h1, h2, -, -⟩ := lib_near hlib h
  simp only [particleQuat]
  norm_num at h1 h2 ⊢
  constructor <;> linarith

/-- **C142** The quaternion of a particle in a message has length one, up to rounding. -/
theorem c142_unit {rd co si : ℝ → ℝ} (hlib : Accurate co si) (theta : ℝ) :
    (particleQuat rd co si theta).x = 0 ∧ (particleQuat rd co si theta).y = 0 ∧
      |√((particleQuat rd co si theta).z ^ 2 + (particleQuat rd co si theta).w ^ 2) - 1| ≤ 1e-15 := by
  refine ⟨rfl, rfl, ?_⟩
  simp only [particleQuat]
  set h := rd (theta / 2)
  obtain ⟨h1, h2, -, -⟩ := lib_near hlib (a := h) (h := h) (H := 0) (by simp)
  rw [zero_add] at h1 h2
  have p := sin_sq_add_cos_sq h
  have c1 := abs_cos_le_one h
  have s1 := abs_sin_le_one h
  set e1 := co h - cos h with he1
  set e2 := si h - sin h with he2
  have e : si h ^ 2 + co h ^ 2 - 1 = 2 * (sin h * e2) + 2 * (cos h * e1) + e2 * e2 + e1 * e1 := by
    rw [he1, he2]; linear_combination p
  have b : ∀ {a b A B : ℝ}, |a| ≤ A → |b| ≤ B → |a * b| ≤ A * B := fun {a b A B} ha hb => by
    rw [abs_mul]; exact mul_le_mul ha hb (abs_nonneg _) ((abs_nonneg _).trans ha)
  have b1 := abs_le.mp (b s1 h2)
  have b2 := abs_le.mp (b c1 h1)
  have b3 := abs_le.mp (b h2 h2)
  have b4 := abs_le.mp (b h1 h1)
  have hX : |si h ^ 2 + co h ^ 2 - 1| ≤ 1e-15 := by
    rw [e, abs_le]
    norm_num at b1 b2 b3 b4 ⊢
    constructor <;> linarith [b1.1, b1.2, b2.1, b2.2, b3.1, b3.2, b4.1, b4.2]
  set X := si h ^ 2 + co h ^ 2
  have hX0 : 0 ≤ X := by positivity
  have hq := Real.sqrt_nonneg X
  have hs := Real.sq_sqrt hX0
  refine le_trans ?_ hX
  have e3 : X - 1 = (√X - 1) * (√X + 1) := by linear_combination -hs
  rw [e3, abs_mul, abs_of_nonneg (by linarith : 0 ≤ √X + 1)]
  exact le_mul_of_one_le_right (abs_nonneg _) (by linarith)

/-- **C142** The heading of a particle is read back from the message: off by 1.5e-14, for a heading within a few turns, and full turns. -/
theorem c142_round_trip {rd co si : ℝ → ℝ} {at2 : ℝ → ℝ → ℝ} (hrd : RoundsToNearest rd) (hlib : Accurate co si) (hat : AccurateAtan2 at2)
    {theta : ℝ} (ht : |theta| ≤ 1e9) :
    |Rounded.getYaw rd at2 (particleQuat rd co si theta)| ≤ π ∧
      turnBetween (Rounded.getYaw rd at2 (particleQuat rd co si theta)) theta ≤ 2e-15 * |theta| + 1.5e-14 := by
  obtain ⟨hz, hw⟩ := written_near hrd hlib theta
  have ex : (rollPitchYaw 0 0 theta).x = 0 := by simp [rollPitchYaw, qmul]
  have ey : (rollPitchYaw 0 0 theta).y = 0 := by simp [rollPitchYaw, qmul]
  have ez : (rollPitchYaw 0 0 theta).z = sin (theta / 2) := by simp [rollPitchYaw, qmul]
  have ew : (rollPitchYaw 0 0 theta).w = cos (theta / 2) := by simp [rollPitchYaw, qmul]
  have h0 : 0 ≤ 6e-17 * |theta| + 2.4e-16 := by positivity
  obtain ⟨h1, k, hk⟩ := c142_heading hrd hat (roll := 0) (pitch := 0) (yaw := theta) (q := particleQuat rd co si theta) (by simp) (by norm_num)
    (δ := 6e-17 * |theta| + 2.4e-16) (by norm_num at ht ⊢; linarith) (by rw [ex]; simpa [particleQuat] using h0)
    (by rw [ey]; simpa [particleQuat] using h0) (by rw [ez]; exact hz)
    (by rw [ew]; exact hw)
  refine ⟨h1, ?_⟩
  have h2 := turnBetween_near (b := theta) (d := theta) (η := 0) ⟨k, hk⟩ (by simp)
  have h3 : turnBetween theta theta = 0 := by unfold turnBetween; simp
  rw [h3, sub_zero, abs_of_nonneg (turnBetween_nonneg _ _)] at h2
  have := abs_nonneg theta
  norm_num at h2 ⊢
  linarith

/-- A particle that looks back: written and read with the worst library functions. -/
example : turnBetween (Rounded.getYaw rnd Demo.atanR (particleQuat rnd Demo.cosR Demo.sinR 3)) 3 ≤ 3e-14 := by
  obtain ⟨-, h⟩ := c142_round_trip rnd_rounds accurate_demo accurateAtan2_demo (theta := 3) (by norm_num)
  refine h.trans ?_
  norm_num

/-- A robot that stands on a ramp: pitch with sine 0.6, roll of a quarter turn. -/
example : ∃ k : ℤ, |Rounded.getYaw rnd Demo.atanR (rollPitchYaw (π / 2) (arcsin 0.6) 2) - (2 + k * (2 * π))| ≤ 1e-14 := by
  have hs : sin (arcsin 0.6) = 0.6 := sin_arcsin (by norm_num) (by norm_num)
  obtain ⟨-, k, hk⟩ := c142_heading rnd_rounds accurateAtan2_demo (roll := π / 2) (pitch := arcsin 0.6) (yaw := 2) (δ := 0)
    (q := rollPitchYaw (π / 2) (arcsin 0.6) 2) (by rw [cos_arcsin]; norm_num) (by rw [hs]; norm_num [abs_le])
    (by norm_num) (by simp) (by simp) (by simp) (by simp)
  refine ⟨k, hk.trans ?_⟩
  norm_num

end

end Ndt
