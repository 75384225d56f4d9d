import Verif.Proof.RoundedTransform
import Verif.Props.MapperProps
import Verif.Props.RoundedPoseProps
import Verif.Props.RoundedHeadingProps

/-! # Property C139: the published transform in double precision -/

namespace Ndt

open Real Rounded Spec

noncomputable section

/-- What is known about a cosine or a sine of the library. -/
theorem lib_facts {co si : ℝ → ℝ} (hlib : Accurate co si) (a : ℝ) :
    |co a - cos a| ≤ 2.3e-16 ∧ |si a - sin a| ≤ 2.3e-16 ∧ |co a| ≤ 1.01 ∧ |si a| ≤ 1.01 ∧ |-si a - -sin a| ≤ 2.3e-16 ∧ |-co a - -cos a| ≤ 2.3e-16 ∧
      |-si a| ≤ 1.01 ∧ |-co a| ≤ 1.01 ∧ |-sin a| ≤ 1 ∧ |-cos a| ≤ 1 := by
  obtain ⟨h1, h2, h3, h4⟩ := lib_near hlib (a := a) (h := a) (H := 0) (by simp)
  rw [zero_add] at h1 h2
  refine ⟨h1, h2, h3, h4, ?_, ?_, by rwa [abs_neg], by rwa [abs_neg], by rw [abs_neg]; exact abs_sin_le_one a, by rw [abs_neg]; exact abs_cos_le_one a⟩
  · rw [neg_sub_neg, abs_sub_comm]; exact h2
  · rw [neg_sub_neg, abs_sub_comm]; exact h1

theorem r22_near {rd co si : ℝ → ℝ} (hrd : RoundsToNearest rd) (hlib : Accurate co si) (p : Pose2d) : |(toMat rd co si p).r22 - 1| ≤ 3.9e-16 := by
  obtain ⟨-, -, h3, -⟩ := lib_facts hlib p.theta
  have h3' := abs_le.mp h3
  have h1 := abs_le.mp (rd_near hrd (x := 1 - co p.theta) (X := 2.01) (by rw [abs_le]; norm_num at h3' ⊢; constructor <;> linarith [h3'.1, h3'.2]))
  have h2 := abs_le.mp (rd_near hrd (x := rd (1 - co p.theta) + co p.theta) (X := 1.01) (by
    rw [abs_le]; norm_num at h1 ⊢; constructor <;> linarith [h1.1, h1.2]))
  change |rd (rd (1 - co p.theta) + co p.theta) - 1| ≤ _
  rw [abs_le]
  norm_num at h1 h2 ⊢
  constructor <;> linarith [h1.1, h1.2, h2.1, h2.2]

/-- **C139** The quaternion that is published consists of numbers, its length is one, and it turns by the difference of the headings, all up to
a part in ten million million. -/
theorem c139_rotation {rd co si : ℝ → ℝ} (hrd : RoundsToNearest rd) (hlib : Accurate co si) (robot odom : Pose2d) :
    ∃ z w, (Rounded.mapToOdom rd co si robot odom).quat rd = some (.fin z, .fin w) ∧ |w ^ 2 + z ^ 2 - 1| ≤ 4e-14 ∧
      |quatCos z w - cos (robot.theta - odom.theta)| ≤ 1e-13 ∧ |quatSin z w - sin (robot.theta - odom.theta)| ≤ 1e-13 := by
  obtain ⟨r1, r2, r3, r4, r5, r6, r7, r8, r9, r10⟩ := lib_facts hlib robot.theta
  obtain ⟨o1, o2, o3, o4, o5, o6, o7, o8, o9, o10⟩ := lib_facts hlib odom.theta
  have rc := abs_cos_le_one robot.theta
  have rs := abs_sin_le_one robot.theta
  have oc := abs_cos_le_one odom.theta
  have os := abs_sin_le_one odom.theta
  have fin : ∀ {x y : ℝ}, |x - y| ≤ 2.1 * 2.3e-16 + 1.3e-15 * 1 + 4e-30 → |x - y| ≤ 1.8e-15 := fun h => h.trans (by norm_num)
  have small : (2.3e-16 : ℝ) ≤ 1 := by norm_num
  have e00 := pair_near hrd rc r3 r1 r9 r7 r5 o1 oc o5 o9 small
  have e01 := pair_near hrd rc r3 r1 r9 r7 r5 o2 os o1 oc small
  have e10 := pair_near hrd rs r4 r2 rc r3 r1 o1 oc o5 o9 small
  have e11 := pair_near hrd rs r4 r2 rc r3 r1 o2 os o1 oc small
  have a22 := abs_le.mp (r22_near hrd hlib robot)
  have b22 := abs_le.mp (r22_near hrd hlib odom)
  have m22 : |(Rounded.mapToOdom rd co si robot odom).r22 - 1| ≤ 9.1e-16 := by
    change |rd ((toMat rd co si robot).r22 * (toMat rd co si odom).r22) - 1| ≤ _
    set x := (toMat rd co si robot).r22
    set y := (toMat rd co si odom).r22
    have h1 : |x * y - 1| ≤ 7.81e-16 := by
      have e : x * y - 1 = (x - 1) * (y - 1) + (x - 1) + (y - 1) := by ring
      have hx : |x - 1| ≤ 3.9e-16 := abs_le.mpr a22
      have hy : |y - 1| ≤ 3.9e-16 := abs_le.mpr b22
      have hxy : |(x - 1) * (y - 1)| ≤ 3.9e-16 * 3.9e-16 := by rw [abs_mul]; exact mul_le_mul hx hy (abs_nonneg _) (by norm_num)
      rw [e]
      exact (abs_add_three _ _ _).trans ((add_le_add_three hxy hx hy).trans (by norm_num))
    have h2 := abs_le.mp h1
    have h3 := abs_le.mp (rd_near hrd (x := x * y) (X := 1.0000001) (by
      rw [abs_le]; norm_num at h2 ⊢; constructor <;> linarith [h2.1, h2.2]))
    have := abs_sub_le (rd (x * y)) (x * y) 1
    refine this.trans (le_trans (add_le_add (abs_le.mpr h3) h1) (by norm_num))
  obtain ⟨z, w, e, h1, h2, h3⟩ := quat_near hrd (a := Rounded.mapToOdom rd co si robot odom) (f := robot.theta - odom.theta)
    (by
      have h := fin e00
      rwa [show cos robot.theta * cos odom.theta + -sin robot.theta * -sin odom.theta = cos (robot.theta - odom.theta) by rw [cos_sub]; ring] at h)
    (by
      have h := fin e11
      rwa [show sin robot.theta * sin odom.theta + cos robot.theta * cos odom.theta = cos (robot.theta - odom.theta) by rw [cos_sub]; ring] at h)
    (by
      have h := fin e10
      rwa [show sin robot.theta * cos odom.theta + cos robot.theta * -sin odom.theta = sin (robot.theta - odom.theta) by rw [sin_sub]; ring] at h)
    (by
      have h := fin e01
      rwa [show cos robot.theta * sin odom.theta + -sin robot.theta * cos odom.theta = -sin (robot.theta - odom.theta) by rw [sin_sub]; ring] at h)
    m22
  refine ⟨z, w, e, h1, ?_⟩
  have hS := abs_le.mp h1
  have hS0 : 0.99 ≤ w ^ 2 + z ^ 2 := by norm_num at hS ⊢; linarith [hS.1]
  have key : ∀ {N C : ℝ}, |N - C| ≤ 4e-14 → |C| ≤ 1 → |N / (w ^ 2 + z ^ 2) - C| ≤ 1e-13 := by
    intro N C hN hC
    have hp : 0 < w ^ 2 + z ^ 2 := lt_of_lt_of_le (by norm_num) hS0
    have e : N / (w ^ 2 + z ^ 2) - C = ((N - C) - C * (w ^ 2 + z ^ 2 - 1)) / (w ^ 2 + z ^ 2) := by field_simp; ring
    rw [e, abs_div, abs_of_pos hp, div_le_iff₀ hp]
    have x1 : |C * (w ^ 2 + z ^ 2 - 1)| ≤ 1 * 4e-14 := by rw [abs_mul]; exact mul_le_mul hC h1 (abs_nonneg _) zero_le_one
    refine (abs_sub _ _).trans ((add_le_add hN x1).trans ?_)
    norm_num at hS0 ⊢
    linarith
  exact ⟨key h2 (abs_cos_le_one _), key (h3.trans (by norm_num)) (abs_sin_le_one _)⟩

/-- **C139** The translation that is published is that of the exact transform, up to rounding in proportion to the coordinates. -/
theorem c139_translation {rd co si : ℝ → ℝ} (hrd : RoundsToNearest rd) (hlib : Accurate co si) {robot odom : Pose2d} {O R : ℝ} (hox : |odom.x| ≤ O)
    (hoy : |odom.y| ≤ O) (hrx : |robot.x| ≤ R) (hry : |robot.y| ≤ R) :
    |(Rounded.mapToOdom rd co si robot odom).planar.tx - (Mapper.mapToOdom robot odom).tx| ≤ 6e-15 * O + 1.3e-16 * R + 1e-28 ∧
    |(Rounded.mapToOdom rd co si robot odom).planar.ty - (Mapper.mapToOdom robot odom).ty| ≤ 6e-15 * O + 1.3e-16 * R + 1e-28 := by
  obtain ⟨r1, r2, r3, r4, r5, r6, r7, r8, r9, r10⟩ := lib_facts hlib robot.theta
  obtain ⟨o1, o2, o3, o4, o5, o6, o7, o8, o9, o10⟩ := lib_facts hlib odom.theta
  have rc := abs_cos_le_one robot.theta
  have rs := abs_sin_le_one robot.theta
  have oc := abs_cos_le_one odom.theta
  have os := abs_sin_le_one odom.theta
  have hO : 0 ≤ O := (abs_nonneg _).trans hox
  have hR : 0 ≤ R := (abs_nonneg _).trans hrx
  have z0 : ∀ x : ℝ, |x - x| ≤ 0 := by simp
  have n1 : |- -si odom.theta - - -sin odom.theta| ≤ 2.3e-16 := by rwa [neg_neg, neg_neg]
  have n2 : |- -si odom.theta| ≤ 1.01 := by rwa [neg_neg]
  have n3 : |- -sin odom.theta| ≤ 1 := by rwa [neg_neg]
  have bx := pair_near hrd o10 o8 o6 o9 o7 o5 (z0 odom.x) hox (z0 odom.y) hoy hO
  have by' := pair_near hrd n3 n2 n1 o10 o8 o6 (z0 odom.x) hox (z0 odom.y) hoy hO
  have bound : ∀ {A A' x x' : ℝ}, |A| ≤ 1 → |A'| ≤ 1 → |x| ≤ O → |x'| ≤ O → |A * x + A' * x'| ≤ 2 * O + 1e-29 := by
    intro A A' x x' h1 h2 h3 h4
    refine (abs_add_le _ _).trans ?_
    rw [abs_mul, abs_mul]
    have a := mul_le_mul h1 h3 (abs_nonneg _) zero_le_one
    have b := mul_le_mul h2 h4 (abs_nonneg _) zero_le_one
    norm_num at a b ⊢
    linarith
  have Bx := bound o10 o9 hox hoy
  have By := bound n3 o10 hox hoy
  have sm : 2.1 * 0 + 1.3e-15 * O + 4e-30 ≤ 2 * O + 1e-29 := by norm_num; linarith
  have tx := pair_near hrd rc r3 r1 r9 r7 r5 bx Bx by' By sm
  have ty := pair_near hrd rs r4 r2 rc r3 r1 bx Bx by' By sm
  have bound2 : ∀ {A A' X X' : ℝ}, |A| ≤ 1 → |A'| ≤ 1 → |X| ≤ 2 * O + 1e-29 → |X'| ≤ 2 * O + 1e-29 → |A * X + A' * X'| ≤ 4 * O + 2e-29 := by
    intro A A' x x' h1 h2 h3 h4
    refine (abs_add_le _ _).trans ?_
    rw [abs_mul, abs_mul]
    have a := mul_le_mul h1 h3 (abs_nonneg _) zero_le_one
    have b := mul_le_mul h2 h4 (abs_nonneg _) zero_le_one
    norm_num at a b ⊢
    linarith
  have key : ∀ {u U x : ℝ}, |u - U| ≤ 2.1 * (2.1 * 0 + 1.3e-15 * O + 4e-30) + 1.3e-15 * (2 * O + 1e-29) + 4e-30 → |U| ≤ 4 * O + 2e-29 → |x| ≤ R →
      |rd (u + x) - (U + x)| ≤ 6e-15 * O + 1.3e-16 * R + 1e-28 := by
    intro u U x hu hU hx
    have a1 := abs_le.mp hu
    have a2 := abs_le.mp hU
    have a3 := abs_le.mp hx
    have a4 := abs_le.mp (rd_near hrd (x := u + x) (X := 4.1 * O + R + 4e-29) (by
      rw [abs_le]; norm_num at a1 a2 ⊢; constructor <;> linarith [a1.1, a1.2, a2.1, a2.2, a3.1, a3.2]))
    rw [abs_le]
    norm_num at a1 a4 ⊢
    constructor <;> linarith [a1.1, a1.2, a4.1, a4.2]
  refine ⟨?_, ?_⟩
  · have := key tx (bound2 rc r9 Bx By) hrx
    have e : (Mapper.mapToOdom robot odom).tx = cos robot.theta * (-cos odom.theta * odom.x + -sin odom.theta * odom.y) +
      -sin robot.theta * (- -sin odom.theta * odom.x + -cos odom.theta * odom.y) + robot.x := by
      unfold Mapper.mapToOdom Iso.mul Iso.inverse toEigen
      simp only
      ring
    rw [e]
    exact this
  · have := key ty (bound2 rs rc Bx By) hry
    have e : (Mapper.mapToOdom robot odom).ty = sin robot.theta * (-cos odom.theta * odom.x + -sin odom.theta * odom.y) +
      cos robot.theta * (- -sin odom.theta * odom.x + -cos odom.theta * odom.y) + robot.y := by
      unfold Mapper.mapToOdom Iso.mul Iso.inverse toEigen
      simp only
      ring
    rw [e]
    exact this

/-- **C139** Whoever applies the published transform to the last odometry pose finds the robot where the mapper has it: up to a part in ten
million million of the distance from the origin of the odometry. -/
theorem c139_robot_in_place {rd co si : ℝ → ℝ} (hrd : RoundsToNearest rd) (hlib : Accurate co si) {robot odom : Pose2d} {O R : ℝ}
    (hox : |odom.x| ≤ O) (hoy : |odom.y| ≤ O) (hrx : |robot.x| ≤ R) (hry : |robot.y| ≤ R) :
    ∃ z w, (Rounded.mapToOdom rd co si robot odom).quat rd = some (.fin z, .fin w) ∧
      |quatCos z w * odom.x - quatSin z w * odom.y + (Rounded.mapToOdom rd co si robot odom).planar.tx - robot.x| ≤ 3e-13 * O + 1.3e-16 * R + 1e-28 ∧
      |quatSin z w * odom.x + quatCos z w * odom.y + (Rounded.mapToOdom rd co si robot odom).planar.ty - robot.y| ≤ 3e-13 * O + 1.3e-16 * R + 1e-28 := by
  obtain ⟨z, w, e, -, hc, hs⟩ := c139_rotation hrd hlib robot odom
  obtain ⟨tx, ty⟩ := c139_translation hrd hlib hox hoy hrx hry
  refine ⟨z, w, e, ?_⟩
  have hO : 0 ≤ O := (abs_nonneg _).trans hox
  have h1 := sin_sq_add_cos_sq odom.theta
  have ex : cos (robot.theta - odom.theta) * odom.x - sin (robot.theta - odom.theta) * odom.y + (Mapper.mapToOdom robot odom).tx = robot.x := by
    rw [cos_sub, sin_sub]
    unfold Mapper.mapToOdom Iso.mul Iso.inverse toEigen
    simp only
    ring
  have ey : sin (robot.theta - odom.theta) * odom.x + cos (robot.theta - odom.theta) * odom.y + (Mapper.mapToOdom robot odom).ty = robot.y := by
    rw [cos_sub, sin_sub]
    unfold Mapper.mapToOdom Iso.mul Iso.inverse toEigen
    simp only
    ring
  set c := cos (robot.theta - odom.theta)
  set s := sin (robot.theta - odom.theta)
  have p : ∀ {f g x : ℝ}, |f - g| ≤ 1e-13 → |x| ≤ O → |(f - g) * x| ≤ 1e-13 * O := by
    intro f g x hf hx
    rw [abs_mul]
    exact mul_le_mul hf hx (abs_nonneg _) (by norm_num)
  constructor
  · have a1 := abs_le.mp (p hc hox)
    have a2 := abs_le.mp (p hs hoy)
    have a3 := abs_le.mp tx
    rw [abs_le]
    norm_num at a1 a2 a3 ⊢
    constructor <;> linarith [a1.1, a1.2, a2.1, a2.2, a3.1, a3.2]
  · have a1 := abs_le.mp (p hs hox)
    have a2 := abs_le.mp (p hc hoy)
    have a3 := abs_le.mp ty
    rw [abs_le]
    norm_num at a1 a2 a3 ⊢
    constructor <;> linarith [a1.1, a1.2, a2.1, a2.2, a3.1, a3.2]

/-! ## A transform that stays -/

theorem mapToOdom_eq (robot odom : Pose2d) :
    (Mapper.mapToOdom robot odom).tx = robot.x - (cos (robot.theta - odom.theta) * odom.x - sin (robot.theta - odom.theta) * odom.y) ∧
    (Mapper.mapToOdom robot odom).ty = robot.y - (sin (robot.theta - odom.theta) * odom.x + cos (robot.theta - odom.theta) * odom.y) := by
  rw [cos_sub, sin_sub]
  unfold Mapper.mapToOdom Iso.mul Iso.inverse toEigen
  simp only
  constructor <;> ring

/-- **C139** While the robot only follows its odometry, the published transform stays what it was at the start: `E` and `H` are the errors of
dead reckoning (C114). -/
theorem c139_steady {rd co si : ℝ → ℝ} (hrd : RoundsToNearest rd) (hlib : Accurate co si) {odom0 robot0 odom robot : Pose2d} {E H O R : ℝ}
    (hx : |robot.x - (follow odom0 robot0 odom).x| ≤ E) (hy : |robot.y - (follow odom0 robot0 odom).y| ≤ E)
    (ht : ∃ n : ℤ, |robot.theta - ((follow odom0 robot0 odom).theta + n * (2 * π))| ≤ H)
    (hox : |odom.x| ≤ O) (hoy : |odom.y| ≤ O) (hrx : |robot.x| ≤ R) (hry : |robot.y| ≤ R) :
    ∃ z w, (Rounded.mapToOdom rd co si robot odom).quat rd = some (.fin z, .fin w) ∧
      |quatCos z w - cos (robot0.theta - odom0.theta)| ≤ 1e-13 + H ∧ |quatSin z w - sin (robot0.theta - odom0.theta)| ≤ 1e-13 + H ∧
      |(Rounded.mapToOdom rd co si robot odom).planar.tx - (Mapper.mapToOdom robot0 odom0).tx| ≤ E + (2 * H + 6e-15) * O + 1.3e-16 * R + 1e-28 ∧
      |(Rounded.mapToOdom rd co si robot odom).planar.ty - (Mapper.mapToOdom robot0 odom0).ty| ≤ E + (2 * H + 6e-15) * O + 1.3e-16 * R + 1e-28 := by
  obtain ⟨z, w, e, -, hc, hs⟩ := c139_rotation hrd hlib robot odom
  obtain ⟨tx, ty⟩ := c139_translation hrd hlib hox hoy hrx hry
  obtain ⟨n, hn⟩ := ht
  have hH : 0 ≤ H := (abs_nonneg _).trans hn
  have turn : |robot.theta - odom.theta - (robot0.theta - odom0.theta + n * (2 * π))| ≤ H := by
    have e : robot.theta - odom.theta - (robot0.theta - odom0.theta + n * (2 * π)) = robot.theta - ((follow odom0 robot0 odom).theta + n * (2 * π)) := by
      simp only [follow]; ring
    rw [e]
    exact hn
  have dc := (cos_diff_le (robot.theta - odom.theta) (robot0.theta - odom0.theta + n * (2 * π))).trans turn
  have ds := (sin_diff_le (robot.theta - odom.theta) (robot0.theta - odom0.theta + n * (2 * π))).trans turn
  rw [cos_add_int_mul_two_pi] at dc
  rw [sin_add_int_mul_two_pi] at ds
  have p : ∀ {f g x : ℝ}, |f - g| ≤ H → |x| ≤ O → |(f - g) * x| ≤ H * O := by
    intro f g x hf hx
    rw [abs_mul]
    exact mul_le_mul hf hx (abs_nonneg _) hH
  refine ⟨z, w, e, (abs_sub_le _ _ _).trans (add_le_add hc dc), (abs_sub_le _ _ _).trans (add_le_add hs ds), ?_, ?_⟩
  · have a1 := abs_le.mp (p dc hox)
    have a2 := abs_le.mp (p ds hoy)
    have a3 := abs_le.mp tx
    have a4 := abs_le.mp hx
    have e4 : robot.x - (follow odom0 robot0 odom).x = robot.x - (robot0.x + (odom.x - odom0.x) * cos (robot0.theta - odom0.theta) -
      (odom.y - odom0.y) * sin (robot0.theta - odom0.theta)) := rfl
    rw [e4] at a4
    rw [(mapToOdom_eq robot odom).1] at a3
    rw [(mapToOdom_eq robot0 odom0).1, abs_le]
    constructor <;> linarith [a1.1, a1.2, a2.1, a2.2, a3.1, a3.2, a4.1, a4.2]
  · have a1 := abs_le.mp (p ds hox)
    have a2 := abs_le.mp (p dc hoy)
    have a3 := abs_le.mp ty
    have a4 := abs_le.mp hy
    have e4 : robot.y - (follow odom0 robot0 odom).y = robot.y - (robot0.y + (odom.x - odom0.x) * sin (robot0.theta - odom0.theta) +
      (odom.y - odom0.y) * cos (robot0.theta - odom0.theta)) := rfl
    rw [e4] at a4
    rw [(mapToOdom_eq robot odom).2] at a3
    rw [(mapToOdom_eq robot0 odom0).2, abs_le]
    constructor <;> linarith [a1.1, a1.2, a2.1, a2.2, a3.1, a3.2, a4.1, a4.2]

/-- **C139** In particular a hundred thousand scans up to a metre apart, within a kilometre, leave the published transform within two
millimetres and three thousand-millionths of what it was. -/
theorem c139_a_hundred_thousand_scans {rd co si : ℝ → ℝ} (hrd : RoundsToNearest rd) (hlib : Accurate co si)
    (odom0 robot0 : Pose2d) (os : List Pose2d) (hN : os.length ≤ 100000)
    (hr : |robot0.theta| ≤ 3.5) (ho : ∀ o ∈ odom0 :: os, |o.theta| ≤ 3.5 ∧ |o.x| ≤ 1000 ∧ |o.y| ≤ 1000) (hsteps : Steps 1 odom0 os)
    (hsize : ∀ o ∈ odom0 :: os, |(follow odom0 robot0 o).x| ≤ 1000 ∧ |(follow odom0 robot0 o).y| ≤ 1000) :
    let t := Rounded.mapToOdom rd co si (deadReckon rd co si odom0 robot0 os) ((odom0 :: os).getLast (by simp))
    ∃ z w, t.quat rd = some (.fin z, .fin w) ∧
      |quatCos z w - cos (robot0.theta - odom0.theta)| ≤ 3e-9 ∧ |quatSin z w - sin (robot0.theta - odom0.theta)| ≤ 3e-9 ∧
      |t.planar.tx - (Mapper.mapToOdom robot0 odom0).tx| ≤ 0.002 ∧ |t.planar.ty - (Mapper.mapToOdom robot0 odom0).ty| ≤ 0.002 := by
  intro t
  have hl : (odom0 :: os).getLast (by simp) ∈ odom0 :: os := List.getLast_mem _
  obtain ⟨hx, hy, ht⟩ := c114_a_hundred_thousand_scans hrd hlib odom0 robot0 os hN hr (fun o h => (ho o h).1) hsteps hsize
  obtain ⟨-, hox, hoy⟩ := ho _ hl
  obtain ⟨hfx, hfy⟩ := hsize _ hl
  have size : ∀ {a b : ℝ}, |a - b| ≤ 0.001 → |b| ≤ 1000 → |a| ≤ 1001 := by
    intro a b h1 h2
    have := abs_sub_abs_le_abs_sub a b
    norm_num at h1
    linarith
  obtain ⟨z, w, e, h1, h2, h3, h4⟩ := c139_steady hrd hlib hx hy ht hox hoy (size hx hfx) (size hy hfy)
  exact ⟨z, w, e, h1.trans (by norm_num), h2.trans (by norm_num), h3.trans (by norm_num), h4.trans (by norm_num)⟩

/-! ## Exact arithmetic -/

theorem halves_exact {v d : ℝ} (hv : 0 < v) : halves id v d = (.fin (√v / 2), .fin (d / (2 * √v))) := by
  have h := sqrt_pos.mpr hv
  unfold halves
  rw [Fl.sqrt, if_neg (not_lt.mpr hv.le)]
  have r : ∀ x, Fl.rounded id (.fin x) = .fin x := fun _ => rfl
  simp only [r, Fl.fin_mul]
  rw [Fl.fin_div h.ne']
  simp only [r, Fl.fin_mul]
  congr 2 <;> · field_simp

/-- **C139** Without rounding the published transform is the exact one of C53: the same translation, and a quaternion of length one that turns by
the difference of the headings. -/
theorem c139_exact (robot odom : Pose2d) :
    (Rounded.mapToOdom id cos sin robot odom).planar = Mapper.mapToOdom robot odom ∧
    ∃ z w, (Rounded.mapToOdom id cos sin robot odom).quat id = some (.fin z, .fin w) ∧ w ^ 2 + z ^ 2 = 1 ∧
      w ^ 2 - z ^ 2 = cos (robot.theta - odom.theta) ∧ 2 * w * z = sin (robot.theta - odom.theta) := by
  have hpl : (Rounded.mapToOdom id cos sin robot odom).planar = Mapper.mapToOdom robot odom := by
    unfold Rounded.mapToOdom Mat.times Mat.inv toMat Mapper.mapToOdom Iso.mul Iso.inverse toEigen
    ext <;> simp only [id] <;> ring
  refine ⟨hpl, ?_⟩
  set f := robot.theta - odom.theta with hf
  have m00 : (Mapper.mapToOdom robot odom).r00 = cos f := by
    rw [hf, cos_sub]; unfold Mapper.mapToOdom Iso.mul Iso.inverse toEigen; simp only; ring
  have m11 : (Mapper.mapToOdom robot odom).r11 = cos f := by
    rw [hf, cos_sub]; unfold Mapper.mapToOdom Iso.mul Iso.inverse toEigen; simp only; ring
  have m10 : (Mapper.mapToOdom robot odom).r10 = sin f := by
    rw [hf, sin_sub]; unfold Mapper.mapToOdom Iso.mul Iso.inverse toEigen; simp only; ring
  have m01 : (Mapper.mapToOdom robot odom).r01 = -sin f := by
    rw [hf, sin_sub]; unfold Mapper.mapToOdom Iso.mul Iso.inverse toEigen; simp only; ring
  have m22 : (Rounded.mapToOdom id cos sin robot odom).r22 = 1 := by
    unfold Rounded.mapToOdom Mat.times Mat.inv toMat
    simp only [id]
    ring
  have sc := sin_sq_add_cos_sq f
  unfold Mat.quat
  rw [hpl, m22]
  simp only [id, m00, m11, m10, m01]
  have key : ∀ {v : ℝ}, 0 < v → (√v / 2) ^ 2 = v / 4 ∧ ((sin f - -sin f) / (2 * √v)) ^ 2 = sin f ^ 2 / v ∧
      2 * (√v / 2) * ((sin f - -sin f) / (2 * √v)) = sin f := by
    intro v hv
    have h := sqrt_pos.mpr hv
    have h2 := sq_sqrt hv.le
    refine ⟨by rw [div_pow, h2]; norm_num, ?_, by field_simp; ring⟩
    rw [div_pow, mul_pow, h2]
    field_simp
    ring
  by_cases hT : cos f + (cos f + 1) > 0
  · rw [if_pos hT]
    have hv : 0 < cos f + (cos f + 1) + 1 := by linarith
    obtain ⟨k1, k2, k3⟩ := key hv
    rw [halves_exact hv]
    refine ⟨_, _, rfl, ?_, ?_, k3⟩
    · rw [k1, k2]
      field_simp
      nlinarith [sc]
    · rw [k1, k2]
      field_simp
      nlinarith [sc]
  · rw [if_neg hT]
    push Not at hT
    rw [if_pos (by split <;> linarith)]
    have hv : 0 < 1 - cos f - cos f + 1 := by linarith
    obtain ⟨k1, k2, k3⟩ := key hv
    rw [halves_exact hv]
    refine ⟨_, _, rfl, ?_, ?_, ?_⟩
    · rw [k1, k2]
      field_simp
      nlinarith [sc]
    · rw [k1, k2]
      field_simp
      nlinarith [sc]
    · linarith [k3, mul_comm (√(1 - cos f - cos f + 1) / 2) ((sin f - -sin f) / (2 * √(1 - cos f - cos f + 1)))]

/-! ## Examples -/

/-- The robot has turned round by three radians more than its odometry says, one kilometre from the origin: it is placed within a nanometre. -/
example : ∃ z w, (Rounded.mapToOdom rnd Demo.cosR Demo.sinR ⟨500, -200, 3⟩ ⟨1000, 10, 0⟩).quat rnd = some (.fin z, .fin w) ∧
    |quatCos z w * 1000 - quatSin z w * 10 + (Rounded.mapToOdom rnd Demo.cosR Demo.sinR ⟨500, -200, 3⟩ ⟨1000, 10, 0⟩).planar.tx - 500| ≤ 1e-9 := by
  obtain ⟨z, w, e, h, -⟩ := c139_robot_in_place rnd_rounds accurate_demo (robot := ⟨500, -200, 3⟩) (odom := ⟨1000, 10, 0⟩) (O := 1000) (R := 500)
    (by norm_num) (by norm_num) (by norm_num) (by norm_num)
  exact ⟨z, w, e, h.trans (by norm_num)⟩

/-- Two steps of half a metre. -/
example : let t := Rounded.mapToOdom rnd Demo.cosR Demo.sinR (deadReckon rnd Demo.cosR Demo.sinR ⟨0, 0, 0⟩ ⟨3, 1, 1⟩ [⟨0.5, 0, 0⟩, ⟨1, 0, 0⟩]) ⟨1, 0, 0⟩
    ∃ z w, t.quat rnd = some (.fin z, .fin w) ∧ |quatCos z w - cos 1| ≤ 3e-9 ∧ |t.planar.tx - 3| ≤ 0.002 := by
  intro t
  have hc := abs_le.mp (abs_cos_le_one 1)
  have hs := abs_le.mp (abs_sin_le_one 1)
  obtain ⟨z, w, e, h1, -, h3, -⟩ := c139_a_hundred_thousand_scans rnd_rounds accurate_demo ⟨0, 0, 0⟩ ⟨3, 1, 1⟩ [⟨0.5, 0, 0⟩, ⟨1, 0, 0⟩] (by simp)
    (by norm_num) (by
      intro o h
      simp only [List.mem_cons, List.not_mem_nil, or_false] at h
      rcases h with rfl | rfl | rfl <;> norm_num) (by norm_num [Steps]) (by
      intro o h
      simp only [List.mem_cons, List.not_mem_nil, or_false] at h
      rcases h with rfl | rfl | rfl <;> norm_num [follow, abs_le] <;> refine ⟨⟨?_, ?_⟩, ?_, ?_⟩ <;> linarith [hc.1, hc.2, hs.1, hs.2])
  rw [(mapToOdom_eq _ _).1] at h3
  simp only [mul_zero, sub_zero] at h1 h3
  exact ⟨z, w, e, h1, h3⟩

end

end Ndt
