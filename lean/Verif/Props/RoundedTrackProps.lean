import Verif.Model.RoundedTrack
import Verif.Spec.RoundedTrack
import Verif.Props.RoundedPoseProps
import Verif.Props.RoundedWorldProps

/-! # Property C147: poses with corrections in double precision -/

namespace Ndt

open Real Rounded Spec

noncomputable section

theorem guidable_start {L B : ℝ} {odom robot : Pose2d} {os : List (Pose2d × Pose2d)} (h : Guidable L B odom robot os) :
    |robot.x| ≤ B ∧ |robot.y| ≤ B := by
  cases os with
  | nil => exact h
  | cons a os => exact h.1

theorem track_aux {rd cosD sinD : ℝ → ℝ} (hrd : RoundsToNearest rd) (hlib : Accurate cosD sinD) {L B : ℝ} (hL : 0 ≤ L) (hB : 1 ≤ B) {N : ℕ}
    (hN : (N : ℝ) ≤ 1e9) {e : ℝ} (he : e = 2e-14 * L * N + 6e-16 * B) (hsmall : N * e ≤ 1) :
    ∀ (os : List (Pose2d × Pose2d)) (k : ℕ) (odom robot ideal : Pose2d), k + os.length = N → |odom.theta| ≤ 3.5 → |robot.theta| ≤ 3.5 →
      Guidable L (B - 1) odom ideal os → |robot.x - ideal.x| ≤ k * e → |robot.y - ideal.y| ≤ k * e →
      (∃ n : ℤ, |robot.theta - (ideal.theta + n * (2 * π))| ≤ 9e-15 * k) →
      let p := track rd cosD sinD odom robot os
      let q := guided odom ideal os
      |p.x - q.x| ≤ N * e ∧ |p.y - q.y| ≤ N * e ∧ ∃ n : ℤ, |p.theta - (q.theta + n * (2 * π))| ≤ 9e-15 * N := by
  intro os
  induction os with
  | nil =>
    intro k odom robot ideal hk _ _ _ hx hy hth
    have hk' : k = N := by simpa using hk
    subst hk'
    exact ⟨hx, hy, hth⟩
  | cons a os ih =>
    obtain ⟨o, c⟩ := a
    intro k odom robot ideal hk ho hr hg hx hy hth
    obtain ⟨⟨b1, b2⟩, ⟨s1, s2, s3⟩, ⟨f1, f2⟩, hc, hg'⟩ := hg
    obtain ⟨g1, g2⟩ := guidable_start hg'
    have hkN : ((k : ℝ) + 1) ≤ N := by
      have : k + 1 ≤ N := by simp at hk; omega
      exact_mod_cast this
    have hk0 : (0 : ℝ) ≤ k := Nat.cast_nonneg k
    have he0 : 0 ≤ e := by rw [he]; positivity
    have hke : (k + 1) * e ≤ 1 := (mul_le_mul_of_nonneg_right (by linarith) he0).trans hsmall
    have hbx : |robot.x| ≤ B := by
      have := abs_sub_abs_le_abs_sub robot.x ideal.x
      linarith
    have hby : |robot.y| ≤ B := by
      have := abs_sub_abs_le_abs_sub robot.y ideal.y
      linarith
    have hth' : ∃ n : ℤ, |robot.theta - odom.theta - (ideal.theta - odom.theta + n * (2 * π))| ≤ 9e-15 * k := by
      obtain ⟨n, hn⟩ := hth
      refine ⟨n, ?_⟩
      rwa [show robot.theta - odom.theta - (ideal.theta - odom.theta + n * (2 * π)) = robot.theta - (ideal.theta + n * (2 * π)) by ring]
    obtain ⟨p1, p2, p3, p4⟩ := predict_near hrd hlib ho hr s3 hth'
      (by
        have h1 : (k : ℝ) ≤ 1e9 := by linarith
        have h2 : (9e-15 : ℝ) * k ≤ 9e-15 * 1e9 := mul_le_mul_of_nonneg_left h1 (by norm_num)
        exact h2.trans (by norm_num)) s1 s2 hbx hby hB
    set p := predict rd cosD sinD odom robot o with hp
    have hstep : 2 * L * (9e-15 * k + 5e-15) + 6e-16 * B ≤ e := by
      rw [he]
      have h1 : L * (k + 1) ≤ L * N := mul_le_mul_of_nonneg_left hkN hL
      have h2 : 0 ≤ L * k := mul_nonneg hL hk0
      norm_num
      linarith
    -- before the correction is rounded
    have ex : |c.x + p.x - (corrected c (follow odom ideal o)).x| ≤ k * e + (2 * L * (9e-15 * k + 5e-15) + 4e-16 * B) := by
      have e1 : c.x + p.x - (corrected c (follow odom ideal o)).x = (robot.x - ideal.x) +
          (p.x - (robot.x + (o.x - odom.x) * cos (ideal.theta - odom.theta) - (o.y - odom.y) * sin (ideal.theta - odom.theta))) := by
        simp only [follow, corrected]; ring
      rw [e1]
      exact (abs_add_le _ _).trans (add_le_add hx p1)
    have ey : |c.y + p.y - (corrected c (follow odom ideal o)).y| ≤ k * e + (2 * L * (9e-15 * k + 5e-15) + 4e-16 * B) := by
      have e1 : c.y + p.y - (corrected c (follow odom ideal o)).y = (robot.y - ideal.y) +
          (p.y - (robot.y + (o.x - odom.x) * sin (ideal.theta - odom.theta) + (o.y - odom.y) * cos (ideal.theta - odom.theta))) := by
        simp only [follow, corrected]; ring
      rw [e1]
      exact (abs_add_le _ _).trans (add_le_add hy p2)
    have small : k * e + (2 * L * (9e-15 * k + 5e-15) + 4e-16 * B) ≤ 1 := by
      have : 0 ≤ 2e-16 * B := by positivity
      norm_num at this hstep hke ⊢
      linarith
    have rx := rd_near hrd (x := c.x + p.x) (X := B) (by
      have := abs_sub_abs_le_abs_sub (c.x + p.x) (corrected c (follow odom ideal o)).x
      linarith)
    have ry := rd_near hrd (x := c.y + p.y) (X := B) (by
      have := abs_sub_abs_le_abs_sub (c.y + p.y) (corrected c (follow odom ideal o)).y
      linarith)
    have hct : |c.theta + p.theta| ≤ 3.4 := by
      refine (abs_add_le _ _).trans ?_
      norm_num at hc p3 ⊢
      linarith
    have rt := rd_near hrd hct
    have := ih (k + 1) o (Rounded.addCorrection rd c p) (corrected c (follow odom ideal o)) (by simp at hk; omega) s3 ?_ hg' ?_ ?_ ?_
    · exact this
    · show |rd (c.theta + p.theta)| ≤ 3.5
      have := abs_sub_abs_le_abs_sub (rd (c.theta + p.theta)) (c.theta + p.theta)
      norm_num at rt hct ⊢
      linarith
    · show |rd (c.x + p.x) - (corrected c (follow odom ideal o)).x| ≤ _
      have := abs_sub_le (rd (c.x + p.x)) (c.x + p.x) (corrected c (follow odom ideal o)).x
      push_cast
      norm_num at rx ex hstep ⊢
      linarith
    · show |rd (c.y + p.y) - (corrected c (follow odom ideal o)).y| ≤ _
      have := abs_sub_le (rd (c.y + p.y)) (c.y + p.y) (corrected c (follow odom ideal o)).y
      push_cast
      norm_num at ry ey hstep ⊢
      linarith
    · obtain ⟨n, hn⟩ := p4
      refine ⟨n, ?_⟩
      show |rd (c.theta + p.theta) - ((corrected c (follow odom ideal o)).theta + n * (2 * π))| ≤ _
      have e1 : rd (c.theta + p.theta) - ((corrected c (follow odom ideal o)).theta + n * (2 * π)) =
          (rd (c.theta + p.theta) - (c.theta + p.theta)) + (p.theta - o.theta - (ideal.theta - odom.theta + n * (2 * π))) := by
        simp only [follow, corrected]; ring
      rw [e1]
      refine (abs_add_le _ _).trans ?_
      push_cast
      norm_num at rt hn ⊢
      linarith

/-- **C147** Whatever the corrections, the pose of the robot in double precision is the one that following the odometry and adding the corrections
gives: after `N` scans whose steps are at most `L`, in a map that reaches to `B - 1`, each coordinate is off by at most `N (2e-14 L N + 6e-16 B)`, if
that is at most a metre, and the heading by `9e-15 N`. -/
theorem c147_corrected_poses {rd cosD sinD : ℝ → ℝ} (hrd : RoundsToNearest rd) (hlib : Accurate cosD sinD) (odom0 robot0 : Pose2d)
    (os : List (Pose2d × Pose2d)) {L B : ℝ} (hL : 0 ≤ L) (hB : 1 ≤ B) (hN : (os.length : ℝ) ≤ 1e9)
    (hsmall : os.length * (2e-14 * L * os.length + 6e-16 * B) ≤ 1) (ho : |odom0.theta| ≤ 3.5) (hr : |robot0.theta| ≤ 3.5)
    (hrun : Guidable L (B - 1) odom0 robot0 os) :
    let p := track rd cosD sinD odom0 robot0 os
    let q := guided odom0 robot0 os
    |p.x - q.x| ≤ os.length * (2e-14 * L * os.length + 6e-16 * B) ∧ |p.y - q.y| ≤ os.length * (2e-14 * L * os.length + 6e-16 * B) ∧
    ∃ n : ℤ, |p.theta - (q.theta + n * (2 * π))| ≤ 9e-15 * os.length :=
  track_aux hrd hlib hL hB hN rfl hsmall os 0 odom0 robot0 robot0 (by simp) ho hr hrun (by simp) (by simp) ⟨0, by simp⟩

/-- **C147** In particular a hundred thousand scans up to a metre apart, in a map that reaches a kilometre around, are within a millimetre. -/
theorem c147_a_hundred_thousand_scans {rd cosD sinD : ℝ → ℝ} (hrd : RoundsToNearest rd) (hlib : Accurate cosD sinD) (odom0 robot0 : Pose2d)
    (os : List (Pose2d × Pose2d)) (hN : os.length ≤ 100000) (ho : |odom0.theta| ≤ 3.5) (hr : |robot0.theta| ≤ 3.5)
    (hrun : Guidable 1 1000 odom0 robot0 os) :
    let p := track rd cosD sinD odom0 robot0 os
    let q := guided odom0 robot0 os
    |p.x - q.x| ≤ 0.001 ∧ |p.y - q.y| ≤ 0.001 ∧ ∃ n : ℤ, |p.theta - (q.theta + n * (2 * π))| ≤ 1e-9 := by
  have hN' : (os.length : ℝ) ≤ 100000 := by exact_mod_cast hN
  have h0 : (0 : ℝ) ≤ os.length := Nat.cast_nonneg _
  have hb : (os.length : ℝ) * (2e-14 * 1 * os.length + 6e-16 * 1001) ≤ 0.001 := by
    have : (os.length : ℝ) * (2e-14 * 1 * os.length + 6e-16 * 1001) ≤ 100000 * (2e-14 * 1 * 100000 + 6e-16 * 1001) :=
      mul_le_mul hN' (by norm_num; linarith) (by positivity) (by norm_num)
    norm_num at this ⊢
    linarith
  obtain ⟨h1, h2, n, h3⟩ := c147_corrected_poses hrd hlib odom0 robot0 os (L := 1) (B := 1001) (by norm_num) (by norm_num)
    (hN'.trans (by norm_num)) (hb.trans (by norm_num)) ho hr (by norm_num; exact hrun)
  refine ⟨h1.trans hb, h2.trans hb, n, h3.trans ?_⟩
  norm_num
  linarith

/-- **C147** Without corrections this is the run of C114. -/
theorem c147_no_corrections {rd cosD sinD : ℝ → ℝ} (hrd : RoundsToNearest rd) (odom robot : Pose2d) (os : List Pose2d) (hd : os ≠ []) :
    track rd cosD sinD odom robot (os.map fun o => (o, Pose2d.zero)) = deadReckon rd cosD sinD odom robot os ∧
    guided odom robot (os.map fun o => (o, Pose2d.zero)) = follow odom robot (os.getLast hd) := by
  have idem : ∀ x, rd (rd x) = rd x := fun x => hrd.exact (hrd.isDouble x)
  constructor
  · clear hd
    induction os generalizing odom robot with
    | nil => rfl
    | cons o os ih =>
      rw [List.map_cons, track, deadReckon, ih]
      congr 1
      unfold Rounded.addCorrection Rounded.predict Rounded.normalizeAngle
      simp only [Pose2d.zero, zero_add, idem]
      split_ifs <;> simp [idem]
  · induction os generalizing odom robot with
    | nil => exact absurd rfl hd
    | cons o os ih =>
      rw [List.map_cons, guided]
      have e : corrected Pose2d.zero (follow odom robot o) = follow odom robot o := by simp [corrected, Pose2d.zero]
      rw [e]
      by_cases hos : os = []
      · subst hos; rfl
      · rw [ih o _ hos, List.getLast_cons hos]
        have a1 : robot.theta + (o.theta - odom.theta) - o.theta = robot.theta - odom.theta := by ring
        have a2 : ∀ z : Pose2d, follow o (follow odom robot o) z = follow odom robot z := by
          intro z
          simp only [follow, a1, Pose2d.mk.injEq]
          refine ⟨by ring, by ring, by ring⟩
        rw [a2]

theorem guidable_end {L B : ℝ} {os : List (Pose2d × Pose2d)} : ∀ {odom robot : Pose2d}, Guidable L B odom robot os →
    |(guided odom robot os).x| ≤ B ∧ |(guided odom robot os).y| ≤ B := by
  induction os with
  | nil => exact fun h => h
  | cons a os ih => exact fun h => ih h.2.2.2.2

/-- **C147** Hence the points of the scan are drawn where the laser sees them from that pose, up to an eighth of a centimetre: the robot stands at `o`
while it scans, beams of up to a hundred metres; both mountings. -/
theorem c147_points_in_the_map {rd rf co si : ℝ → ℝ} (hrd : RoundsToNearest rd) (hrf : RoundsToFloat rf) (hlib : Accurate co si)
    (odom0 robot0 : Pose2d) (os : List (Pose2d × Pose2d)) (hN : os.length ≤ 100000) (ho : |odom0.theta| ≤ 3.5) (hr0 : |robot0.theta| ≤ 3.5)
    (hrun : Guidable 1 1000 odom0 robot0 os) (o : Pose2d) (msg : LaserMsg) (lt : Pose2d) {i : ℕ} {r : ℝ} (hi : i < msg.ranges.length)
    (hn : msg.ranges.length < 2 ^ 24) (hr : |r| ≤ 100) (hx : |lt.x| ≤ 10) (hy : |lt.y| ≤ 10) (hs : |i * msg.angleIncrement| ≤ 6.3)
    (ha : |msg.angleMin + i * msg.angleIncrement| ≤ 3.2) :
    let p := track rd co si odom0 robot0 os
    let q := guided odom0 robot0 os
    let angle := msg.angleMin + i * msg.angleIncrement
    (|(worldPoint rd co si p (Rounded.forwardPoint rd rf co si msg lt o o i r)).x - (seenBy q lt angle r).x| ≤ 0.00121 ∧
      |(worldPoint rd co si p (Rounded.forwardPoint rd rf co si msg lt o o i r)).y - (seenBy q lt angle r).y| ≤ 0.00121) ∧
    (|(worldPoint rd co si p (Rounded.invertedPoint rd rf co si msg lt o o i r)).x - (seenBy q lt (-angle) r).x| ≤ 0.00121 ∧
      |(worldPoint rd co si p (Rounded.invertedPoint rd rf co si msg lt o o i r)).y - (seenBy q lt (-angle) r).y| ≤ 0.00121) := by
  intro p q angle
  obtain ⟨d1, d2, d3⟩ := c147_a_hundred_thousand_scans hrd hlib odom0 robot0 os hN ho hr0 hrun
  obtain ⟨f1, f2⟩ := guidable_end hrun
  obtain ⟨⟨a, ha1, ha2, ha3⟩, b, hb1, hb2, hb3⟩ := c121_points_of_a_message hrd hrf hlib msg lt o o (r := r) (M := 100) hi hn (by norm_num) hr
    (hx.trans (by norm_num)) (hy.trans (by norm_num)) (by simp) (by simp) (by simp) hs ha
  rw [isPoint_inj ha1 (c48_projection_at_rest msg lt o i r)] at ha2 ha3
  rw [isPoint_inj hb1 (c48_projection_at_rest_inverted msg lt o i r)] at hb2 hb3
  have fin : |r| * 1e-6 + 6e-14 * 100 ≤ 1.0001e-4 := by norm_num at hr ⊢; linarith
  have size : ∀ t, |(move lt (polar t r)).x| ≤ 300 ∧ |(move lt (polar t r)).y| ≤ 300 := by
    intro t
    obtain ⟨s1, s2⟩ := polar_le (angle := t) hr
    obtain ⟨m1, m2⟩ := move_le s1 s2 hx hy
    exact ⟨m1.trans (by norm_num), m2.trans (by norm_num)⟩
  -- following a pose from itself is that pose
  have self : follow o q o = q := by
    obtain ⟨qx, qy, qt⟩ := q
    simp [follow]
  have place : ∀ b : Point, placeInMap o q (move o b) = move q b := by
    intro b
    rw [← follow_sees o q o b 0, self]
    simp
  have := seen_near hrd hlib (odom0 := o) (robot0 := q) (o := o) (p := p) (by rw [self]; exact d1) (by rw [self]; exact d2) (by rw [self]; exact d3)
    (by rw [self]; exact f1) (by rw [self]; exact f2) (size _).1 (size _).2 (ha2.trans fin) (ha3.trans fin)
  have that := seen_near hrd hlib (odom0 := o) (robot0 := q) (o := o) (p := p) (by rw [self]; exact d1) (by rw [self]; exact d2) (by rw [self]; exact d3)
    (by rw [self]; exact f1) (by rw [self]; exact f2) (size _).1 (size _).2 (hb2.trans fin) (hb3.trans fin)
  rw [place] at this that
  exact ⟨this, that⟩

/-- Three scans along a straight line that are corrected sideways and in heading. -/
example : let p := track rnd cos sin ⟨0, 0, 0⟩ ⟨5, 6, 0⟩ [(⟨0.5, 0, 0⟩, ⟨0.05, 0.1, 0⟩), (⟨1, 0, 0⟩, ⟨0, -0.1, 0⟩), (⟨1, 0, 0.2⟩, ⟨0, 0, 0.05⟩)]
    |p.x - 6.05| ≤ 0.001 ∧ |p.y - 6| ≤ 0.001 ∧ ∃ n : ℤ, |p.theta - (0.25 + n * (2 * π))| ≤ 1e-9 := by
  have h := c147_a_hundred_thousand_scans rnd_rounds (cosD := cos) (sinD := sin) ⟨fun a => by simp, fun a => by simp⟩ ⟨0, 0, 0⟩ ⟨5, 6, 0⟩
    [(⟨0.5, 0, 0⟩, ⟨0.05, 0.1, 0⟩), (⟨1, 0, 0⟩, ⟨0, -0.1, 0⟩), (⟨1, 0, 0.2⟩, ⟨0, 0, 0.05⟩)] (by simp) (by norm_num) (by norm_num)
    (by simp only [Guidable, follow, corrected]; norm_num [abs_of_pos])
  norm_num [guided, follow, corrected] at h ⊢
  exact h

end

end Ndt
