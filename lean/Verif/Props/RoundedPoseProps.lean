import Verif.Proof.RoundedPose
import Verif.Props.SingleProps

/-! # C114: dead reckoning in double precision -/

namespace Ndt

noncomputable section

open Real Spec Rounded

/-- One step, from a state whose heading is off by `H`. -/
theorem predict_near {rd cosD sinD : ℝ → ℝ} (hrd : RoundsToNearest rd) (hlib : Accurate cosD sinD) {odom robot o : Pose2d}
    {h H L B : ℝ} (ho : |odom.theta| ≤ 3.5) (hr : |robot.theta| ≤ 3.5) (ho' : |o.theta| ≤ 3.5)
    (hH : ∃ n : ℤ, |robot.theta - odom.theta - (h + n * (2 * π))| ≤ H) (hH1 : H ≤ 1 / 2)
    (hx : |o.x - odom.x| ≤ L) (hy : |o.y - odom.y| ≤ L) (hbx : |robot.x| ≤ B) (hby : |robot.y| ≤ B) (hB : 1 ≤ B) :
    let p := predict rd cosD sinD odom robot o
    |p.x - (robot.x + (o.x - odom.x) * cos h - (o.y - odom.y) * sin h)| ≤ 2 * L * (H + 5e-15) + 4e-16 * B ∧
    |p.y - (robot.y + (o.x - odom.x) * sin h + (o.y - odom.y) * cos h)| ≤ 2 * L * (H + 5e-15) + 4e-16 * B ∧
    |p.theta| ≤ 3.15 ∧ ∃ n : ℤ, |p.theta - o.theta - (h + n * (2 * π))| ≤ H + 8e-15 := by
  intro p
  obtain ⟨n0, hn0⟩ := hH
  have hH0 : 0 ≤ H := (abs_nonneg _).trans hn0
  have hL : 0 ≤ L := (abs_nonneg _).trans hx
  obtain ⟨-, n1, hn1⟩ := shortest_near hrd ho hr
  obtain ⟨hd, n2, hn2⟩ := shortest_near hrd ho ho'
  set heading := Rounded.shortestAngularDistance rd odom.theta robot.theta with hhead
  set dth := Rounded.shortestAngularDistance rd odom.theta o.theta with hdth
  -- the heading is that of `h` up to full turns
  have hh : |heading - (h + ((n0 + n1 : ℤ) : ℝ) * (2 * π))| ≤ H + 4e-15 := by
    have e : heading - (h + ((n0 + n1 : ℤ) : ℝ) * (2 * π)) =
        (heading - (robot.theta - odom.theta + n1 * (2 * π))) + (robot.theta - odom.theta - (h + n0 * (2 * π))) := by
      push_cast; ring
    rw [e]
    refine (abs_add_le _ _).trans ?_
    linarith
  have hc : |cosD heading - cos h| ≤ H + 4.3e-15 := by
    have h1 := cos_diff_le heading (h + ((n0 + n1 : ℤ) : ℝ) * (2 * π))
    rw [cos_add_int_mul_two_pi] at h1
    have h2 := abs_sub_le (cosD heading) (cos heading) (cos h)
    have h3 := hlib.cos heading
    norm_num at h1 h3 hh ⊢
    linarith
  have hs : |sinD heading - sin h| ≤ H + 4.3e-15 := by
    have h1 := sin_diff_le heading (h + ((n0 + n1 : ℤ) : ℝ) * (2 * π))
    rw [sin_add_int_mul_two_pi] at h1
    have h2 := abs_sub_le (sinD heading) (sin heading) (sin h)
    have h3 := hlib.sin heading
    norm_num at h1 h3 hh ⊢
    linarith
  have hc1 : |cosD heading| ≤ 1.01 := by
    have h1 := abs_sub_abs_le_abs_sub (cosD heading) (cos heading)
    have h3 := hlib.cos heading
    have h4 := abs_cos_le_one heading
    norm_num at h3 ⊢
    linarith
  have hs1 : |sinD heading| ≤ 1.01 := by
    have h1 := abs_sub_abs_le_abs_sub (sinD heading) (sin heading)
    have h3 := hlib.sin heading
    have h4 := abs_sin_le_one heading
    norm_num at h3 ⊢
    linarith
  have t1 := product_near hrd hx (abs_cos_le_one h) hc1 hc
  have t2 := product_near hrd hy (abs_sin_le_one h) hs1 hs
  have t3 := product_near hrd hx (abs_sin_le_one h) hs1 hs
  have t4 := product_near hrd hy (abs_cos_le_one h) hc1 hc
  have hδ : L * (H + 4.3e-15 + 3e-16) + 4e-30 ≤ L + 1e-28 := by
    have : L * (H + 4.3e-15 + 3e-16) ≤ L * 1 := mul_le_mul_of_nonneg_left (by norm_num; linarith) hL
    norm_num at this ⊢
    linarith
  have g : ∀ D c : ℝ, |D| ≤ L → |c| ≤ 1 → |D * c| ≤ L := by
    intro D c h1 h2
    rw [abs_mul]
    have := mul_le_mul h1 h2 (abs_nonneg _) hL
    linarith
  have fin : 2 * (L * (H + 4.3e-15 + 3e-16) + 4e-30) + 3e-16 * B + 8e-16 * L + 1e-29 ≤ 2 * L * (H + 5e-15) + 4e-16 * B := by
    norm_num
    linarith
  refine ⟨?_, ?_, ?_⟩
  · have t2' : |-rd (rd (o.y - odom.y) * sinD heading) - -((o.y - odom.y) * sin h)| ≤
        L * (H + 4.3e-15 + 3e-16) + 4e-30 := by
      rw [neg_sub_neg, abs_sub_comm]; exact t2
    have := sum_near hrd hbx t1 t2' (g _ _ hx (abs_cos_le_one h)) (by rw [abs_neg]; exact g _ _ hy (abs_sin_le_one h)) hδ
    exact this.trans fin
  · have := sum_near hrd hby t3 t4 (g _ _ hx (abs_sin_le_one h)) (g _ _ hy (abs_cos_le_one h)) hδ
    exact this.trans fin
  · have hr' := abs_le.mp hr
    have hd' := abs_le.mp hd
    have h1 := rd_near hrd (x := robot.theta + dth) (X := 6.65) (by
      rw [abs_le]; norm_num at hr' hd' ⊢; constructor <;> linarith [hr'.1, hr'.2, hd'.1, hd'.2])
    have h1' := abs_le.mp h1
    obtain ⟨h2, n3, hn3⟩ := normalizeAngle_near hrd (a := rd (robot.theta + dth)) (by
      rw [abs_le]; norm_num at h1' hr' hd' ⊢; constructor <;> linarith [h1'.1, h1'.2, hr'.1, hr'.2, hd'.1, hd'.2])
    refine ⟨h2, n0 + n2 + n3, ?_⟩
    have e : p.theta - o.theta - (h + ((n0 + n2 + n3 : ℤ) : ℝ) * (2 * π)) =
        (p.theta - (rd (robot.theta + dth) + n3 * (2 * π))) + (rd (robot.theta + dth) - (robot.theta + dth))
        + (dth - (o.theta - odom.theta + n2 * (2 * π))) + (robot.theta - odom.theta - (h + n0 * (2 * π))) := by
      push_cast; ring
    have hp : |p.theta - (rd (robot.theta + dth) + n3 * (2 * π))| ≤ 3e-15 := hn3
    rw [e]
    have d1 := abs_add_le (p.theta - (rd (robot.theta + dth) + n3 * (2 * π)) + (rd (robot.theta + dth) - (robot.theta + dth))
        + (dth - (o.theta - odom.theta + n2 * (2 * π)))) (robot.theta - odom.theta - (h + n0 * (2 * π)))
    have d2 := abs_add_le (p.theta - (rd (robot.theta + dth) + n3 * (2 * π)) + (rd (robot.theta + dth) - (robot.theta + dth)))
        (dth - (o.theta - odom.theta + n2 * (2 * π)))
    have d3 := abs_add_le (p.theta - (rd (robot.theta + dth) + n3 * (2 * π))) (rd (robot.theta + dth) - (robot.theta + dth))
    norm_num at h1 hn2 hp ⊢
    linarith

theorem deadReckon_aux {rd cosD sinD : ℝ → ℝ} (hrd : RoundsToNearest rd) (hlib : Accurate cosD sinD) {odom0 robot0 : Pose2d}
    {L B : ℝ} (hL : 0 ≤ L) (hB : 1 ≤ B) {N : ℕ} (hN : (N : ℝ) ≤ 1e9) {e : ℝ} (he : e = 2e-14 * L * N + 4e-16 * B)
    (hsmall : N * e ≤ 1) :
    ∀ (os : List Pose2d) (k : ℕ) (odom robot : Pose2d), k + os.length = N →
      |odom.theta| ≤ 3.5 → |robot.theta| ≤ 3.5 → (∀ o ∈ os, |o.theta| ≤ 3.5) → Steps L odom os →
      (∀ o ∈ odom :: os, |(follow odom0 robot0 o).x| ≤ B - 1 ∧ |(follow odom0 robot0 o).y| ≤ B - 1) →
      |robot.x - (follow odom0 robot0 odom).x| ≤ k * e → |robot.y - (follow odom0 robot0 odom).y| ≤ k * e →
      (∃ n : ℤ, |robot.theta - odom.theta - (robot0.theta - odom0.theta + n * (2 * π))| ≤ 8e-15 * k) →
      let p := deadReckon rd cosD sinD odom robot os
      let q := follow odom0 robot0 ((odom :: os).getLast (by simp))
      |p.x - q.x| ≤ N * e ∧ |p.y - q.y| ≤ N * e ∧ ∃ n : ℤ, |p.theta - (q.theta + n * (2 * π))| ≤ 8e-15 * N := by
  intro os
  induction os with
  | nil =>
    intro k odom robot hk _ _ _ _ _ hx hy hth
    have hk' : k = N := by simpa using hk
    subst hk'
    simp only [deadReckon, List.getLast_singleton]
    refine ⟨hx, hy, ?_⟩
    obtain ⟨n, hn⟩ := hth
    refine ⟨n, ?_⟩
    have : robot.theta - ((follow odom0 robot0 odom).theta + n * (2 * π)) =
        robot.theta - odom.theta - (robot0.theta - odom0.theta + n * (2 * π)) := by
      simp only [follow]; ring
    rw [this]; exact hn
  | cons o os ih =>
    intro k odom robot hk ho hr hos hst hall hx hy hth
    obtain ⟨s1, s2, s3⟩ := hst
    have hkN : ((k : ℝ) + 1) ≤ N := by
      have : k + 1 ≤ N := by simp at hk; omega
      exact_mod_cast this
    have hk0 : (0 : ℝ) ≤ k := Nat.cast_nonneg k
    have he0 : 0 ≤ e := by rw [he]; positivity
    have hke : k * e ≤ 1 := (mul_le_mul_of_nonneg_right (by linarith) he0).trans hsmall
    obtain ⟨f1, f2⟩ := hall odom (by simp)
    have hbx : |robot.x| ≤ B := by
      have := abs_sub_abs_le_abs_sub robot.x (follow odom0 robot0 odom).x
      linarith
    have hby : |robot.y| ≤ B := by
      have := abs_sub_abs_le_abs_sub robot.y (follow odom0 robot0 odom).y
      linarith
    obtain ⟨p1, p2, p3, p4⟩ := predict_near hrd hlib ho hr (hos o (by simp)) hth
      (by
        have h1 : (k : ℝ) ≤ 1e9 := by linarith
        have h2 : (8e-15 : ℝ) * k ≤ 8e-15 * 1e9 := mul_le_mul_of_nonneg_left h1 (by norm_num)
        exact h2.trans (by norm_num)) s1 s2 hbx hby hB
    have hstep : 2 * L * (8e-15 * k + 5e-15) + 4e-16 * B ≤ e := by
      rw [he]
      have h1 : L * (k + 1) ≤ L * N := mul_le_mul_of_nonneg_left hkN hL
      have h2 : 0 ≤ L * k := mul_nonneg hL hk0
      norm_num
      linarith
    have := ih (k + 1) o (predict rd cosD sinD odom robot o) (by simp at hk; omega) (hos o (by simp)) (p3.trans (by norm_num))
      (fun o' ho' => hos o' (by simp [ho'])) s3 (fun o' ho' => hall o' (by simp at ho'; simp [ho'])) ?_ ?_ ?_
    · simpa only [deadReckon, List.getLast_cons_cons] using this
    · have e1 : (predict rd cosD sinD odom robot o).x - (follow odom0 robot0 o).x =
          ((predict rd cosD sinD odom robot o).x - (robot.x + (o.x - odom.x) * cos (robot0.theta - odom0.theta)
            - (o.y - odom.y) * sin (robot0.theta - odom0.theta))) + (robot.x - (follow odom0 robot0 odom).x) := by
        simp only [follow]; ring
      rw [e1]
      refine (abs_add_le _ _).trans ?_
      push_cast
      linarith
    · have e1 : (predict rd cosD sinD odom robot o).y - (follow odom0 robot0 o).y =
          ((predict rd cosD sinD odom robot o).y - (robot.y + (o.x - odom.x) * sin (robot0.theta - odom0.theta)
            + (o.y - odom.y) * cos (robot0.theta - odom0.theta))) + (robot.y - (follow odom0 robot0 odom).y) := by
        simp only [follow]; ring
      rw [e1]
      refine (abs_add_le _ _).trans ?_
      push_cast
      linarith
    · obtain ⟨n, hn⟩ := p4
      refine ⟨n, hn.trans (le_of_eq ?_)⟩
      push_cast; ring

/-- **C114** Without corrections of the matcher the robot follows its odometry, moved rigidly, in double precision as
well: after `N` scans (up to a thousand million) whose steps are at most `L`, in a map that reaches to `B - 1`, each
coordinate is off by at most `N (2e-14 L N + 4e-16 B)`, if that is at most a metre, and the heading by `8e-15 N`. -/
theorem c114_dead_reckoning {rd cosD sinD : ℝ → ℝ} (hrd : RoundsToNearest rd) (hlib : Accurate cosD sinD)
    (odom0 robot0 : Pose2d) (os : List Pose2d) {L B : ℝ} (hL : 0 ≤ L) (hB : 1 ≤ B) (hN : (os.length : ℝ) ≤ 1e9)
    (hsmall : os.length * (2e-14 * L * os.length + 4e-16 * B) ≤ 1)
    (hr : |robot0.theta| ≤ 3.5) (ho : ∀ o ∈ odom0 :: os, |o.theta| ≤ 3.5) (hsteps : Steps L odom0 os)
    (hsize : ∀ o ∈ odom0 :: os, |(follow odom0 robot0 o).x| ≤ B - 1 ∧ |(follow odom0 robot0 o).y| ≤ B - 1) :
    let p := deadReckon rd cosD sinD odom0 robot0 os
    let q := follow odom0 robot0 ((odom0 :: os).getLast (by simp))
    |p.x - q.x| ≤ os.length * (2e-14 * L * os.length + 4e-16 * B) ∧
    |p.y - q.y| ≤ os.length * (2e-14 * L * os.length + 4e-16 * B) ∧
    ∃ n : ℤ, |p.theta - (q.theta + n * (2 * π))| ≤ 8e-15 * os.length :=
  deadReckon_aux hrd hlib hL hB hN rfl hsmall os 0 odom0 robot0 (by simp) (ho odom0 (by simp)) hr
    (fun o h => ho o (by simp [h])) hsteps hsize (by simp [follow]) (by simp [follow]) ⟨0, by simp⟩

/-- **C114** In particular a hundred thousand scans up to a metre apart, in a map that reaches a kilometre around, are
within a millimetre. -/
theorem c114_a_hundred_thousand_scans {rd cosD sinD : ℝ → ℝ} (hrd : RoundsToNearest rd) (hlib : Accurate cosD sinD)
    (odom0 robot0 : Pose2d) (os : List Pose2d) (hN : os.length ≤ 100000)
    (hr : |robot0.theta| ≤ 3.5) (ho : ∀ o ∈ odom0 :: os, |o.theta| ≤ 3.5) (hsteps : Steps 1 odom0 os)
    (hsize : ∀ o ∈ odom0 :: os, |(follow odom0 robot0 o).x| ≤ 1000 ∧ |(follow odom0 robot0 o).y| ≤ 1000) :
    let p := deadReckon rd cosD sinD odom0 robot0 os
    let q := follow odom0 robot0 ((odom0 :: os).getLast (by simp))
    |p.x - q.x| ≤ 0.001 ∧ |p.y - q.y| ≤ 0.001 ∧ ∃ n : ℤ, |p.theta - (q.theta + n * (2 * π))| ≤ 1e-9 := by
  have hN' : (os.length : ℝ) ≤ 100000 := by exact_mod_cast hN
  have h0 : (0 : ℝ) ≤ os.length := Nat.cast_nonneg _
  have hb : (os.length : ℝ) * (2e-14 * 1 * os.length + 4e-16 * 1001) ≤ 0.001 := by
    have : (os.length : ℝ) * (2e-14 * 1 * os.length + 4e-16 * 1001) ≤ 100000 * (2e-14 * 1 * 100000 + 4e-16 * 1001) :=
      mul_le_mul hN' (by norm_num; linarith) (by positivity) (by norm_num)
    norm_num at this ⊢
    linarith
  obtain ⟨h1, h2, n, h3⟩ := c114_dead_reckoning hrd hlib odom0 robot0 os (L := 1) (B := 1001) (by norm_num) (by norm_num)
    (hN'.trans (by norm_num)) (hb.trans (by norm_num)) hr ho hsteps (fun o h => by
      have := hsize o h; norm_num; exact this)
  refine ⟨h1.trans hb, h2.trans hb, n, h3.trans ?_⟩
  norm_num
  linarith

/-- The exact functions are accurate, and rounding is what IEEE-754 says: three scans along a straight line. -/
example : let p := deadReckon rnd cos sin ⟨0, 0, 0⟩ ⟨5, 6, 1⟩ [⟨0.5, 0, 0⟩, ⟨1, 0, 0⟩, ⟨1.5, 0.1, 0.2⟩]
    |p.x - (5 + 1.5 * cos 1 - 0.1 * sin 1)| ≤ 0.001 := by
  intro p
  have hc := abs_le.mp (abs_cos_le_one 1)
  have hs := abs_le.mp (abs_sin_le_one 1)
  have := (c114_a_hundred_thousand_scans rnd_rounds (cosD := cos) (sinD := sin)
    ⟨fun a => by simp, fun a => by simp⟩ ⟨0, 0, 0⟩ ⟨5, 6, 1⟩
    [⟨0.5, 0, 0⟩, ⟨1, 0, 0⟩, ⟨1.5, 0.1, 0.2⟩] (by simp) (by norm_num [abs_of_pos])
    (by intro o h; simp at h; rcases h with rfl | rfl | rfl | rfl <;> norm_num [abs_of_pos])
    (by simp only [Steps]; norm_num [abs_of_pos])
    (by
      intro o h
      simp at h
      rcases h with rfl | rfl | rfl | rfl <;> simp only [follow, abs_le] <;> norm_num <;>
        refine ⟨⟨?_, ?_⟩, ?_, ?_⟩ <;> linarith [hc.1, hc.2, hs.1, hs.2])).1
  simpa [follow] using this

end

end Ndt
