import Verif.Spec.RoundedWorld
import Verif.Props.RoundedPointsProps
import Verif.Props.RoundedPoseProps
import Verif.Props.RoundedEndsProps
import Verif.Props.LaserProps

/-! # Property C145: in double precision the map is the world -/

namespace Ndt

open Real Rounded Spec

noncomputable section

/-- What a robot that followed its odometry sees is the world moved rigidly. -/
theorem follow_sees (odom0 robot0 o : Pose2d) (q : Point) (n : ℤ) :
    move ⟨(follow odom0 robot0 o).x, (follow odom0 robot0 o).y, (follow odom0 robot0 o).theta + n * (2 * π)⟩ q = placeInMap odom0 robot0 (move o q) := by
  have e : robot0.theta + (o.theta - odom0.theta) = (robot0.theta - odom0.theta) + o.theta := by ring
  unfold move placeInMap follow
  simp only [cos_add_int_mul_two_pi, sin_add_int_mul_two_pi, e, Point.mk.injEq]
  simp only [cos_add, sin_add]
  constructor <;> ring

/-- The world is moved rigidly: distances stay. -/
theorem placeInMap_dist (odom0 robot0 : Pose2d) (a b : Point) : Spec.dist (placeInMap odom0 robot0 a) (placeInMap odom0 robot0 b) = Spec.dist a b := by
  unfold Spec.dist placeInMap
  congr 1
  have := sin_sq_add_cos_sq (robot0.theta - odom0.theta)
  simp only
  linear_combination ((a.x - b.x) ^ 2 + (a.y - b.y) ^ 2) * this

/-- A point of a scan, taken from a pose that is off a little, is in the map where the world is. -/
theorem seen_near {rd co si : ℝ → ℝ} (hrd : RoundsToNearest rd) (hlib : Accurate co si) {odom0 robot0 o p : Pose2d} {q b : Point}
    (hpx : |p.x - (follow odom0 robot0 o).x| ≤ 0.001) (hpy : |p.y - (follow odom0 robot0 o).y| ≤ 0.001)
    (hth : ∃ n : ℤ, |p.theta - ((follow odom0 robot0 o).theta + n * (2 * π))| ≤ 1e-9) (hfx : |(follow odom0 robot0 o).x| ≤ 1000)
    (hfy : |(follow odom0 robot0 o).y| ≤ 1000) (hbx : |b.x| ≤ 300) (hby : |b.y| ≤ 300) (hqx : |q.x - b.x| ≤ 1.0001e-4) (hqy : |q.y - b.y| ≤ 1.0001e-4) :
    |(worldPoint rd co si p q).x - (placeInMap odom0 robot0 (move o b)).x| ≤ 0.00121 ∧
    |(worldPoint rd co si p q).y - (placeInMap odom0 robot0 (move o b)).y| ≤ 0.00121 := by
  obtain ⟨n, hn⟩ := hth
  rw [← follow_sees odom0 robot0 o b n]
  have h := worldPoint_near hrd hlib (m := p) (m' := ⟨(follow odom0 robot0 o).x, (follow odom0 robot0 o).y, (follow odom0 robot0 o).theta + n * (2 * π)⟩)
    (p := q) (q := b) (P := 300) (T := 1000) (H := 1e-9) (δ := 1.0001e-4) (δt := 0.001) hqx hqy hbx hby hpx hpy hfx hfy hn (by norm_num) (by norm_num)
    (by norm_num)
  refine ⟨h.1.trans ?_, h.2.trans ?_⟩ <;> norm_num

theorem polar_le {angle r R : ℝ} (h : |r| ≤ R) : |(polar angle r).x| ≤ R ∧ |(polar angle r).y| ≤ R := by
  unfold polar
  simp only [abs_mul]
  have hr := abs_nonneg r
  constructor
  · have := mul_le_mul_of_nonneg_left (abs_cos_le_one angle) hr; linarith
  · have := mul_le_mul_of_nonneg_left (abs_sin_le_one angle) hr; linarith

theorem isPoint_inj {f : FPoint} {p q : Point} (h1 : IsPoint f p) (h2 : IsPoint f q) : p = q := by
  unfold IsPoint at h1 h2
  rw [h1] at h2
  simp only [Prod.mk.injEq, Fl.fin.injEq] at h2
  exact Point.ext h2.1 h2.2

/-- **C145** Odometry, prediction, projection of beams and drawing in doubles and floats, all together: when the odometry of a robot is right, it
stands while it scans and no correction is made, an obstacle that is seen is in the map where it is in the world, up to an eighth of a centimetre. For a
hundred thousand scans up to a metre apart, in a map that reaches a kilometre around, with beams of up to a hundred metres; both mountings. -/
theorem c145_obstacles_in_the_map {rd rf co si : ℝ → ℝ} (hrd : RoundsToNearest rd) (hrf : RoundsToFloat rf) (hlib : Accurate co si)
    (odom0 robot0 : Pose2d) (os : List Pose2d) (hN : os.length ≤ 100000) (hr0 : |robot0.theta| ≤ 3.5) (ho : ∀ o ∈ odom0 :: os, |o.theta| ≤ 3.5)
    (hsteps : Steps 1 odom0 os) (hsize : ∀ o ∈ odom0 :: os, |(follow odom0 robot0 o).x| ≤ 1000 ∧ |(follow odom0 robot0 o).y| ≤ 1000)
    (msg : LaserMsg) (lt : Pose2d) {i : ℕ} {r : ℝ} (hi : i < msg.ranges.length) (hn : msg.ranges.length < 2 ^ 24) (hr : |r| ≤ 100) (hx : |lt.x| ≤ 10)
    (hy : |lt.y| ≤ 10) (hs : |i * msg.angleIncrement| ≤ 6.3) (ha : |msg.angleMin + i * msg.angleIncrement| ≤ 3.2) :
    let o := (odom0 :: os).getLast (by simp)
    let p := deadReckon rd co si odom0 robot0 os
    let angle := msg.angleMin + i * msg.angleIncrement
    (|(worldPoint rd co si p (Rounded.forwardPoint rd rf co si msg lt o o i r)).x - (placeInMap odom0 robot0 (seenBy o lt angle r)).x| ≤ 0.00121 ∧
      |(worldPoint rd co si p (Rounded.forwardPoint rd rf co si msg lt o o i r)).y - (placeInMap odom0 robot0 (seenBy o lt angle r)).y| ≤ 0.00121) ∧
    (|(worldPoint rd co si p (Rounded.invertedPoint rd rf co si msg lt o o i r)).x - (placeInMap odom0 robot0 (seenBy o lt (-angle) r)).x| ≤ 0.00121 ∧
      |(worldPoint rd co si p (Rounded.invertedPoint rd rf co si msg lt o o i r)).y - (placeInMap odom0 robot0 (seenBy o lt (-angle) r)).y| ≤ 0.00121) := by
  intro o p angle
  obtain ⟨d1, d2, d3⟩ := c114_a_hundred_thousand_scans hrd hlib odom0 robot0 os hN hr0 ho hsteps hsize
  obtain ⟨f1, f2⟩ := hsize o (List.getLast_mem _)
  obtain ⟨⟨a, ha1, ha2, ha3⟩, b, hb1, hb2, hb3⟩ := c121_points_of_a_message hrd hrf hlib msg lt o o (r := r) (M := 100) hi hn (by norm_num) hr
    (hx.trans (by norm_num)) (hy.trans (by norm_num)) (by simp) (by simp) (by simp) hs ha
  rw [isPoint_inj ha1 (c48_projection_at_rest msg lt o i r)] at ha2 ha3
  rw [isPoint_inj hb1 (c48_projection_at_rest_inverted msg lt o i r)] at hb2 hb3
  have fin : |r| * 1e-6 + 6e-14 * 100 ≤ 1.0001e-4 := by norm_num at hr ⊢; linarith
  have size : ∀ t, |(move lt (polar t r)).x| ≤ 300 ∧ |(move lt (polar t r)).y| ≤ 300 := by
    intro t
    obtain ⟨s1, s2⟩ := polar_le (angle := t) hr
    obtain ⟨m1, m2⟩ := move_le s1 s2 hx hy
    exact ⟨m1.trans (by norm_num), m2.trans (by norm_num)⟩
  exact ⟨seen_near hrd hlib d1 d2 d3 f1 f2 (size _).1 (size _).2 (ha2.trans fin) (ha3.trans fin),
    seen_near hrd hlib d1 d2 d3 f1 f2 (size _).1 (size _).2 (hb2.trans fin) (hb3.trans fin)⟩

/-- **C145** Hence the distance of two points of the map that are as close to the world as that is the distance in the world up to five millimetres,
and an obstacle that is seen twice is drawn twice at the same place up to three millimetres. -/
theorem c145_distances {odom0 robot0 : Pose2d} {a b v w : Point} (hax : |a.x - (placeInMap odom0 robot0 v).x| ≤ 0.00121)
    (hay : |a.y - (placeInMap odom0 robot0 v).y| ≤ 0.00121) (hbx : |b.x - (placeInMap odom0 robot0 w).x| ≤ 0.00121)
    (hby : |b.y - (placeInMap odom0 robot0 w).y| ≤ 0.00121) :
    |Spec.dist a b - Spec.dist v w| ≤ 0.005 ∧ (v = w → |a.x - b.x| ≤ 0.003 ∧ |a.y - b.y| ≤ 0.003) := by
  constructor
  · rw [← placeInMap_dist odom0 robot0 v w]
    have key : ∀ p q : Point, Spec.dist p q = ‖(⟨p.x - q.x, p.y - q.y⟩ : ℂ)‖ := fun p q => by rw [norm_mk]; rfl
    rw [key, key]
    refine (abs_norm_sub_norm_le _ _).trans ((Complex.norm_le_abs_re_add_abs_im _).trans ?_)
    simp only [Complex.sub_re, Complex.sub_im]
    have hax' := abs_le.mp hax
    have hay' := abs_le.mp hay
    have hbx' := abs_le.mp hbx
    have hby' := abs_le.mp hby
    have t1 : |a.x - b.x - ((placeInMap odom0 robot0 v).x - (placeInMap odom0 robot0 w).x)| ≤ 0.00242 := by
      rw [abs_le]; constructor <;> linarith [hax'.1, hax'.2, hbx'.1, hbx'.2]
    have t2 : |a.y - b.y - ((placeInMap odom0 robot0 v).y - (placeInMap odom0 robot0 w).y)| ≤ 0.00242 := by
      rw [abs_le]; constructor <;> linarith [hay'.1, hay'.2, hby'.1, hby'.2]
    linarith
  · rintro rfl
    have hax' := abs_le.mp hax
    have hay' := abs_le.mp hay
    have hbx' := abs_le.mp hbx
    have hby' := abs_le.mp hby
    rw [abs_le, abs_le]
    refine ⟨⟨?_, ?_⟩, ?_, ?_⟩ <;> linarith [hax'.1, hax'.2, hbx'.1, hbx'.2, hay'.1, hay'.2, hby'.1, hby'.2]

/-- Two scans of a robot that starts at (5, 6) in the map: the obstacle 10 m ahead of where it looks at last. -/
example : let p := deadReckon rnd Demo.cosR Demo.sinR ⟨0, 0, 0⟩ ⟨5, 6, 0⟩ [⟨0.5, 0, 0⟩, ⟨1, 0.5, 0⟩]
    let m := worldPoint rnd Demo.cosR Demo.sinR p
      (Rounded.forwardPoint rnd rndF Demo.cosR Demo.sinR ⟨0, 0.1, .fin 30, [.fin 10, .fin 9]⟩ ⟨0.25, 0, 0⟩ ⟨1, 0.5, 0⟩ ⟨1, 0.5, 0⟩ 0 10)
    |m.x - 16.25| ≤ 0.00121 ∧ |m.y - 6.5| ≤ 0.00121 := by
  have h := (c145_obstacles_in_the_map rnd_rounds rndF_rounds accurate_demo ⟨0, 0, 0⟩ ⟨5, 6, 0⟩ [⟨0.5, 0, 0⟩, ⟨1, 0.5, 0⟩] (by simp) (by norm_num)
    (by intro o h; simp at h; rcases h with rfl | rfl | rfl <;> norm_num) (by simp only [Steps]; norm_num [abs_of_pos])
    (by intro o h; simp at h; rcases h with rfl | rfl | rfl <;> norm_num [follow, abs_of_pos])
    ⟨0, 0.1, .fin 30, [.fin 10, .fin 9]⟩ ⟨0.25, 0, 0⟩ (i := 0) (r := 10) (by simp) (by simp) (by norm_num [abs_of_pos]) (by norm_num [abs_of_pos]) (by norm_num)
    (by norm_num) (by norm_num)).1
  have e : placeInMap ⟨0, 0, 0⟩ ⟨5, 6, 0⟩ (seenBy ⟨1, 0.5, 0⟩ ⟨0.25, 0, 0⟩ (0 + ((0 : ℕ) : ℝ) * 0.1) 10) = ⟨16.25, 6.5⟩ := by
    norm_num [placeInMap, seenBy, move, polar]
  simp only [List.getLast_cons_cons, List.getLast_singleton] at h
  rw [e] at h
  exact h

end

end Ndt
