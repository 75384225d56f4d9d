import Verif.Model.RoundedControl
import Verif.Props.RoundedPointsProps
import Verif.Props.RoundedMotionProps
import Verif.Props.RoundedHeadingProps
import Verif.Props.RoundedEndsProps
import Verif.Props.TimingProps
import Verif.Props.FilterModeProps

/-! # Properties C143 and C144: the control of the filter and the end of a scan, in double precision -/

namespace Ndt

open Real Rounded Spec

noncomputable section

/-! ## C143 The control of the filter in double precision -/

/-- **C143** The motion the filter is told leads from the pose at the last scan to the predicted one, up to 6e-15 of the way. -/
theorem c143_control {rd co si : ℝ → ℝ} (hrd : RoundsToNearest rd) (hlib : Accurate co si) {a b : Pose2d} {D : ℝ} (hx : |b.x - a.x| ≤ D)
    (hy : |b.y - a.y| ≤ D) (ha : |a.theta| ≤ 3.5) (hb : |b.theta| ≤ 3.5) :
    let q := compose a (Rounded.control rd co si a b)
    |q.x - b.x| ≤ 6e-15 * D + 1e-28 ∧ |q.y - b.y| ≤ 6e-15 * D + 1e-28 ∧ |(Rounded.control rd co si a b).theta| ≤ π ∧
      ∃ n : ℤ, |q.theta - (b.theta + n * (2 * π))| ≤ 4e-15 := by
  intro q
  obtain ⟨h1, h2, -⟩ := c121_constraints hrd hlib a b hx hy (le_refl |b.theta - a.theta|)
  obtain ⟨-, n, hn⟩ := shortest_near hrd ha hb
  refine ⟨h1, h2, (shortest_turn hrd ha hb).1, n, ?_⟩
  have e : q.theta - (b.theta + n * (2 * π)) = Rounded.shortestAngularDistance rd a.theta b.theta - (b.theta - a.theta + n * (2 * π)) := by
    simp only [q, compose, Rounded.control]; ring
  rw [e]
  exact hn

/-- **C143** Without rounding it is the control of the exact model. -/
theorem c143_exact (a b : Pose2d) :
    (Rounded.control id cos sin a b).x = (Node.control a b).x ∧ (Rounded.control id cos sin a b).y = (Node.control a b).y := ⟨rfl, rfl⟩

/-- **C143** A robot that stands still tells the filter so. -/
theorem c143_still {rd co si : ℝ → ℝ} (hrd : RoundsToNearest rd) (a : Pose2d) : Rounded.control rd co si a a = ⟨0, 0, 0⟩ := by
  have z := hrd.exact isDouble_zero
  have e : Rounded.shortestAngularDistance rd a.theta a.theta = 0 := by
    unfold Rounded.shortestAngularDistance
    rw [sub_self, z]
    exact Ndt.normalizeAngle_zero hrd
  unfold Rounded.control
  simp only [sub_self, z, mul_zero, add_zero, e]

/-- The length of a motion, from where it leads. -/
theorem motion_length (a m b : Pose2d) {ε : ℝ} (hx : |(compose a m).x - b.x| ≤ ε) (hy : |(compose a m).y - b.y| ≤ ε) :
    hypot (b.x - a.x) (b.y - a.y) - 2 * ε ≤ hypot m.x m.y ∧ hypot m.x m.y ≤ hypot (b.x - a.x) (b.y - a.y) + 2 * ε := by
  have key : hypot m.x m.y = ‖(⟨(compose a m).x - a.x, (compose a m).y - a.y⟩ : ℂ)‖ := by
    rw [norm_mk]
    unfold hypot
    congr 1
    have := sin_sq_add_cos_sq a.theta
    simp only [compose]
    linear_combination -(m.x ^ 2 + m.y ^ 2) * this
  have hd : ‖(⟨(compose a m).x - a.x, (compose a m).y - a.y⟩ : ℂ) - ⟨b.x - a.x, b.y - a.y⟩‖ ≤ 2 * ε := by
    refine (Complex.norm_le_abs_re_add_abs_im _).trans ?_
    simp only [Complex.sub_re, Complex.sub_im, sub_sub_sub_cancel_right]
    linarith
  rw [key, ← norm_mk]
  have t1 := norm_sub_norm_le (⟨(compose a m).x - a.x, (compose a m).y - a.y⟩ : ℂ) ⟨b.x - a.x, b.y - a.y⟩
  have t2 := norm_sub_norm_le (⟨b.x - a.x, b.y - a.y⟩ : ℂ) ⟨(compose a m).x - a.x, (compose a m).y - a.y⟩
  rw [norm_sub_rev] at t2
  constructor <;> linarith

/-- **C143** Prediction, control and motion model together: without noise, a particle at the pose of the last scan is moved to the predicted pose,
up to a millionth of the way. -/
theorem c143_particle_follows {rd rf co si : ℝ → ℝ} (hrd : RoundsToNearest rd) (hrf : RoundsToFloat rf) (hlib : Accurate co si)
    {hyp at2 : ℝ → ℝ → ℝ} (hh : AccurateHypot hyp) (hat : AccurateAtan2 at2) {m : MotionModel} (hm : Noiseless m) (z : Fin 3 → ℝ) {a b : Pose2d}
    {P : ℝ} (hd : 0.011 ≤ hypot (b.x - a.x) (b.y - a.y)) (hd2 : hypot (b.x - a.x) (b.y - a.y) ≤ 1e6) (hx : |a.x| ≤ P) (hy : |a.y| ≤ P)
    (ha : |a.theta| ≤ 3.5) (hb : |b.theta| ≤ 3.5) :
    ∃ q, sampleOne rd rf co si hyp at2 m z (Rounded.control rd co si a b).x (Rounded.control rd co si a b).y (Rounded.control rd co si a b).theta a =
        some q ∧
      |q.x - b.x| ≤ 1.001e-6 * hypot (b.x - a.x) (b.y - a.y) + 1.3e-16 * P ∧ |q.y - b.y| ≤ 1.001e-6 * hypot (b.x - a.x) (b.y - a.y) + 1.3e-16 * P ∧
      |q.theta| ≤ π ∧ ∃ n : ℤ, |q.theta - (b.theta + n * (2 * π))| ≤ 1.001e-6 := by
  set D := hypot (b.x - a.x) (b.y - a.y) with hD
  have dx : |b.x - a.x| ≤ D := by
    rw [hD, ← norm_mk]; exact Complex.abs_re_le_norm ⟨b.x - a.x, b.y - a.y⟩
  have dy : |b.y - a.y| ≤ D := by
    rw [hD, ← norm_mk]; exact Complex.abs_im_le_norm ⟨b.x - a.x, b.y - a.y⟩
  obtain ⟨c1, c2, c3, k, hk⟩ := c143_control hrd hlib dx dy ha hb
  obtain ⟨l1, l2⟩ := motion_length a _ b c1 c2
  rw [← hD] at l1 l2
  have hp := Real.pi_lt_d2
  obtain ⟨q, hq, q1, q2, q3, n, hn⟩ := c138_noise_free hrd hrf hlib hh hat hm z (p := a) (P := P) (dx := (Rounded.control rd co si a b).x)
    (dy := (Rounded.control rd co si a b).y) (dth := (Rounded.control rd co si a b).theta)
    (by norm_num at l1 hd hd2 ⊢; linarith) (c3.trans (by norm_num at hp ⊢; linarith)) hx hy ha
  have eta : (⟨(Rounded.control rd co si a b).x, (Rounded.control rd co si a b).y, (Rounded.control rd co si a b).theta⟩ : Pose2d) =
    Rounded.control rd co si a b := rfl
  rw [eta] at q1 q2 hn
  set H := hypot (Rounded.control rd co si a b).x (Rounded.control rd co si a b).y
  refine ⟨q, hq, ?_, ?_, q3, n + k, ?_⟩
  · have t := abs_sub_le q.x (compose a (Rounded.control rd co si a b)).x b.x
    norm_num at q1 c1 l2 hd ⊢
    linarith
  · have t := abs_sub_le q.y (compose a (Rounded.control rd co si a b)).y b.y
    norm_num at q2 c2 l2 hd ⊢
    linarith
  · have e : q.theta - (b.theta + ((n + k : ℤ) : ℝ) * (2 * π)) = (q.theta - ((compose a (Rounded.control rd co si a b)).theta + n * (2 * π))) +
        ((compose a (Rounded.control rd co si a b)).theta - (b.theta + k * (2 * π))) := by push_cast; ring
    rw [e]
    refine (abs_add_le _ _).trans ((add_le_add hn hk).trans ?_)
    norm_num

/-! ## C144 The end of a scan in double precision -/

/-- **C144** The end of a scan is the time of its last beam, to the nanosecond and a rounding of its length. -/
theorem c144_end_is_last_beam {rd : ℝ → ℝ} (hrd : RoundsToNearest rd) (times : LaserTimes) (n : ℕ) (hn : 0 < n) (hn2 : n ≤ 2 ^ 53)
    (hp : PlausibleTimes times n) :
    ∃ e, Rounded.endTime rd times n = .ok e ∧
      |(e : ℝ) - beamTime times (n - 1)| < 1 + (2.5e-16 * |((n : ℝ) - 1) * times.increment * 10 ^ 9| + 1e-20) := by
  obtain ⟨h0, h1, h2, h3⟩ := hp
  have hn0 : n ≠ 0 := by omega
  have hcast : ((n - 1 : ℕ) : ℝ) = (n : ℝ) - 1 := by rw [Nat.cast_sub hn, Nat.cast_one]
  have er : rd ((n : ℝ) - 1) = (n : ℝ) - 1 := by
    rw [← hcast]; exact hrd.exact (isDouble_nat (by omega))
  set v : ℝ := ((n : ℝ) - 1) * times.increment with hv
  have r1 := rd_near hrd (le_refl |v|)
  set u := rd (rd v * 10 ^ 9) with hu
  have r2 : |rd v * 10 ^ 9| ≤ 1.0001 * (|v| * 10 ^ 9) + 1e-20 := by
    have := abs_sub_abs_le_abs_sub (rd v) v
    rw [abs_mul, abs_of_pos (by positivity : (0 : ℝ) < 10 ^ 9)]
    have h := abs_nonneg v
    norm_num at r1 ⊢
    linarith
  have r3 := rd_near hrd r2
  have hb : |u - v * 10 ^ 9| ≤ 2.5e-16 * |v * 10 ^ 9| + 1e-20 := by
    have e : u - v * 10 ^ 9 = (rd (rd v * 10 ^ 9) - rd v * 10 ^ 9) + (rd v - v) * 10 ^ 9 := by rw [hu]; ring
    have t := abs_add_le (rd (rd v * 10 ^ 9) - rd v * 10 ^ 9) ((rd v - v) * 10 ^ 9)
    rw [← e, abs_mul (rd v - v), abs_of_pos (by positivity : (0 : ℝ) < 10 ^ 9)] at t
    rw [abs_mul, abs_of_pos (by positivity : (0 : ℝ) < 10 ^ 9)]
    have h := abs_nonneg v
    norm_num at r1 r3 t ⊢
    linarith
  have hvb : |v * 10 ^ 9| ≤ 2 ^ 31 * 10 ^ 9 := by
    rw [abs_mul, abs_of_pos (by positivity : (0 : ℝ) < 10 ^ 9)]
    exact mul_le_mul_of_nonneg_right h3 (by positivity)
  have hvb' := abs_le.mp hvb
  have hb' := abs_le.mp hb
  have hub : -(2 ^ 31 * 10 ^ 9 + 10 ^ 6) ≤ u ∧ u ≤ 2 ^ 31 * 10 ^ 9 + 10 ^ 6 := by
    norm_num at hb' hvb hvb' ⊢
    constructor <;> linarith [hb'.1, hb'.2, hvb'.1, hvb'.2]
  set d : ℤ := if 0 ≤ u then ⌊u⌋ else ⌈u⌉ with hd
  have hds : Rounded.fromSeconds rd (rd (rd (if n = 0 then 2 ^ 64 - 1 else (n : ℝ) - 1) * times.increment)) = .ok d := by
    rw [if_neg hn0, er]
    unfold Rounded.fromSeconds
    simp only
    rw [if_pos (show -2 ^ 63 - 1 < u ∧ u < 2 ^ 63 by norm_num at hub ⊢; constructor <;> linarith [hub.1, hub.2])]
  have hdv : |(d : ℝ) - u| < 1 := by
    rw [hd]
    split
    · rw [abs_lt]
      constructor
      · linarith [Int.lt_floor_add_one u]
      · linarith [Int.floor_le u]
    · rw [abs_lt]
      constructor
      · linarith [Int.le_ceil u]
      · linarith [Int.ceil_lt_add_one u]
  have hdb := abs_lt.mp hdv
  have hdl : (d : ℝ) < 2 ^ 31 * 10 ^ 9 + 10 ^ 6 + 1 := by linarith [hdb.2, hub.2]
  have hdg : -(2 ^ 31 * 10 ^ 9 + 10 ^ 6 + 1) < (d : ℝ) := by linarith [hdb.1, hub.1]
  have hdl' : d < 2 ^ 31 * 10 ^ 9 + 10 ^ 6 + 1 := by exact_mod_cast hdl
  have hdg' : -(2 ^ 31 * 10 ^ 9 + 10 ^ 6 + 1) < d := by exact_mod_cast hdg
  refine ⟨Timing.nanoseconds times.stamp + d, ?_, ?_⟩
  · unfold Rounded.endTime Timing.time
    rw [if_neg (by omega), hds]
    show Timing.add _ _ = _
    unfold Timing.add Timing.nanoseconds
    rw [if_pos (by constructor <;> push_cast <;> omega)]
  · have e : (((Timing.nanoseconds times.stamp + d : ℤ) : ℝ) - beamTime times (n - 1)) = (d - u) + (u - v * 10 ^ 9) := by
      unfold Timing.nanoseconds beamTime
      push_cast
      rw [hcast, hv]
      ring
    rw [e]
    exact lt_of_le_of_lt (abs_add_le _ _) (add_lt_add_of_lt_of_le hdv hb)

/-- **C144** For a scan of up to a thousand seconds this is a nanosecond and a thousandth. -/
theorem c144_within_a_nanosecond {rd : ℝ → ℝ} (hrd : RoundsToNearest rd) (times : LaserTimes) (n : ℕ) (hn : 0 < n) (hn2 : n ≤ 2 ^ 53)
    (h0 : 0 ≤ times.stamp.sec) (h1 : times.stamp.sec < 2 ^ 31) (h2 : times.stamp.nanosec < 10 ^ 9)
    (h3 : |((n : ℝ) - 1) * times.increment| ≤ 1000) :
    ∃ e, Rounded.endTime rd times n = .ok e ∧ |(e : ℝ) - beamTime times (n - 1)| < 1.001 := by
  obtain ⟨e, he, h⟩ := c144_end_is_last_beam hrd times n hn hn2 ⟨h0, h1, h2, h3.trans (by norm_num)⟩
  refine ⟨e, he, lt_of_lt_of_le h ?_⟩
  rw [abs_mul, abs_of_pos (by positivity : (0 : ℝ) < 10 ^ 9)]
  norm_num at h3 ⊢
  linarith

/-- **C144** As without rounding, an empty message leads to undefined behaviour. -/
theorem c144_empty_message_is_undefined {rd : ℝ → ℝ} (hrd : RoundsToNearest rd) (times : LaserTimes) (h0 : 0 ≤ times.stamp.sec)
    (hi : 2 / 10 ^ 9 ≤ times.increment) : Rounded.endTime rd times 0 = .error .conversion := by
  have g1 : (2 : ℝ) ^ 63 ≤ rd (2 ^ 64 - 1) := hrd.ge_of_ge (by exact_mod_cast isDouble_two_pow 63) (by norm_num)
  have g2 : (2 : ℝ) ^ 34 ≤ rd (rd (2 ^ 64 - 1) * times.increment) := by
    refine hrd.ge_of_ge (by exact_mod_cast isDouble_two_pow 34) ?_
    have := mul_le_mul g1 hi (by positivity) (le_trans (by positivity) g1)
    norm_num at this ⊢
    linarith
  have g3 : (2 : ℝ) ^ 63 ≤ rd (rd (rd (2 ^ 64 - 1) * times.increment) * 10 ^ 9) := by
    refine hrd.ge_of_ge (by exact_mod_cast isDouble_two_pow 63) ?_
    norm_num at g2 ⊢
    linarith
  unfold Rounded.endTime Timing.time
  rw [if_neg (by omega)]
  show (Rounded.fromSeconds rd _ >>= _ : Res ℤ) = _
  have : Rounded.fromSeconds rd (rd (rd (if 0 = 0 then 2 ^ 64 - 1 else ((0 : ℕ) : ℝ) - 1) * times.increment)) = .error .conversion := by
    rw [if_pos rfl]
    unfold Rounded.fromSeconds
    simp only
    rw [if_neg (fun h => absurd h.2 (not_lt.mpr g3))]
  rw [this]
  rfl

/-- **C144** Without rounding it is the time of the exact model. -/
theorem c144_exact (times : LaserTimes) (n : ℕ) : Rounded.endTime id times n = Timing.endTime times n := rfl

/-! ## Examples -/

/-- A robot that went a metre on a slant and turned past the direction backwards. -/
example : ∃ q, sampleOne rnd rndF Demo.cosR Demo.sinR (fun x y => rnd (hypot x y)) Demo.atanR ⟨0, 0, 0, 0, 0⟩ (fun _ => 1)
    (Rounded.control rnd Demo.cosR Demo.sinR ⟨1, 2, 3⟩ ⟨1.6, 2.8, -3⟩).x (Rounded.control rnd Demo.cosR Demo.sinR ⟨1, 2, 3⟩ ⟨1.6, 2.8, -3⟩).y
    (Rounded.control rnd Demo.cosR Demo.sinR ⟨1, 2, 3⟩ ⟨1.6, 2.8, -3⟩).theta ⟨1, 2, 3⟩ = some q ∧ |q.x - 1.6| ≤ 1.1e-6 ∧ |q.y - 2.8| ≤ 1.1e-6 := by
  have e : hypot (1.6 - 1) (2.8 - 2) = 1 := by
    unfold hypot
    rw [show ((1.6 : ℝ) - 1) ^ 2 + (2.8 - 2) ^ 2 = 1 by norm_num, sqrt_one]
  obtain ⟨q, hq, q1, q2, -⟩ := c143_particle_follows rnd_rounds rndF_rounds accurate_demo accurateHypot_demo accurateAtan2_demo
    (m := ⟨0, 0, 0, 0, 0⟩) ⟨rfl, rfl, rfl, rfl⟩ (fun _ => 1) (a := ⟨1, 2, 3⟩) (b := ⟨1.6, 2.8, -3⟩) (P := 2) (by rw [e]; norm_num) (by rw [e]; norm_num)
    (by norm_num) (by norm_num) (by norm_num [abs_le]) (by norm_num [abs_le])
  rw [e] at q1 q2
  exact ⟨q, hq, q1.trans (by norm_num), q2.trans (by norm_num)⟩

/-- A laser with 720 beams in a tenth of a second. -/
example : ∃ e, Rounded.endTime rnd ⟨⟨1700000000, 5⟩, 0.1 / 720⟩ 720 = .ok e ∧ |(e : ℝ) - 1700000000099861116| < 2 := by
  obtain ⟨e, he, h⟩ := c144_within_a_nanosecond rnd_rounds ⟨⟨1700000000, 5⟩, 0.1 / 720⟩ 720 (by norm_num) (by norm_num) (by norm_num) (by norm_num)
    (by norm_num) (by norm_num [abs_le])
  refine ⟨e, he, ?_⟩
  have h' := abs_lt.mp h
  rw [abs_lt]
  norm_num [beamTime] at h' ⊢
  constructor <;> linarith [h'.1, h'.2]

example : Rounded.endTime rnd ⟨⟨1700000000, 5⟩, 0.0001⟩ 0 = .error .conversion :=
  c144_empty_message_is_undefined rnd_rounds _ (by norm_num) (by norm_num)

end

end Ndt
