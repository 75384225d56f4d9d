import Verif.Proof.Exec
import Verif.Proof.Angles
import Mathlib.Tactic.NormNum
import Mathlib.Tactic.LinearCombination
import Mathlib.Analysis.Real.Pi.Bounds

/-! # Callbacks of the mapper (C50–C54, C57, C58) -/

namespace Ndt

noncomputable section

open Spec Mapper

/-! ## Small systems for examples -/

/-- Default parameters but for the rolling depth and the search limit. -/
def demoParams (depth limit : ℕ) : Params := ⟨1, 0.25, 0.1, 1, depth, false, 0.2, limit, 25, false, .fin (-1)⟩

/-- The mapper right after construction with an empty map. -/
def demoStart (p : Params) (enable : Bool) : Sys := startWith p enable false (Graph.new p.useBarycenter)

/-- A laser message whose only beam measured nothing. -/
def noBeams : LaserMsg := ⟨0, 1, .fin 10, [.nan]⟩

/-! ## C50 No map change before localisation -/

/-- **C50** While not localised, laser messages (whatever the transforms, and whatever the publishing thread does
meanwhile) leave graph and poses alone, and the mapper stays not localised. -/
theorem c50_not_localised_no_change (p : Params) (s t : Sys) (es : List Event)
    (h : Exec p (fun _ e => IsLaserWork e ∨ IsPubWork e) s es t) (hi : s.spin = .idle) (hn : s.initialized = false) :
    t.epoch = s.epoch ∧ t.heap = s.heap ∧ t.constraints = s.constraints ∧ t.prevOdom = s.prevOdom ∧
      t.prevRobot = s.prevRobot ∧ t.initialized = false ∧ t.spin = .idle := by
  refine Exec.inv (I := fun t => t.epoch = s.epoch ∧ t.heap = s.heap ∧ t.constraints = s.constraints ∧
    t.prevOdom = s.prevOdom ∧ t.prevRobot = s.prevRobot ∧ t.initialized = false ∧ t.spin = .idle) ?_ h
    ⟨rfl, rfl, rfl, rfl, rfl, hn, hi⟩
  rintro s1 e s2 ⟨h1, h2, h3, h4, h5, h6, h7⟩ ha ht
  cases ht with
  | stutter => exact ⟨h1, h2, h3, h4, h5, h6, h7⟩
  | laserIgnored msg mount odom odomEnd hi' =>
    obtain ⟨r, l, g, m, e, -⟩ := setup_cases p msg mount s1
    rw [e]; exact ⟨h1, h2, h3, h4, h5, h6, h7⟩
  | laserScan msg mount odom odomEnd points hi' hgo hinit ht => rw [h6] at hinit; cases hinit
  | pubCheck => exact ⟨h1, h2, h3, h4, h5, h6, h7⟩
  | pubClear => exact ⟨h1, h2, h3, h4, h5, h6, h7⟩
  | pubGrid => exact ⟨h1, h2, h3, h4, h5, h6, h7⟩
  | pubGraph => exact ⟨h1, h2, h3, h4, h5, h6, h7⟩
  | pubTf =>
    obtain ⟨x, e⟩ := pubTf_frame s1
    rw [e]; exact ⟨h1, h2, h3, h4, h5, h6, h7⟩
  | filtered _ _ _ hi' => rw [h7] at hi'; cases hi'
  | addWindow _ _ _ hi' => rw [h7] at hi'; cases hi'
  | localMatched _ _ _ _ _ _ hi' => rw [h7] at hi'; cases hi'
  | pushConstraint _ _ _ hi' => rw [h7] at hi'; cases hi'
  | pushScan _ _ hi' => rw [h7] at hi'; cases hi'
  | globalMatched _ _ _ hi' => rw [h7] at hi'; cases hi'
  | finishScan _ _ hi' => rw [h7] at hi'; cases hi'
  | announce _ _ _ hi' => rw [h7] at hi'; cases hi'
  | _ => simp [IsLaserWork, IsPubWork] at ha

/-- **C50** Disabling mapping (without enabling it) and loading a map make the mapper not localised. -/
theorem c50_requires_localisation (p : Params) (s s' : Sys) (action : BitVec 32) (bag : List BagMsg)
    (hi : s.spin = .idle) (h : step p s (.configure action bag) = .ok s')
    (ha : action &&& 4#32 ≠ 0#32 ∨ (action &&& 1#32 = 0#32 ∧ action &&& 2#32 ≠ 0#32)) : s'.initialized = false := by
  unfold step at h
  rw [hi] at h
  simp only [configure, configureFile] at h
  rcases ha with ha | ⟨h1, h2⟩
  · rw [if_pos ha] at h
    obtain ⟨g, -, h⟩ := bind_ok h
    cases h; rfl
  · split at h
    · obtain ⟨g, -, h⟩ := bind_ok h
      cases h; rfl
    · cases h
      unfold configureMapping
      rw [if_neg (by simpa using h1), if_pos h2]

/-- **C50** Only the completion of an initial pose localises, in every state. -/
theorem c50_only_pose_localises (p : Params) (s s' : Sys) (e : Event) (h : step p s e = .ok s')
    (hn : s.initialized = false) (hi : s'.initialized = true) : e = .setOdom ∧ ∃ odom, s.spin = .poseOdom odom := by
  cases step_trans h with
  | setOdom odom hi' => exact ⟨rfl, odom, hi'⟩
  | laserIgnored msg mount odom odomEnd hi' =>
    rw [(setup_scans p msg mount s).2.1, hn] at hi; cases hi
  | laserScan msg mount odom odomEnd points hi' hgo hinit ht => rw [hn] at hinit; cases hinit
  | configureFlags action bag hi' hl =>
    obtain ⟨en, ini, e, hini⟩ := configureMapping_frame action s
    rw [e] at hi
    rw [hini hi] at hn; cases hn
  | load => cases hi
  | loopReject score correction cov q cand hi' hs =>
    obtain ⟨n, l, e⟩ := afterAttempt_frame q s
    rw [e] at hi; simp only at hi; rw [hn] at hi; cases hi
  | loopPush q c hi' =>
    obtain ⟨n, l, e⟩ := afterAttempt_frame q { s with constraints := s.constraints ++ [c], update := true }
    rw [e] at hi; simp only at hi; rw [hn] at hi; cases hi
  | pubTf =>
    obtain ⟨x, e⟩ := pubTf_frame s
    rw [e] at hi; simp only at hi; rw [hn] at hi; cases hi
  | _ => first
    | (rw [hn] at hi; cases hi)
    | (simp only at hi; rw [hn] at hi; cases hi)
    | (simp only [nextScan] at hi; rw [hn] at hi; cases hi)

/-- **C50** An initial pose is accepted only in the map frame, with the transform available, and, when mapping without
particle filter, near a scan of the graph. -/
theorem c50_pose_accepted (p : Params) (s s' : Sys) (m : PoseMsg) (odom : Option Pose2d) (visit : List ℕ)
    (hi : s.spin = .idle) (h : step p s (.pose m odom visit) = .ok s') (hs : s'.spin ≠ .idle) :
    ¬ (s.enable = true ∧ s.initialized = true) ∧ m.inMap = true ∧ ∃ o, odom = some o ∧ s'.spin = .poseRobot m.pose o ∧
      (s.enable = true → p.useFilter = false → s.scans ≠ []) := by
  unfold step at h
  rw [hi] at h
  simp only at h
  split at h
  swap
  · cases h; exact absurd hi hs
  unfold poseCallback at h
  split at h
  · cases h; exact absurd hi hs
  rename_i hb
  split at h
  · cases h; exact absurd hi hs
  rename_i hm
  split at h
  · cases h; exact absurd hi hs
  rename_i o
  have hb' : ¬ (s.enable = true ∧ s.initialized = true) := by simpa using hb
  have hm' : m.inMap = true := by simpa using hm
  split at h
  · rename_i hf
    cases h
    exact ⟨hb', hm', o, rfl, rfl, fun _ h => by rw [hf] at h; cases h⟩
  split at h
  · obtain ⟨nearest, hfind, h⟩ := bind_ok h
    split at h
    · cases h; exact absurd hi hs
    split at h
    · cases h
    rename_i i rest _ near hnear
    cases h
    refine ⟨hb', hm', o, rfl, rfl, fun _ _ he => ?_⟩
    rw [he] at hnear; simp at hnear
  · rename_i he
    cases h
    exact ⟨hb', hm', o, rfl, rfl, fun h => absurd h he⟩

/-- Example: disabling mapping in the initial state, then a laser message. -/
example : ∃ s, run (demoParams 10 3) (demoStart (demoParams 10 3) true)
    [.configure 2#32 [], .laser noBeams (some (Pose2d.zero, false)) (some ⟨1, 0, 0⟩) (some ⟨1, 0, 0⟩)] = .ok s ∧
    s.initialized = false := by
  have h1 : step (demoParams 10 3) (demoStart (demoParams 10 3) true) (.configure 2#32 []) =
      .ok { demoStart (demoParams 10 3) true with enable := false, initialized := false } := by
    simp [step, demoStart, startWith, configure, configureMapping, configureFile]
  rw [run_cons, h1, Res.ok_bind, run_cons]
  simp [step, demoStart, startWith, laserCallback, laserSetup, run]

/-! ## C51 The travel gate -/

/-- The turn that is compared with the limit is the smallest one of all ways of measuring it. -/
theorem shortest_le (a b : ℝ) (k : ℤ) : |shortestAngularDistance a b| ≤ |b - a + k * (2 * Real.pi)| := by
  unfold shortestAngularDistance
  obtain ⟨h1, h2⟩ := normalizeAngle_mem (b - a)
  obtain ⟨n, hn⟩ := normalizeAngle_congr (b - a)
  by_cases hk : k = n
  · rw [hk, ← hn]
  · have e : b - a + k * (2 * Real.pi) = normalizeAngle (b - a) + (k - n : ℤ) * (2 * Real.pi) := by
      rw [hn]; push_cast; ring
    rw [e]
    have hp := Real.pi_pos
    rcases lt_or_gt_of_ne (sub_ne_zero.mpr hk) with h | h
    · have : ((k - n : ℤ) : ℝ) ≤ -1 := by exact_mod_cast Int.le_sub_one_of_lt h
      have h3 : ((k - n : ℤ) : ℝ) * (2 * Real.pi) ≤ -1 * (2 * Real.pi) := mul_le_mul_of_nonneg_right this (by positivity)
      rw [abs_of_nonpos (a := normalizeAngle (b - a) + _) (by linarith)]
      rw [abs_le]; constructor <;> linarith
    · have : (1 : ℝ) ≤ ((k - n : ℤ) : ℝ) := by exact_mod_cast h
      have h3 : (1 : ℝ) * (2 * Real.pi) ≤ ((k - n : ℤ) : ℝ) * (2 * Real.pi) := mul_le_mul_of_nonneg_right this (by positivity)
      rw [abs_of_nonneg (a := normalizeAngle (b - a) + _) (by linarith)]
      rw [abs_le]; constructor <;> linarith

theorem tooLittle_iff (p : Params) (s : Sys) (odom : Pose2d) (hd : 0 ≤ p.minDist) :
    tooLittle p s odom ↔ ¬ Travelled p.minDist p.minRot s.prevOdom odom := by
  unfold tooLittle Travelled
  simp only
  rw [not_or, not_le]
  have e1 : (odom.x - s.prevOdom.x) * (odom.x - s.prevOdom.x) + (odom.y - s.prevOdom.y) * (odom.y - s.prevOdom.y) <
      p.minDist * p.minDist ↔ Spec.dist ⟨s.prevOdom.x, s.prevOdom.y⟩ ⟨odom.x, odom.y⟩ < p.minDist := by
    unfold Spec.dist
    simp only
    rcases eq_or_lt_of_le hd with h0 | h0
    · rw [← h0]
      constructor
      · intro h; nlinarith [mul_self_nonneg (odom.x - s.prevOdom.x), mul_self_nonneg (odom.y - s.prevOdom.y)]
      · intro h; exact absurd h (not_lt.mpr (Real.sqrt_nonneg _))
    · rw [Real.sqrt_lt' h0]
      constructor <;> intro h <;> nlinarith
  rw [e1]
  refine and_congr Iff.rfl ?_
  push Not
  constructor
  · intro h
    obtain ⟨n, hn⟩ := normalizeAngle_congr (odom.theta - s.prevOdom.theta)
    exact ⟨n, by rw [← hn]; exact h⟩
  · rintro ⟨k, hk⟩
    exact lt_of_le_of_lt (shortest_le _ _ k) hk

/-- **C51** With a non-empty graph, a laser message makes the mapper work on a scan only if the robot has travelled
since the last processed one. -/
theorem c51_processed_only_after_travel (p : Params) (s s' : Sys) (msg : LaserMsg) (mount : Option (Pose2d × Bool))
    (odom odomEnd : Option Pose2d) (hd : 0 ≤ p.minDist) (hi : s.spin = .idle) (hs : s.scans ≠ [])
    (h : step p s (.laser msg mount odom odomEnd) = .ok s') (hw : s'.spin ≠ .idle) :
    ∃ o, odom = some o ∧ Travelled p.minDist p.minRot s.prevOdom o := by
  cases step_trans h with
  | stutter => exact absurd hi hw
  | laserIgnored _ _ _ _ hi' =>
    obtain ⟨r, l, g, m, e, -⟩ := setup_cases p msg mount s
    rw [e] at hw; exact absurd hi hw
  | laserScan _ _ odom odomEnd points hi' hgo hinit ht =>
    refine ⟨odom, rfl, ?_⟩
    rcases ht with ht | ht
    · exact absurd ht hs
    · rw [tooLittle_iff p s odom hd, not_not] at ht
      exact ht

/-- **C51** Without travel nothing changes but what is set up with the first message (range limit, laser mounting and
scan matchers). -/
theorem c51_ignored_without_travel (p : Params) (s s' : Sys) (msg : LaserMsg) (mount : Option (Pose2d × Bool))
    (o : Pose2d) (odomEnd : Option Pose2d) (hd : 0 ≤ p.minDist) (hi : s.spin = .idle) (hs : s.scans ≠ [])
    (ht : ¬ Travelled p.minDist p.minRot s.prevOdom o) (h : step p s (.laser msg mount (some o) odomEnd) = .ok s') :
    ∃ r l g m, s' = { s with rangeMax := r, laser := l, globalM := g, localM := m } := by
  cases step_trans h with
  | stutter => exact ⟨s.rangeMax, s.laser, s.globalM, s.localM, rfl⟩
  | laserIgnored _ _ _ _ hi' =>
    obtain ⟨r, l, g, m, e, -⟩ := setup_cases p msg mount s
    exact ⟨r, l, g, m, e⟩
  | laserScan _ _ odom odomEnd points hi' hgo hinit ht' =>
    rcases ht' with ht' | ht'
    · exact absurd ht' hs
    · rw [tooLittle_iff p s o hd, not_not] at ht'
      exact absurd ht' ht

/-- **C51** With travel (and transforms, localised, finite points) the message is worked on: the gate is exact. -/
theorem c51_processed_after_travel (p : Params) (s : Sys) (msg : LaserMsg) (mount : Option (Pose2d × Bool))
    (o oe : Pose2d) (lt : Pose2d) (inv : Bool) (pts : List FPoint) (qs : List Point) (hd : 0 ≤ p.minDist)
    (hi : s.spin = .idle) (hl : s.laser = some (lt, inv)) (hn : s.initialized = true)
    (ht : Travelled p.minDist p.minRot s.prevOdom o)
    (hp : Laser.points msg (Laser.latchRangeMax s.rangeMax msg) inv lt o oe = .ok pts)
    (hq : finitePoints pts = .ok qs) :
    ∃ s', step p s (.laser msg mount (some o) (some oe)) = .ok s' ∧ s'.spin ≠ .idle := by
  have e : laserSetup p msg mount s = ({ s with rangeMax := Laser.latchRangeMax s.rangeMax msg }, true) := by
    unfold laserSetup; rw [hl]
  have htl : ¬ tooLittle p s o := by rw [tooLittle_iff p s o hd, not_not]; exact ht
  have htl' : ¬ (({ s with rangeMax := Laser.latchRangeMax s.rangeMax msg } : Sys).scans ≠ [] ∧
      tooLittle p { s with rangeMax := Laser.latchRangeMax s.rangeMax msg } o) := fun h => htl h.2
  unfold step
  rw [hi]
  simp only
  unfold laserCallback
  rw [e]
  dsimp only
  rw [if_neg (by simp), if_neg (by simp [hn]), if_neg htl', hl]
  dsimp only
  rw [hp, Res.ok_bind, hq, Res.ok_bind]
  refine ⟨_, rfl, ?_⟩
  simp only
  split_ifs <;> simp

/-- Example: a robot that drove 20 cm has travelled; one that turned from 3.1 to -3.1 has not. -/
example : Travelled 0.1 1 ⟨0, 0, 0⟩ ⟨0.2, 0, 0⟩ ∧ ¬ Travelled 0.1 1 ⟨0, 0, 3.1⟩ ⟨0, 0, -3.1⟩ := by
  constructor
  · left
    unfold Spec.dist
    rw [show ((0 : ℝ) - 0.2) ^ 2 + (0 - 0) ^ 2 = 0.2 ^ 2 by norm_num, Real.sqrt_sq (by norm_num)]
    norm_num
  · unfold Travelled
    rw [not_or]
    constructor
    · unfold Spec.dist
      norm_num
    · intro h
      have := h 1
      have h3 : 3.14 < Real.pi := Real.pi_gt_d2
      have h4 : Real.pi < 3.15 := Real.pi_lt_d2
      rw [abs_of_nonneg (by push_cast; norm_num; linarith)] at this
      push_cast at this
      norm_num at this
      linarith

/-! ## C52 Prediction by odometry -/

theorem predict_cos (a b c : Pose2d) :
    Real.cos (predict a b c).theta = Real.cos (b.theta + (c.theta - a.theta)) ∧
    Real.sin (predict a b c).theta = Real.sin (b.theta + (c.theta - a.theta)) := by
  unfold predict
  simp only
  obtain ⟨n, hn⟩ := normalizeAngle_congr (c.theta - a.theta)
  rw [cos_normalizeAngle, sin_normalizeAngle]
  unfold shortestAngularDistance
  rw [hn, ← add_assoc, Real.cos_add_int_mul_two_pi, Real.sin_add_int_mul_two_pi]
  exact ⟨rfl, rfl⟩

/-- **C52** With the predicted pose and the new odometry pose, the transform from map to odometry is the same as
before. -/
theorem c52_prediction_keeps_transform (prevOdom prevRobot odom : Pose2d) :
    mapToOdom (predict prevOdom prevRobot odom) odom = mapToOdom prevRobot prevOdom := by
  obtain ⟨hc, hs⟩ := predict_cos prevOdom prevRobot odom
  have e1 := cos_normalizeAngle (prevRobot.theta - prevOdom.theta)
  have e2 := sin_normalizeAngle (prevRobot.theta - prevOdom.theta)
  have ex : (predict prevOdom prevRobot odom).x = prevRobot.x + (odom.x - prevOdom.x) *
      Real.cos (prevRobot.theta - prevOdom.theta) - (odom.y - prevOdom.y) * Real.sin (prevRobot.theta - prevOdom.theta) := by
    unfold predict shortestAngularDistance
    dsimp only
    rw [e1, e2]
  have ey : (predict prevOdom prevRobot odom).y = prevRobot.y + (odom.x - prevOdom.x) *
      Real.sin (prevRobot.theta - prevOdom.theta) + (odom.y - prevOdom.y) * Real.cos (prevRobot.theta - prevOdom.theta) := by
    unfold predict shortestAngularDistance
    dsimp only
    rw [e1, e2]
  have h1 := Real.sin_sq_add_cos_sq odom.theta
  unfold mapToOdom Iso.mul Iso.inverse toEigen
  rw [hc, hs, ex, ey]
  simp only [Real.cos_add, Real.sin_add, Real.cos_sub, Real.sin_sub]
  generalize Real.cos odom.theta = co at *
  generalize Real.sin odom.theta = so at *
  generalize Real.cos prevOdom.theta = cp at *
  generalize Real.sin prevOdom.theta = sp at *
  generalize Real.cos prevRobot.theta = cr at *
  generalize Real.sin prevRobot.theta = sr at *
  ext
  · simp only; linear_combination (cr * cp + sr * sp) * h1
  · simp only; linear_combination (cr * sp - sr * cp) * h1
  · simp only; linear_combination (sr * cp - cr * sp) * h1
  · simp only; linear_combination (cr * cp + sr * sp) * h1
  · simp only; linear_combination (-(odom.x) * (cr * cp + sr * sp) - odom.y * (cr * sp - sr * cp)) * h1
  · simp only; linear_combination (-(odom.x) * (sr * cp - cr * sp) - odom.y * (cr * cp + sr * sp)) * h1

/-- **C52** The predicted pose is the previous robot pose followed by the motion the odometry reports, expressed in the
frame of the robot at the last scan. -/
theorem c52_prediction_is_composition (prevOdom prevRobot odom : Pose2d) (motion : Pose2d)
    (hm : compose prevOdom motion = odom) :
    (predict prevOdom prevRobot odom).x = (compose prevRobot motion).x ∧
    (predict prevOdom prevRobot odom).y = (compose prevRobot motion).y ∧
    ∃ n : ℤ, (predict prevOdom prevRobot odom).theta = (compose prevRobot motion).theta + n * (2 * Real.pi) := by
  subst hm
  have e1 := cos_normalizeAngle (prevRobot.theta - prevOdom.theta)
  have e2 := sin_normalizeAngle (prevRobot.theta - prevOdom.theta)
  have h1 := Real.sin_sq_add_cos_sq prevOdom.theta
  refine ⟨?_, ?_, ?_⟩
  · unfold predict shortestAngularDistance compose
    simp only
    rw [e1, e2, Real.cos_sub, Real.sin_sub]
    linear_combination (Real.cos prevRobot.theta * motion.x - Real.sin prevRobot.theta * motion.y) * h1
  · unfold predict shortestAngularDistance compose
    simp only
    rw [e1, e2, Real.cos_sub, Real.sin_sub]
    linear_combination (Real.sin prevRobot.theta * motion.x + Real.cos prevRobot.theta * motion.y) * h1
  · unfold predict shortestAngularDistance compose
    simp only
    obtain ⟨n, hn⟩ := normalizeAngle_congr (prevOdom.theta + motion.theta - prevOdom.theta)
    obtain ⟨k, hk⟩ := normalizeAngle_congr (prevRobot.theta + normalizeAngle (prevOdom.theta + motion.theta - prevOdom.theta))
    exact ⟨n + k, by rw [hk, hn]; push_cast; ring⟩

/-- **C52** So a scan that gets no correction leaves the transform as it is: localisation. -/
theorem c52_zero_correction_localisation (p : Params) (s s1 s2 s3 : Sys) (msg : LaserMsg) (mount : Option (Pose2d × Bool))
    (o oe : Pose2d) (hs : s.scans ≠ []) (hf : p.useFilter = false) (he : s.enable = false) (hi : s.spin = .idle)
    (h1 : step p s (.laser msg mount (some o) (some oe)) = .ok s1) (hw : s1.spin ≠ .idle)
    (h2 : step p s1 (.globalMatched Pose2d.zero) = .ok s2) (h3 : step p s2 .finishScan = .ok s3) :
    mapToOdom s3.prevRobot s3.prevOdom = mapToOdom s.prevRobot s.prevOdom := by
  obtain ⟨e1, e2, e3, e4, e5⟩ := setup_scans p msg mount s
  have hsp : ∃ scan, s1.spin = .localise scan o ∧ scan.pose = predict s.prevOdom s.prevRobot o := by
    cases step_trans h1 with
    | stutter => exact absurd hi hw
    | laserIgnored _ _ _ _ hi' =>
      obtain ⟨r, l, g, m, e, -⟩ := setup_cases p msg mount s
      rw [e] at hw; exact absurd hi hw
    | laserScan _ _ odom odomEnd points hi' hgo hinit ht =>
      refine ⟨((Scan.new s.scans.length).setPose (firstPose s o)).setPoints points, ?_, ?_⟩
      · unfold branch; simp [hf, he]
      · show firstPose s o = _
        unfold firstPose; rw [if_neg hs]
  obtain ⟨scan, hsc, hpose⟩ := hsp
  unfold step at h2
  rw [hsc] at h2
  simp only at h2
  split at h2
  · cases h2
  cases h2
  unfold step at h3
  simp only at h3
  cases h3
  simp only
  have : addCorrection Pose2d.zero scan.getPose = predict s.prevOdom s.prevRobot o := by
    unfold addCorrection Scan.getPose Pose2d.zero
    rw [hpose]; simp
  rw [this, c52_prediction_keeps_transform]

/-! ## C53 The published transform -/

/-- **C53** What is published maps the last odometry pose to the last robot pose. -/
theorem c53_transform_consistent (s s' : Sys) (p : Params) (hp : s.pub = .tf) (hs : s.scans ≠ [])
    (h : step p s .pubTf = .ok s') :
    ∃ t, s'.lastTf = some t ∧ t.mul (toEigen s.prevOdom) = toEigen s.prevRobot ∧
      ∀ q, t.apply (move s.prevOdom q) = move s.prevRobot q := by
  unfold step at h
  rw [hp] at h
  simp only [pubTf] at h
  rw [if_neg hs] at h
  cases h
  have h1 := Real.sin_sq_add_cos_sq s.prevOdom.theta
  refine ⟨_, rfl, ?_, ?_⟩
  · unfold mapToOdom Iso.mul Iso.inverse toEigen
    generalize Real.cos s.prevOdom.theta = co at *
    generalize Real.sin s.prevOdom.theta = so at *
    ext
    · simp only; linear_combination Real.cos s.prevRobot.theta * h1
    · simp only; linear_combination -Real.sin s.prevRobot.theta * h1
    · simp only; linear_combination Real.sin s.prevRobot.theta * h1
    · simp only; linear_combination Real.cos s.prevRobot.theta * h1
    · simp only; ring
    · simp only; ring
  · intro q
    unfold mapToOdom Iso.mul Iso.inverse toEigen Iso.apply move
    generalize Real.cos s.prevOdom.theta = co at *
    generalize Real.sin s.prevOdom.theta = so at *
    ext
    · simp only
      linear_combination (Real.cos s.prevRobot.theta * q.x - Real.sin s.prevRobot.theta * q.y) * h1
    · simp only
      linear_combination (Real.sin s.prevRobot.theta * q.x + Real.cos s.prevRobot.theta * q.y) * h1

/-- Example: the robot stands at (3, 1) heading pi/2 in the map and at (1, 0) heading 0 in the odometry frame: the
origin of the odometry frame is at (3, 0). -/
example : (mapToOdom ⟨3, 1, Real.pi / 2⟩ ⟨1, 0, 0⟩).apply ⟨0, 0⟩ = ⟨3, 0⟩ := by
  unfold mapToOdom Iso.mul Iso.inverse toEigen Iso.apply
  simp

/-! ## C54 Configure -/

/-- **C54** Only the four documented bits matter. -/
theorem c54_other_bits_ignored (p : Params) (s : Sys) (action : BitVec 32) (bag : List BagMsg) :
    configure p action bag s = configure p (action &&& 15#32) bag s := by
  have e : ∀ k : BitVec 32, k &&& 15#32 = k → action &&& 15#32 &&& k = action &&& k := by
    intro k hk
    rw [BitVec.and_assoc, BitVec.and_comm 15#32 k, hk]
  unfold configure configureFile configureMapping
  rw [e 1#32 (by decide), e 2#32 (by decide), e 4#32 (by decide)]

/-- **C54** What each word does: enabling wins over disabling, loading replaces the graph, announces it and requires
localisation, disabling requires localisation, and nothing else changes. -/
theorem c54_configure_effect (p : Params) (s s' : Sys) (action : BitVec 32) (bag : List BagMsg)
    (h : configure p action bag s = .ok s') :
    s'.enable = (if action &&& 1#32 ≠ 0#32 then true else if action &&& 2#32 ≠ 0#32 then false else s.enable) ∧
    s'.initialized = (if action &&& 4#32 ≠ 0#32 ∨ (action &&& 1#32 = 0#32 ∧ action &&& 2#32 ≠ 0#32) then false
      else s.initialized) ∧
    (action &&& 4#32 ≠ 0#32 → ∃ g, Graph.load p.useBarycenter bag = .ok g ∧ s'.graph p = ⟨p.useBarycenter, g.scans, g.constraints⟩ ∧
      s'.update = true) ∧
    (action &&& 4#32 = 0#32 → s' = { s with enable := s'.enable, initialized := s'.initialized }) ∧
    s'.prevOdom = s.prevOdom ∧ s'.prevRobot = s.prevRobot ∧ s'.spin = s.spin ∧ s'.loop = s.loop ∧ s'.pub = s.pub := by
  unfold configure configureFile at h
  by_cases h4 : action &&& 4#32 = 0#32
  · rw [if_neg (by simpa using h4)] at h
    cases h
    unfold configureMapping
    by_cases h1 : action &&& 1#32 = 0#32
    · by_cases h2 : action &&& 2#32 = 0#32
      · simp [h1, h2, h4]
      · simp [h1, h2, h4]
    · simp [h1, h4]
  · rw [if_pos h4] at h
    obtain ⟨g, hg, h⟩ := bind_ok h
    cases h
    unfold configureMapping Sys.graph Sys.scans
    by_cases h1 : action &&& 1#32 = 0#32
    · by_cases h2 : action &&& 2#32 = 0#32
      · simp [h1, h2, h4, hg]
      · simp [h1, h2, h4, hg]
    · simp [h1, h4, hg]

/-- **C54** Saving changes nothing, and is not done when loading. -/
theorem c54_save_changes_nothing (p : Params) (s : Sys) (bag : List BagMsg) : configure p 8#32 bag s = .ok s ∧
    configure p 12#32 bag s = configure p 4#32 bag s := by
  constructor
  · simp [configure, configureFile, configureMapping]
  · simp [configure, configureFile, configureMapping]

/-- Example: 3 = enable and disable enables. -/
example (p : Params) : configure p 3#32 [] (demoStart p false) = .ok (demoStart p true) := by
  simp [configure, configureFile, configureMapping, demoStart, startWith]

/-! ## C57 The rolling window -/

/-- **C57** (partial: the depth is 10 or the graph is not longer than it) A new scan is matched against exactly the last
`rolling_depth` scans. -/
theorem c57_window_partial (p : Params) (s : Sys) (scan : Scan) (odom : Pose2d) (hi : s.spin = .window scan odom)
    (hl : s.localM ≠ none) (hd : p.rollingDepth = 10 ∨ s.scans.length ≤ p.rollingDepth) :
    step p s .addWindow = .ok { s with localM := some (lastScans p.rollingDepth s.scans), spin := .matching scan odom } := by
  unfold step
  rw [hi]
  simp only
  unfold addWindow lastScans
  rw [if_neg hl]
  by_cases h : s.scans.length ≤ p.rollingDepth
  · rw [if_pos h, Nat.sub_eq_zero_of_le h, List.drop_zero]
  · rcases hd with hd | hd
    · rw [if_neg h, if_neg (by omega), hd]
    · exact absurd hd h

/-- **C57** (refuted) The depth is ignored once the graph is longer than it: the window has ten scans. -/
theorem c57_window_is_ten (p : Params) (s : Sys) (scan : Scan) (odom : Pose2d) (hi : s.spin = .window scan odom)
    (hl : s.localM ≠ none) (hd : p.rollingDepth < s.scans.length) (h10 : 10 ≤ s.scans.length) :
    ∃ s' w, step p s .addWindow = .ok s' ∧ s'.localM = some w ∧ w.length = 10 ∧
      (lastScans p.rollingDepth s.scans).length = p.rollingDepth := by
  unfold step
  rw [hi]
  simp only
  unfold addWindow lastScans
  rw [if_neg hl, if_neg (by omega), if_neg (by omega)]
  refine ⟨_, _, rfl, rfl, ?_, ?_⟩
  · rw [List.length_drop]; omega
  · rw [List.length_drop]; omega

/-- **C57** (refuted) With a depth below ten, the first scan beyond it moves an iterator out of the vector. -/
theorem c57_window_out_of_bounds (p : Params) (s : Sys) (scan : Scan) (odom : Pose2d) (hi : s.spin = .window scan odom)
    (hl : s.localM ≠ none) (hd : p.rollingDepth < s.scans.length) (h10 : s.scans.length < 10) :
    step p s .addWindow = .error .iterator := by
  unfold step
  rw [hi]
  simp only
  unfold addWindow
  rw [if_neg hl, if_neg (by omega), if_pos h10]

/-! ## C58 The typical response -/

/-- A matcher score as it should be. -/
def GoodScore (x : Fl) : Prop := ∃ r, x = .fin r ∧ -1 ≤ r ∧ r ≤ 0

/-- **C58** (partial: as long as the local matcher returns scores between -1 and 0) The typical response is a number between
-1 and 0, in every reachable state and under every schedule. -/
theorem c58_typical_in_range_partial (p : Params) (W : Graph → Prop) (s : Sys)
    (h : Reach p W (fun _ e => ∀ score correction cov, e = .localMatched score correction cov → GoodScore score) s) :
    GoodScore s.typical := by
  refine Reach.inv (I := fun s => GoodScore s.typical) h ?_ ?_
  · intro enable file s0 hst _
    have e : s0.typical = .fin (-0.5) := by
      rcases start_cases hst with ⟨-, rfl⟩ | ⟨bag, g, -, -, rfl⟩ <;> rfl
    exact ⟨-0.5, e, by norm_num, by norm_num⟩
  · intro s e s' hI ha _ ht
    cases ht with
    | localMatched score correction cov scan back odom hi hb =>
      obtain ⟨r, hr, h1, h2⟩ := hI
      obtain ⟨x, hx, h3, h4⟩ := ha score correction cov rfl
      refine ⟨0.95 * r + 0.05 * x, ?_, ?_, ?_⟩
      · simp only [typicalResponse, hr, hx, Fl.fin_mul, Fl.fin_add]
      · norm_num; linarith
      · norm_num; linarith
    | laserIgnored msg mount odom odomEnd hi =>
      obtain ⟨r, l, g, m, e, -⟩ := setup_cases p msg mount s
      rw [e]; exact hI
    | laserScan msg mount odom odomEnd points hi hgo hinit ht =>
      obtain ⟨r, l, g, m, e, -⟩ := setup_cases p msg mount s
      rw [e]; exact hI
    | configureFlags action bag hi hl =>
      obtain ⟨en, ini, e, -⟩ := configureMapping_frame action s
      rw [e]; exact hI
    | load action bag g hi hl hg =>
      obtain ⟨en, ini, e, -⟩ := configureMapping_frame action s
      rw [e]; exact hI
    | loopReject score correction cov q cand hi hs =>
      obtain ⟨n, l, e⟩ := afterAttempt_frame q s
      rw [e]; exact hI
    | loopPush q c hi =>
      obtain ⟨n, l, e⟩ := afterAttempt_frame q { s with constraints := s.constraints ++ [c], update := true }
      rw [e]; exact hI
    | pubTf hi =>
      obtain ⟨x, e⟩ := pubTf_frame s
      rw [e]; exact hI
    | _ => exact hI

/-- **C58** (refuted) A single score that is NaN (C18: a scan without usable beams) makes the typical response NaN, it
stays so for ever, and no loop closure is accepted any more. -/
theorem c58_nan_for_ever (p : Params) (s t : Sys) (es : List Event) (h : Exec p Any s es t) (hn : s.typical = .nan) :
    t.typical = .nan ∧ ∀ score : Fl, ¬ (score < t.typical) := by
  have key : t.typical = .nan := by
    refine Exec.inv (I := fun s => s.typical = .nan) ?_ h hn
    intro s e s' hI _ ht
    cases ht with
    | localMatched score correction cov scan back odom hi hb =>
      simp only [typicalResponse, hI, Fl.mul_nan, Fl.nan_add]
    | laserIgnored msg mount odom odomEnd hi =>
      obtain ⟨r, l, g, m, e, -⟩ := setup_cases p msg mount s
      rw [e]; exact hI
    | laserScan msg mount odom odomEnd points hi hgo hinit ht =>
      obtain ⟨r, l, g, m, e, -⟩ := setup_cases p msg mount s
      rw [e]; exact hI
    | configureFlags action bag hi hl =>
      obtain ⟨en, ini, e, -⟩ := configureMapping_frame action s
      rw [e]; exact hI
    | load action bag g hi hl hg =>
      obtain ⟨en, ini, e, -⟩ := configureMapping_frame action s
      rw [e]; exact hI
    | loopReject score correction cov q cand hi hs =>
      obtain ⟨n, l, e⟩ := afterAttempt_frame q s
      rw [e]; exact hI
    | loopPush q c hi =>
      obtain ⟨n, l, e⟩ := afterAttempt_frame q { s with constraints := s.constraints ++ [c], update := true }
      rw [e]; exact hI
    | pubTf hi =>
      obtain ⟨x, e⟩ := pubTf_frame s
      rw [e]; exact hI
    | _ => exact hI
  exact ⟨key, fun score => by rw [key]; exact Fl.lt_nan score⟩

/-- **C58** (refuted) A NaN score is taken into the typical response. -/
theorem c58_nan_score (typical : Fl) : typicalResponse typical .nan = .nan := by
  simp [typicalResponse]

end

end Ndt
