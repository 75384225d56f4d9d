import Verif.Props.WallProps
import Verif.Props.WorldProps
import Verif.Props.NodeProps

/-! # With exact sensors the robot knows where it is (C124) -/

namespace Ndt

noncomputable section

open Spec Mapper

/-! ## A laser message in general -/

theorem step_laser_points (p : Params) (s : Sys) (msg : LaserMsg) (mount : Option (Pose2d × Bool)) (lt : Pose2d)
    (inverted : Bool) (o oe : Pose2d) (hi : s.spin = .idle) (hn : s.initialized = true)
    (hl : s.laser = some (lt, inverted)) (ht : s.scans = [] ∨ ¬ tooLittle p s o) {fps : List FPoint} {pts : List Point}
    (hp : Laser.points msg (Laser.latchRangeMax s.rangeMax msg) inverted lt o oe = .ok fps)
    (hf : finitePoints fps = .ok pts) :
    step p s (.laser msg mount (some o) (some oe)) = .ok { s with
      rangeMax := Laser.latchRangeMax s.rangeMax msg,
      spin := branch p s (((Scan.new s.scans.length).setPose (firstPose s o)).setPoints pts) o } := by
  have e : laserSetup p msg mount s = ({ s with rangeMax := Laser.latchRangeMax s.rangeMax msg }, true) := by
    unfold laserSetup; rw [hl]
  have ht' : ¬ (({ s with rangeMax := Laser.latchRangeMax s.rangeMax msg } : Sys).scans ≠ [] ∧
      tooLittle p { s with rangeMax := Laser.latchRangeMax s.rangeMax msg } o) := by
    rintro ⟨h1, h2⟩
    rcases ht with ht | ht
    · exact h1 ht
    · exact ht h2
  unfold step
  rw [hi]
  simp only
  unfold laserCallback
  rw [e]
  dsimp only
  rw [if_neg (by simp), if_neg (by simp [hn]), if_neg ht', hl]
  dsimp only
  rw [hp, Res.ok_bind, hf, Res.ok_bind]
  rfl

theorem step_laser_points_first (p : Params) (s : Sys) (msg : LaserMsg) (lt : Pose2d) (inverted : Bool) (o oe : Pose2d)
    (hi : s.spin = .idle) (hn : s.initialized = true) (hl : s.laser = none) (ht : s.scans = [] ∨ ¬ tooLittle p s o)
    {fps : List FPoint} {pts : List Point}
    (hp : Laser.points msg (Laser.latchRangeMax s.rangeMax msg) inverted lt o oe = .ok fps)
    (hf : finitePoints fps = .ok pts) :
    step p s (.laser msg (some (lt, inverted)) (some o) (some oe)) = .ok { s with
      rangeMax := Laser.latchRangeMax s.rangeMax msg, laser := some (lt, inverted),
      globalM := some (if p.useFilter || !s.enable then s.scans else []), localM := some [],
      spin := branch p s (((Scan.new s.scans.length).setPose (firstPose s o)).setPoints pts) o } := by
  have ht' : ¬ (s.scans ≠ [] ∧ tooLittle p s o) := by
    rintro ⟨h1, h2⟩
    rcases ht with ht | ht
    · exact h1 ht
    · exact ht h2
  unfold step
  rw [hi]
  simp only
  unfold laserCallback laserSetup
  rw [hl]
  dsimp only
  rw [if_neg (by simp), if_neg (by simp [hn]), if_neg (by exact ht')]
  rw [hp, Res.ok_bind, hf, Res.ok_bind]
  rfl

/-! ## A robot that turns in front of a wall -/

/-- The directions of the beams in the world: from 30 to 45 degrees. -/
def beamAngle (i : ℕ) : ℝ := Real.pi / 6 + i * (Real.pi / 48)

/-- The distance of the wall `y = 1/10` in such a direction. -/
def beamRange (i : ℕ) : ℝ := (1 / 10) / Real.sin (beamAngle i)

/-- What an exact laser at the origin sees of the wall when it is turned by `turn`. -/
def wallMsg (turn : ℝ) : LaserMsg :=
  ⟨Real.pi / 6 - turn, Real.pi / 48, .fin 10,
    [.fin (beamRange 0), .fin (beamRange 1), .fin (beamRange 2), .fin (beamRange 3), .fin (beamRange 4)]⟩

/-- The wall. -/
def wallWorld : Set Point := {q | q.y = 1 / 10}

theorem beam_bounds {i : ℕ} (hi : i ≤ 4) : 1 / 2 ≤ Real.sin (beamAngle i) ∧
    Real.sin (beamAngle i) ≤ Real.cos (beamAngle i) ∧ Real.cos (beamAngle i) ≤ 9 / 10 := by
  have hpi := Real.pi_pos
  have hi' : (i : ℝ) ≤ 4 := by exact_mod_cast hi
  have h0 : (0 : ℝ) ≤ i := Nat.cast_nonneg i
  have h1 : Real.pi / 6 ≤ beamAngle i := by unfold beamAngle; nlinarith
  have h2 : beamAngle i ≤ Real.pi / 4 := by unfold beamAngle; nlinarith
  have s1 : Real.sin (Real.pi / 6) ≤ Real.sin (beamAngle i) :=
    Real.sin_le_sin_of_le_of_le_pi_div_two (by linarith) (by linarith) h1
  have s2 : Real.sin (beamAngle i) ≤ Real.sin (Real.pi / 4) :=
    Real.sin_le_sin_of_le_of_le_pi_div_two (by linarith) (by linarith) h2
  have c1 : Real.cos (beamAngle i) ≤ Real.cos (Real.pi / 6) :=
    Real.cos_le_cos_of_nonneg_of_le_pi (by linarith) (by linarith) h1
  have c2 : Real.cos (Real.pi / 4) ≤ Real.cos (beamAngle i) :=
    Real.cos_le_cos_of_nonneg_of_le_pi (by linarith) (by linarith) h2
  rw [Real.sin_pi_div_six] at s1
  rw [Real.sin_pi_div_four] at s2
  rw [Real.cos_pi_div_six] at c1
  rw [Real.cos_pi_div_four] at c2
  have h3 : Real.sqrt 3 ≤ 9 / 5 := by rw [Real.sqrt_le_left (by norm_num)]; norm_num
  exact ⟨s1, s2.trans c2, by linarith⟩

theorem beam_on {i : ℕ} (hi : i ≤ 4) : OnPiece (polar (beamAngle i) (beamRange i)) ∧ beamRange i ≤ 10 := by
  obtain ⟨h1, h2, h3⟩ := beam_bounds hi
  have h0 : 0 < Real.sin (beamAngle i) := by linarith
  unfold OnPiece polar beamRange
  refine ⟨⟨by field_simp, ?_, ?_⟩, ?_⟩
  · rw [div_mul_eq_mul_div, le_div_iff₀ h0]; linarith
  · rw [div_mul_eq_mul_div, div_le_iff₀ h0]; linarith
  · rw [div_le_iff₀ h0]; linarith

theorem turned_beam (turn : ℝ) (i : ℕ) (r : ℝ) :
    move ⟨0, 0, turn⟩ (move Pose2d.zero (polar (Real.pi / 6 - turn + i * (Real.pi / 48)) r)) = polar (beamAngle i) r := by
  have e : beamAngle i = turn + (Real.pi / 6 - turn + i * (Real.pi / 48)) := by unfold beamAngle; ring
  rw [e]
  ext
  · simp only [move, polar, Pose2d.zero, Real.cos_zero, Real.sin_zero, Real.cos_add turn]; ring
  · simp only [move, polar, Pose2d.zero, Real.cos_zero, Real.sin_zero, Real.sin_add turn]; ring

/-- The points of the message, in the frame of the robot. -/
def wallSeen (turn : ℝ) : List Point :=
  [0, 1, 2, 3, 4].map fun i : ℕ =>
    move Pose2d.zero (polar (Real.pi / 6 - turn + i * (Real.pi / 48)) (beamRange i))

theorem wallMsg_points (turn : ℝ) (o : Pose2d) :
    ∃ fps, Laser.points (wallMsg turn) (.fin 10) false Pose2d.zero o o = .ok fps ∧
      finitePoints fps = .ok (wallSeen turn) := by
  have h : ∀ i ≤ 4, beamRange i ≤ 10 := fun i hi => (beam_on hi).2
  have hv : validBeams 10 (wallMsg turn).ranges =
      [(0, beamRange 0), (1, beamRange 1), (2, beamRange 2), (3, beamRange 3), (4, beamRange 4)] := by
    simp [validBeams, wallMsg, h]
  refine ⟨_, c47_forward_beams_partial _ _ _ _ _ (by simp [wallMsg]), ?_⟩
  rw [hv, finitePoints_forward]
  rfl

theorem wall_sees (s : Scan) (turn : ℝ) (h1 : s.pose = ⟨0, 0, turn⟩) (h2 : s.points = wallSeen turn) : SeesPiece s where
  x := by rw [h1]
  y := by rw [h1]
  on := by
    rw [h1, h2]
    intro p hp
    obtain ⟨i, hi, rfl⟩ := List.mem_map.mp hp
    rw [turned_beam]
    refine (beam_on ?_).1
    simp only [List.mem_cons, List.not_mem_nil, or_false] at hi
    omega
  five := by rw [h2]; simp [wallSeen]
  few := by rw [h2]; simp [wallSeen]
  two := by
    rw [h1, h2]
    refine ⟨_, List.mem_map_of_mem (a := 0) (by simp), _, List.mem_map_of_mem (a := 4) (by simp), ?_⟩
    rw [turned_beam, turned_beam]
    have a0 : beamAngle 0 = Real.pi / 6 := by unfold beamAngle; simp
    have a4 : beamAngle 4 = Real.pi / 4 := by unfold beamAngle; push_cast; ring
    simp only [polar, beamRange, a0, a4, Real.sin_pi_div_six, Real.sin_pi_div_four, Real.cos_pi_div_six,
      Real.cos_pi_div_four]
    have h3 : 1 < Real.sqrt 3 := by rw [Real.lt_sqrt (by norm_num)]; norm_num
    have h2 : 0 < Real.sqrt 2 / 2 := by positivity
    rw [div_mul_cancel₀ _ h2.ne']
    intro h
    norm_num at h
    linarith

/-- The laser message of a robot at the origin that is turned by `turn`. -/
def wallLaser (turn : ℝ) : Event :=
  .laser (wallMsg turn) (some (Pose2d.zero, false)) (some ⟨0, 0, turn⟩) (some ⟨0, 0, turn⟩)

theorem wallLaser_honest (turn : ℝ) : Honest wallWorld Pose2d.zero false 10 (wallLaser turn) := by
  refine ⟨Or.inr rfl, rfl, by simp [wallMsg], ?_⟩
  intro o ho
  injection ho with ho
  subst ho
  refine ⟨Or.inr rfl, ?_⟩
  intro i x hi _
  have hi' : i ≤ 4 ∧ x = beamRange i := by
    rcases i with _ | _ | _ | _ | _ | i
    all_goals simp [wallMsg] at hi
    all_goals exact ⟨by omega, hi.symm⟩
  rw [hi'.2]
  show (move ⟨0, 0, turn⟩ (move Pose2d.zero (polar (Real.pi / 6 - turn + i * (Real.pi / 48)) (beamRange i)))).y = 1 / 10
  rw [turned_beam]
  exact (beam_on hi'.1).1.1

/-- The second scan of the robot matched by a node whose matchers answer `c` to scans of the piece of wall. -/
theorem wall_run (mt : Matcher) (hnd : mt.ndt = none) (c : Pose2d) (junk : Mat3F)
    (hc : ∀ s1 s2, SeesPiece s1 → SeesPiece s2 → ∃ mt', Matcher.addScans { mt with rangeMax := 10 } [s1] = .ok mt' ∧
      (∃ sc, mt'.scoreScan s2 = .ok sc) ∧ ∀ pose cov, ∃ r, mt'.matchScan s2 pose cov = .ok r ∧ r.pose = c) :
    ∃ n0 n4 n5 t s1 s2 mt', Node.start (demoNodeWith mt) true none = .ok n0 ∧
      Node.run (demoNodeWith mt) n0 [.plain (wallLaser 0), .plain .pushScan, .plain .finishScan, .plain (wallLaser 1),
        .plain .addWindow] = .ok n4 ∧
      (n4.sys.spin = .matching s2 ⟨0, 0, 1⟩ ∧ n4.localN = some mt' ∧ SeesPiece s1 ∧ SeesPiece s2 ∧
        Matcher.addScans { mt with rangeMax := 10 } [s1] = .ok mt') ∧
      n4.step (demoNodeWith mt) (.localMatch junk) = .ok n5 ∧
      Node.run (demoNodeWith mt) n5 [.plain .pushConstraint, .plain .pushScan, .plain .finishScan] = .ok t ∧
      t.sys.scans.map (·.pose) = [Pose2d.zero, addCorrection c ⟨0, 0, 1⟩] ∧ t.sys.prevOdom = ⟨0, 0, 1⟩ ∧
      t.sys.prevRobot = addCorrection c ⟨0, 0, 1⟩ ∧ t.sys.spin = .idle ∧
      (∀ scan ∈ t.sys.scans, scan.points = wallSeen 0 ∨ scan.points = wallSeen 1) := by
  set np := demoNodeWith mt with hnp
  set s0 := demoStart np.map true with hs0
  set n0 : Node := ⟨s0, none, none, none⟩ with hn0
  have h0 : Node.start np true none = .ok n0 := rfl
  refine ⟨n0, ?_⟩
  set g : Matcher := { mt with rangeMax := 10, ndt := none } with hg
  have hg' : g = { mt with rangeMax := 10 } := by rw [hg, hnd]
  -- the first message
  set scan1 : Scan := ((Scan.new 0).setPose Pose2d.zero).setPoints (wallSeen 0) with hscan1
  have hlatch : Laser.latchRangeMax s0.rangeMax (wallMsg 0) = .fin 10 := by
    show Laser.latchRangeMax (.fin (-1)) (wallMsg 0) = .fin 10
    simp [Laser.latchRangeMax, wallMsg]
  obtain ⟨fps1, hp1, hf1⟩ := wallMsg_points 0 ⟨0, 0, 0⟩
  set s1 : Sys := { s0 with
      rangeMax := .fin 10, laser := some (Pose2d.zero, false), globalM := some [], localM := some [],
      spin := .append scan1 Pose2d.zero } with hs1
  have e1 : Mapper.step np.map s0 (wallLaser 0) = .ok s1 := by
    have := step_laser_points_first np.map s0 (wallMsg 0) Pose2d.zero false ⟨0, 0, 0⟩ ⟨0, 0, 0⟩ rfl rfl rfl (Or.inl rfl)
      (by rw [hlatch]; exact hp1) hf1
    rw [hlatch] at this
    exact this
  have f1 : n0.step np (.plain (wallLaser 0)) = .ok ⟨s1, some g, some g, none⟩ := by
    have hm : n0.makesMatchers (some (Pose2d.zero, false)) := ⟨rfl, rfl, by simp⟩
    show (if n0.makesMatchers (some (Pose2d.zero, false)) then _ else _) = _
    rw [if_pos hm]
    unfold Node.makeMatchers
    rw [show n0.sys = s0 from rfl, hlatch]
    show (Node.mapper _ _ (wallLaser 0)) = _
    unfold Node.mapper
    show (Mapper.step np.map s0 (wallLaser 0) >>= _) = _
    rw [e1]
    rfl
  -- the first scan goes into the graph
  obtain ⟨s2, e2, e2'⟩ : ∃ s2, run np.map s1 [.pushScan, .finishScan] = .ok s2 ∧ s2 = { s0 with
      rangeMax := .fin 10, laser := some (Pose2d.zero, false), globalM := some [], localM := some [],
      heap := fun e => if e = s0.epoch then [scan1] else s0.heap e, prevOdom := Pose2d.zero,
      prevRobot := Pose2d.zero, update := true, spin := .idle } := by
    refine ⟨_, rfl, ?_⟩
    simp [hs1, hs0, demoStart, startWith, Sys.scans, Graph.new, hscan1, Scan.getPose, Scan.setPoints, Scan.setPose]
  have f2 : Node.run np ⟨s1, some g, some g, none⟩ [.plain .pushScan, .plain .finishScan] =
      .ok ⟨s2, some g, some g, none⟩ := by
    rw [run_cons] at e2
    obtain ⟨u, eu, e2⟩ := bind_ok e2
    rw [run_cons] at e2
    obtain ⟨v, ev, e2⟩ := bind_ok e2
    cases e2
    rw [Node.run_cons]
    show (Node.mapper _ _ _ >>= _) = _
    unfold Node.mapper
    rw [eu]
    simp only [Res.ok_bind]
    rw [Node.run_cons]
    show (Node.mapper _ _ _ >>= _) = _
    unfold Node.mapper
    rw [ev]
    rfl
  have hsc2 : s2.scans = [scan1] := by rw [e2']; simp [Sys.scans]
  have hep : s2.epoch = s0.epoch := by rw [e2']
  -- the second message
  have hpi := Real.two_le_pi
  have hsad : shortestAngularDistance 0 1 = 1 := by
    unfold shortestAngularDistance
    rw [sub_zero]
    exact normalizeAngle_of_mem ⟨by linarith, by linarith⟩
  have hpo : s2.prevOdom = Pose2d.zero := by rw [e2']
  have hpr : s2.prevRobot = Pose2d.zero := by rw [e2']
  have hpred : predict s2.prevOdom s2.prevRobot ⟨0, 0, 1⟩ = ⟨0, 0, 1⟩ := by
    rw [hpo, hpr]
    simp only [predict, Pose2d.zero, hsad, zero_add, sub_zero, zero_mul]
    rw [normalizeAngle_of_mem ⟨by linarith, by linarith⟩]
  have htl : ¬ tooLittle np.map s2 ⟨0, 0, 1⟩ := by
    rintro ⟨-, h⟩
    rw [hpo] at h
    simp only [Pose2d.zero, hsad] at h
    norm_num [hnp, demoNodeWith, demoNode, demoParams] at h
  have hlatch2 : Laser.latchRangeMax s2.rangeMax (wallMsg 1) = .fin 10 := by
    rw [e2']; simp [Laser.latchRangeMax]
  set scan2 : Scan := ((Scan.new 1).setPose ⟨0, 0, 1⟩).setPoints (wallSeen 1) with hscan2
  obtain ⟨fps2, hp2, hf2⟩ := wallMsg_points 1 ⟨0, 0, 1⟩
  set s3 : Sys := { s2 with rangeMax := .fin 10, spin := .window scan2 ⟨0, 0, 1⟩ } with hs3
  have hb : branch np.map s2 (((Scan.new s2.scans.length).setPose (firstPose s2 ⟨0, 0, 1⟩)).setPoints (wallSeen 1))
      ⟨0, 0, 1⟩ = .window scan2 ⟨0, 0, 1⟩ := by
    unfold branch firstPose
    rw [if_neg (by simp [hnp, demoNodeWith, demoNode]), if_pos (by rw [e2']; rfl), if_neg (by simp [hsc2]),
      if_neg (by simp [hsc2]), hsc2, hpred]
    rfl
  have e3 : Mapper.step np.map s2 (wallLaser 1) = .ok s3 := by
    have := step_laser_points np.map s2 (wallMsg 1) (some (Pose2d.zero, false)) Pose2d.zero false ⟨0, 0, 1⟩ ⟨0, 0, 1⟩
      (by rw [e2']) (by rw [e2']; rfl) (by rw [e2']) (Or.inr htl) (by rw [hlatch2]; exact hp2) hf2
    rw [hlatch2, hb] at this
    exact this
  have f3 : Node.step np ⟨s2, some g, some g, none⟩ (.plain (wallLaser 1)) = .ok ⟨s3, some g, some g, none⟩ := by
    have hm : ¬ Node.makesMatchers ⟨s2, some g, some g, none⟩ (some (Pose2d.zero, false)) := by
      rintro ⟨-, h, -⟩
      rw [e2'] at h
      cases h
    show (if Node.makesMatchers ⟨s2, some g, some g, none⟩ (some (Pose2d.zero, false)) then _ else _) = _
    rw [if_neg hm]
    show (Node.mapper _ _ (wallLaser 1)) = _
    unfold Node.mapper
    rw [e3]
    rfl
  -- the window
  have hsee1 : SeesPiece scan1 := wall_sees scan1 0 (by simp [hscan1, Scan.setPoints, Scan.setPose, Pose2d.zero])
    (by simp [hscan1, Scan.setPoints])
  have hsee2 : SeesPiece scan2 := wall_sees scan2 1 (by simp [hscan2, Scan.setPoints, Scan.setPose])
    (by simp [hscan2, Scan.setPoints])
  obtain ⟨mt', hadd, ⟨sc, hsc⟩, hmatch⟩ := hc scan1 scan2 hsee1 hsee2
  have hsc3 : s3.scans = [scan1] := hsc2
  set s4 : Sys := { s3 with localM := some s3.scans, spin := .matching scan2 ⟨0, 0, 1⟩ } with hs4
  have e4 : Mapper.step np.map s3 .addWindow = .ok s4 := by
    unfold Mapper.step addWindow
    simp only [hs3]
    rw [if_neg (by rw [e2']; simp), if_pos]
    show s2.scans.length ≤ _
    rw [hsc2]
    simp [hnp, demoNodeWith, demoNode, demoParams]
  have f4 : Node.step np ⟨s3, some g, some g, none⟩ (.plain .addWindow) = .ok ⟨s4, some g, some mt', none⟩ := by
    simp only [Node.step, hs3]
    rw [← hs3, e4]
    simp only [Res.ok_bind, hs4]
    rw [hsc3]
    rw [show g.reset = g from rfl, hg', hadd]
    rfl
  -- the match
  obtain ⟨r, hr, hrc⟩ := hmatch Pose2d.zero junk
  set scan2' := scan2.setPose (addCorrection c ⟨0, 0, 1⟩) with hscan2'
  obtain ⟨s5, e5, hs5⟩ : ∃ s5, Mapper.step np.map s4 (.localMatched r.score r.pose r.covariance) = .ok s5 ∧
      s5 = { s4 with
        typical := typicalResponse s4.typical r.score,
        spin := .constraint (makeConstraint scan1 scan2' r.covariance) scan2' ⟨0, 0, 1⟩ } := by
    refine ⟨_, ?_, rfl⟩
    have hlast : s4.scans.getLast? = some scan1 := by
      show s3.scans.getLast? = _
      rw [hsc3]; rfl
    simp only [Mapper.step, hs4, localMatched]
    rw [← hs4, hlast, hrc]
    rfl
  have f5 : Node.step np ⟨s4, some g, some mt', none⟩ (.localMatch junk) = .ok ⟨s5, some g, some mt', none⟩ := by
    simp only [Node.step, hs4]
    rw [← hs4, hsc]
    simp only [Res.ok_bind]
    rw [hr]
    simp only [Res.ok_bind, Node.mapper]
    rw [e5]
    rfl
  -- the second scan goes into the graph
  obtain ⟨s6, e6, hs6⟩ : ∃ s6, run np.map s5 [.pushConstraint, .pushScan, .finishScan] = .ok s6 ∧
      s6.scans = [scan1, scan2'] ∧ s6.prevOdom = ⟨0, 0, 1⟩ ∧ s6.prevRobot = scan2'.pose ∧ s6.spin = .idle := by
    have h5 : s5.heap s5.epoch = [scan1] := by
      rw [hs5]
      exact hsc3
    rw [hs5] at h5 ⊢
    simp only at h5
    simp [run_cons, step, run, Sys.scans, h5, Scan.getPose]
  have f6 : Node.run np ⟨s5, some g, some mt', none⟩ [.plain .pushConstraint, .plain .pushScan, .plain .finishScan] =
      .ok ⟨s6, some g, some mt', none⟩ := by
    rw [run_cons] at e6
    obtain ⟨u, eu, e6⟩ := bind_ok e6
    rw [run_cons] at e6
    obtain ⟨v, ev, e6⟩ := bind_ok e6
    rw [run_cons] at e6
    obtain ⟨w, ew, e6⟩ := bind_ok e6
    cases e6
    rw [Node.run_cons]
    show (Node.mapper _ _ _ >>= _) = _
    unfold Node.mapper
    rw [eu]
    simp only [Res.ok_bind]
    rw [Node.run_cons]
    show (Node.mapper _ _ _ >>= _) = _
    unfold Node.mapper
    rw [ev]
    simp only [Res.ok_bind]
    rw [Node.run_cons]
    show (Node.mapper _ _ _ >>= _) = _
    unfold Node.mapper
    rw [ew]
    rfl
  obtain ⟨q1, q2, q3, q4⟩ := hs6
  refine ⟨⟨s4, some g, some mt', none⟩, ⟨s5, some g, some mt', none⟩, ⟨s6, some g, some mt', none⟩, scan1, scan2, mt', h0, ?_,
    ⟨rfl, rfl, hsee1, hsee2, hadd⟩, f5, f6, ?_, q2, ?_, q4, ?_⟩
  · rw [show ([.plain (wallLaser 0), .plain .pushScan, .plain .finishScan, .plain (wallLaser 1), .plain .addWindow] :
        List Input) = .plain (wallLaser 0) :: ([.plain .pushScan, .plain .finishScan] ++
          [.plain (wallLaser 1), .plain .addWindow]) from rfl,
      Node.run_cons, f1, Res.ok_bind, Node.run_append, f2, Res.ok_bind, Node.run_cons, f3, Res.ok_bind, Node.run_cons, f4]
    rfl
  · show s6.scans.map _ = _
    rw [q1]
    simp [hscan1, hscan2', Scan.setPoints, Scan.setPose]
  · show s6.prevRobot = _
    rw [q3]
    simp [hscan2', Scan.setPose]
  · show ∀ scan ∈ s6.scans, _
    rw [q1]
    intro scan hscan
    simp only [List.mem_cons, List.not_mem_nil, or_false] at hscan
    rcases hscan with rfl | rfl
    · left; simp [hscan1, Scan.setPoints]
    · right; simp [hscan2', hscan2, Scan.setPoints, Scan.setPose]

/-! ## C124 -/

/-- The odometry poses of the laser messages that a node receives, in order. -/
def odometryOf (is : List Input) : List Pose2d :=
  is.filterMap fun
    | .plain (.laser _ _ odom _) => odom
    | _ => none

/-- What a node with exact sensors receives while nobody sets poses or loads maps and the loop closure thread does not
match. -/
def ExactInput (W : Set Point) (lt : Pose2d) (inverted : Bool) (limit : ℝ) (i : Input) : Prop :=
  (∀ e, i = .plain e → Honest W lt inverted limit e ∧ ¬ Loads e) ∧ (∀ junk, i ≠ .loopMatch junk) ∧
    ∀ msg odom visit nrm, i ≠ .pose msg odom visit nrm

/-- The scan fits the map of the matcher strictly best where it is: better than at any other offset of the search. -/
def FitsBestHere (m : Matcher) (scan : Scan) : Prop :=
  scan.points.length < 2 ^ 64 ∧ ∃ g v, m.ndt = some g ∧ 0 < v ∧
    InWindow m.linearSize m.linearRes m.angularSize m.angularRes Pose2d.zero ∧
    candidate m g scan Pose2d.zero = .ok (.fin v) ∧
    ∀ o, InWindow m.linearSize m.linearRes m.angularSize m.angularRes o → o ≠ Pose2d.zero →
      ∃ v' < v, candidate m g scan o = .ok (.fin v')

/-- Scans that are matched fit best where odometry puts them. -/
def FitsBest (n : Node) (i : Input) : Prop :=
  (∀ junk scan odom l, i = .localMatch junk → n.sys.spin = .matching scan odom → n.localN = some l → FitsBestHere l scan) ∧
  ∀ junk scan odom g, i = .globalMatch junk → n.sys.spin = .localise scan odom → n.globalN = some g → FitsBestHere g scan

theorem fits_best_stays {cfg m : Matcher} {scan : Scan} (hp : HasParams cfg m) (hl : 0 < cfg.linearRes)
    (ha : 0 < cfg.angularRes) (hb : FitsBestHere m scan) {junk : Mat3F} {r : Matcher.MatchResult}
    (hr : m.matchScan scan Pose2d.zero junk = .ok r) : r.pose = Pose2d.zero := by
  obtain ⟨hn, g, v, hg, hv0, hw, hv, hlt⟩ := hb
  obtain ⟨r', nd, e⟩ := hp
  exact c123_strictly_best_is_taken_partial hg (by rw [e]; exact hl) (by rw [e]; exact ha) scan hn _ _ hr _ hw v hv0 hv hlt

/-- A node with exact sensors whose scans fit best where odometry puts them is a mapper in an ideal world. -/
theorem exact_node_ideal {np : NodeParams} (hf : np.map.useFilter = false) {W : Set Point} {lt : Pose2d} {inverted : Bool}
    {limit : ℝ} (hl : 0 < np.localCfg.linearRes) (ha : 0 < np.localCfg.angularRes) (hgl : 0 < np.globalCfg.linearRes)
    (hga : 0 < np.globalCfg.angularRes) {enable : Bool} {n t : Node} {is : List Input}
    (h0 : Node.start np enable none = .ok n)
    (h : NodeExec np (fun n i => ExactInput W lt inverted limit i ∧ FitsBest n i) n is t) :
    ∃ es, Exec np.map (InWorld W lt inverted limit) n.sys es t.sys ∧ (odometry es).Sublist (odometryOf is) ∧
      Node.Tied np t := by
  induction h with
  | nil => exact ⟨[], .nil, by simp [odometry, odometryOf], Node.tied_start h0⟩
  | @snoc is u u' i _ hA hs ih =>
    obtain ⟨es, h1, h2, hT⟩ := ih
    obtain ⟨⟨hx1, hx2, hx3⟩, hb1, hb2⟩ := hA
    have hT' := Node.tied_step hT hs
    have app : ∀ e, (odometry [e]).Sublist (odometryOf [i]) →
        (odometry (es ++ [e])).Sublist (odometryOf (is ++ [i])) := by
      intro e he
      have := h2.append he
      unfold odometry odometryOf at this ⊢
      rwa [List.filterMap_append, List.filterMap_append]
    have fin : ∀ e, Mapper.step np.map u.sys e = .ok u'.sys → InWorld W lt inverted limit u.sys e →
        (odometry [e]).Sublist (odometryOf [i]) → ∃ es, Exec np.map (InWorld W lt inverted limit) n.sys es u'.sys ∧
          (odometry es).Sublist (odometryOf (is ++ [i])) ∧ Node.Tied np u' :=
      fun e hst hw hsub => ⟨es ++ [e], .snoc h1 hw hst, app e hsub, hT'⟩
    cases Node.step_ntrans hs with
    | stutter =>
      refine ⟨es, h1, h2.trans ?_, hT'⟩
      unfold odometryOf
      rw [List.filterMap_append]
      exact List.sublist_append_left _ _
    | plain e s hc hw hl' hm hst =>
      obtain ⟨hh, hload⟩ := hx1 e rfl
      refine fin e hst ⟨⟨?_, ?_, ?_, hload⟩, hh⟩ ?_
      · rintro _ _ _ rfl; exact absurd trivial hc
      · cases e <;> first | trivial | exact absurd trivial hc
      · rintro _ _ _ rfl; exact absurd trivial hc
      · cases e <;> first | exact List.Sublist.refl _ | simp [odometry]
    | makes msg mount odom odomEnd r g s hm hr hg hst =>
      obtain ⟨hh, hload⟩ := hx1 _ rfl
      exact fin _ hst ⟨⟨by simp [FindsNothing], trivial, by simp, hload⟩, hh⟩ (List.Sublist.refl _)
    | addWindow scan odom s l l' w hi hl' hw haa hst =>
      exact fin _ hst ⟨⟨by simp [FindsNothing], trivial, by simp, by simp [Loads]⟩, trivial⟩ (by simp [odometry])
    | loopMap q q' c s g g' w hi hi' hg hw haa hst =>
      exact fin _ hst ⟨⟨by simp [FindsNothing], trivial, by simp, by simp [Loads]⟩, trivial⟩ (by simp [odometry])
    | localMatch junk scan odom l sc r s hi hl' hsc hr hst =>
      have := fits_best_stays (hT.lcfg l hl') hl ha (hb1 junk scan odom l rfl hi hl') hr
      exact fin _ hst ⟨⟨by simp [FindsNothing], this, by simp, by simp [Loads]⟩, trivial⟩ (by simp [odometry])
    | globalMatch junk scan odom g sc r s hi hg hsc hr hst =>
      have := fits_best_stays (hT.gcfg g hg) hgl hga (hb2 junk scan odom g rfl hi hg) hr
      exact fin _ hst ⟨⟨by simp [FindsNothing], this, by simp, by simp [Loads]⟩, trivial⟩ (by simp [odometry])
    | loopMatch junk => exact absurd rfl (hx2 junk)
    | filterScan nrm draw scan odom f f1 f2 f3 g mean s hi hf' hg _ _ _ _ hst =>
      exact fin _ hst ⟨⟨by simp [FindsNothing], trivial, by simp, by simp [Loads]⟩, trivial⟩ (by simp [odometry])
    | poseInit msg odom visit nrm => exact absurd rfl (hx3 msg odom visit nrm)
    | pose msg odom visit nrm => exact absurd rfl (hx3 msg odom visit nrm)

/-- **C124** (partial: as long as every matched scan fits strictly best where odometry puts it, and the loop closure
thread does not match) The poses of the scans are the true ones: one rigid transform takes the true pose of the robot at
every scan, in the frame of odometry, to the pose in the map. -/
theorem c124_poses_are_true_partial {np : NodeParams} (hf : np.map.useFilter = false) {W : Set Point} {lt : Pose2d}
    {inverted : Bool} {limit : ℝ} (hl : 0 < np.localCfg.linearRes) (ha : 0 < np.localCfg.angularRes)
    (hgl : 0 < np.globalCfg.linearRes) (hga : 0 < np.globalCfg.angularRes) {enable : Bool} {n t : Node} {is : List Input}
    (h0 : Node.start np enable none = .ok n)
    (h : NodeExec np (fun n i => ExactInput W lt inverted limit i ∧ FitsBest n i) n is t) :
    ∃ (T : Iso) (os : List Pose2d), os.Sublist (odometryOf is) ∧
      List.Forall₂ (fun o (x : Scan) => ∀ q, T.apply (move o q) = move x.pose q) os t.sys.scans ∧
      ∀ o, os.head? = some o → T = (toEigen o).inverse := by
  obtain ⟨es, h1, h2, -⟩ := exact_node_ideal hf hl ha hgl hga h0 h
  obtain ⟨T, os, k1, k2, k3⟩ := c78_map_is_moved_odometry np.map hf enable n.sys t.sys es (Node.start_sys h0).1
    (Exec.mono (A := InWorld W lt inverted limit) (fun _ _ h => h.1) h1)
  exact ⟨T, os, k1.trans h2, k2, k3⟩

theorem NodeExec.append {np : NodeParams} {A : Node → Input → Prop} {n m t : Node} {is js : List Input}
    (h1 : NodeExec np A n is m) (h2 : NodeExec np A m js t) : NodeExec np A n (is ++ js) t := by
  induction h2 with
  | nil => rwa [List.append_nil]
  | snoc _ ha hs ih => rw [← List.append_assoc]; exact .snoc ih ha hs

theorem exact_localMatch {W : Set Point} {lt : Pose2d} {inverted : Bool} {limit : ℝ} (junk : Mat3F) :
    ExactInput W lt inverted limit (.localMatch junk) := ⟨by simp, by simp, by simp⟩

theorem exact_wall_inputs : ∀ i ∈ ([.plain (wallLaser 0), .plain .pushScan, .plain .finishScan, .plain (wallLaser 1),
      .plain .addWindow] ++ [.plain .pushConstraint, .plain .pushScan, .plain .finishScan] : List Input),
    ExactInput wallWorld Pose2d.zero false 10 i := by
  intro i hi
  simp only [List.mem_append, List.mem_cons, List.not_mem_nil, or_false] at hi
  rcases hi with (rfl | rfl | rfl | rfl | rfl) | rfl | rfl | rfl
  all_goals
    refine ⟨?_, by simp, by simp⟩
    intro e he
    injection he with he
    subst he
    first
      | exact ⟨wallLaser_honest _, by simp [wallLaser, Loads]⟩
      | exact ⟨trivial, by simp [Loads]⟩

theorem pushed_of_piece (s1 s2 : Scan) (h1 : SeesPiece s1) (h2 : SeesPiece s2) :
    ∃ mt', Matcher.addScans { defaultMatcher with rangeMax := 10 } [s1] = .ok mt' ∧
      (∃ sc, mt'.scoreScan s2 = .ok sc) ∧ ∀ pose cov, ∃ r, mt'.matchScan s2 pose cov = .ok r ∧
        r.pose = ⟨-0.05, 0, 0⟩ := by
  obtain ⟨mt', hadd, hm⟩ := piece_pushed s1 s2 h1 h2
  obtain ⟨g, e, -⟩ := addScans_computed hadd
  refine ⟨mt', hadd, ?_, fun pose cov => ?_⟩
  · obtain ⟨r, hr, -⟩ := hm Pose2d.zero (fun _ _ => .fin 0)
    obtain ⟨sc, hsc, -⟩ := c15_match_not_worse_than_score (by rw [e] : mt'.ndt = some g) (by rw [e]; norm_num [defaultMatcher])
      (by rw [e]; norm_num [defaultMatcher]) 10 40 (by norm_num) (by norm_num) (by rw [e]; norm_num [defaultMatcher])
      (by rw [e]; norm_num [defaultMatcher]) s2 (lt_of_le_of_lt h2.few (by norm_num)) _ _ hr
    exact ⟨sc, hsc⟩
  · obtain ⟨r, hr, hp, -⟩ := hm pose cov
    exact ⟨r, hr, hp⟩

/-- **C124** (refuted) A robot with exact odometry and an exact laser, running the node with the default parameters,
turns on the spot in front of a straight wall. The map then has it 5 cm from where it is, the wall shifted along
itself: the second scan has the pose `(-0.05, 0, 1)` although the robot never left the origin. -/
theorem c124_turning_before_a_wall (junk : Mat3F) : ∃ n0 is t, Node.start (demoNode false) true none = .ok n0 ∧
    NodeExec (demoNode false) (fun _ i => ExactInput wallWorld Pose2d.zero false 10 i) n0 is t ∧
    odometryOf is = [Pose2d.zero, ⟨0, 0, 1⟩] ∧ t.sys.spin = .idle ∧
    t.sys.scans.map (·.pose) = [Pose2d.zero, ⟨-0.05, 0, 1⟩] ∧ t.sys.prevOdom = ⟨0, 0, 1⟩ ∧
    t.sys.prevRobot = ⟨-0.05, 0, 1⟩ := by
  obtain ⟨n0, n4, n5, t, s1, s2, mt', h0, hr1, -, hr2, hr3, h1, h2, h3, h4, -⟩ :=
    wall_run defaultMatcher rfl ⟨-0.05, 0, 0⟩ junk pushed_of_piece
  have e : addCorrection ⟨-0.05, 0, 0⟩ ⟨0, 0, 1⟩ = (⟨-0.05, 0, 1⟩ : Pose2d) := by simp [addCorrection]
  rw [e] at h1 h3
  refine ⟨n0, _, t, h0, NodeExec.append (.snoc (Node.exec_of_run _ hr1 ?_) (exact_localMatch junk) hr2)
    (Node.exec_of_run _ hr3 ?_), by simp [odometryOf, wallLaser, Pose2d.zero], h4, h1, h2, h3⟩
  · exact fun _ i hi => exact_wall_inputs i (List.mem_append_left _ hi)
  · exact fun _ i hi => exact_wall_inputs i (List.mem_append_right _ hi)

/-! ### A search with wide steps -/

/-- The default parameters but for steps of 100 m and 0.1 rad, of which the search makes two each: eight offsets. -/
def wideMatcher : Matcher :=
  { defaultMatcher with linearRes := 100, linearSize := 100, angularRes := 1 / 10, angularSize := 1 / 10 }

theorem wide_window {o : Pose2d} (h : InWindow 100 100 (1 / 10) (1 / 10) o) :
    (o.x = -100 ∨ o.x = 0) ∧ (o.y = -100 ∨ o.y = 0) ∧ (o.theta = -(1 / 10) ∨ o.theta = 0) := by
  have two : ∀ (k : ℕ) (c x : ℝ), 0 < c → x = -c + k * c → x < c → x = -c ∨ x = 0 := by
    intro k c x hc e hx
    have : (k : ℝ) < 2 := by
      by_contra hk
      push Not at hk
      nlinarith
    have hk : k < 2 := by exact_mod_cast this
    rcases (by omega : k = 0 ∨ k = 1) with rfl | rfl
    · left; rw [e]; simp
    · right; rw [e]; simp
  obtain ⟨⟨k1, e1, l1⟩, ⟨k2, e2, l2⟩, k3, e3, l3⟩ := h
  exact ⟨two k1 100 _ (by norm_num) e1 l1, two k2 100 _ (by norm_num) e2 l2, two k3 (1 / 10) _ (by norm_num) e3 l3⟩

/-- A scan of the piece of wall fits best where it is among these eight offsets. -/
theorem piece_fits (s1 s2 : Scan) (h1 : SeesPiece s1) (h2 : SeesPiece s2) :
    ∃ mt', Matcher.addScans { wideMatcher with rangeMax := 10 } [s1] = .ok mt' ∧ FitsBestHere mt' s2 := by
  obtain ⟨g, hm, e1, e2, e0, e3, e4⟩ := piece_goodMap { wideMatcher with rangeMax := 10 }
    (by norm_num [wideMatcher, defaultMatcher]) rfl s1 h1
  refine ⟨_, hm.ok, lt_of_le_of_lt h2.few (by norm_num), g, (s2.points.length : ℕ), rfl, ?_, ?_, ?_, ?_⟩
  · have := h2.five
    exact_mod_cast (by omega : 0 < s2.points.length)
  · show InWindow 100 100 (1 / 10) (1 / 10) Pose2d.zero
    refine ⟨⟨1, ?_, ?_⟩, ⟨1, ?_, ?_⟩, ⟨1, ?_, ?_⟩⟩ <;> norm_num [Pose2d.zero]
  all_goals
    have hS : samples s2.points (beamCount 100 s2.points.length) = s2.points := (c12_samples_are_points _ _).2.2 h2.few
    obtain ⟨sx, sy, hx, hy, hc, hsm, hg, hsx, hsy⟩ := hm.params
    have hwall : ∀ p ∈ mapPoints ([s1].map .addScan), p.y = 1 / 10 := by
      rw [piece_points]
      intro p hp
      obtain ⟨q, hq, rfl⟩ := List.mem_map.mp hp
      exact (h1.on q hq).1
    have hnorm : ∀ p ∈ s2.points, p.x ^ 2 + p.y ^ 2 ≤ 1 := by
      intro p hp
      obtain ⟨a1, a2, a3⟩ := h2.on p hp
      have e : p.x ^ 2 + p.y ^ 2 = (move s2.pose p).x ^ 2 + (move s2.pose p).y ^ 2 := by
        simp only [move, h2.x, h2.y, zero_add]
        have := Real.sin_sq_add_cos_sq s2.pose.theta
        linear_combination -(p.x ^ 2 + p.y ^ 2) * this
      rw [e, a1]
      nlinarith
    have hball : ∀ p ∈ s2.points, ∀ th : ℝ, p.x * Real.cos th - p.y * Real.sin th ≤ 1 ∧
        p.x * Real.sin th + p.y * Real.cos th ≤ 1 := by
      intro p hp th
      have hn := hnorm p hp
      have c := Real.sin_sq_add_cos_sq th
      constructor
      · nlinarith [sq_nonneg (p.x * Real.sin th + p.y * Real.cos th), sq_nonneg (p.x * Real.cos th - p.y * Real.sin th - 1)]
      · nlinarith [sq_nonneg (p.x * Real.cos th - p.y * Real.sin th), sq_nonneg (p.x * Real.sin th + p.y * Real.cos th - 1)]
  · show NdtGrid.likelihoodPoints g ((samples s2.points (beamCount 100 s2.points.length)).map
      (move (offset s2.pose Pose2d.zero))) = _
    rw [hS, likelihoodPoints_sum g (fun _ => 1)]
    · simp [Function.comp_def]
    · intro p hp
      obtain ⟨q, hq, rfl⟩ := List.mem_map.mp hp
      have hz : offset s2.pose Pose2d.zero = s2.pose := by simp [offset, Pose2d.zero]
      rw [hz]
      obtain ⟨a1, a2, a3⟩ := h2.on q hq
      refine (c123_wall_gives_no_hold hm hwall _ ?_).1 ?_ ?_ a1
      · rw [e0, e1, e2]
        constructor <;> norm_num <;> linarith
      · rw [e0, e1, e2, piece_square (h2.on q hq), piece_points, piece_inSquare h1, List.length_map]
        exact h1.five
      · rw [e0, e1, e2, e3, e4]
        unfold InExtents
        rw [a1]
        refine ⟨?_, ?_, ?_, ?_⟩ <;> norm_num <;> linarith
  · intro o ho hne
    obtain ⟨ox, oy, ot⟩ := wide_window ho
    have hle : o.x ≤ 0 ∧ o.y ≤ 0 := by constructor <;> rcases ox with h | h <;> rcases oy with h' | h' <;> linarith
    have hnear : ∀ p ∈ s2.points, Near g.originX g.originY g.cellSize (move (offset s2.pose o) p) := by
      intro p hp
      obtain ⟨b1, b2⟩ := hball p hp (s2.pose.theta + o.theta)
      rw [e0, e1, e2]
      constructor
      · simp only [move, offset, h2.x, zero_add]; norm_num; linarith
      · simp only [move, offset, h2.y, zero_add]; norm_num; linarith
    have hval : ∀ p, ∃ v : ℝ, Near g.originX g.originY g.cellSize p → g.likelihood p = .ok (.fin v) ∧ v ≤ 1 ∧
        (¬ InExtents g.originX g.originY g.cellSize (cols sx g.cellSize) (cols sy g.cellSize) p → v = 0) := by
      intro p
      by_cases hp : Near g.originX g.originY g.cellSize p
      · obtain ⟨v, hv, -, h1, h0⟩ := c09_point_likelihood_bounded hc hx hy hsm _ hm.near hm.nodeg hg p hp
        exact ⟨v, fun _ => ⟨hv, h1, h0⟩⟩
      · exact ⟨0, fun h => absurd h hp⟩
    choose f hf using hval
    refine ⟨((s2.points.map (move (offset s2.pose o))).map f).sum, ?_, ?_⟩
    · obtain ⟨p, hp, -⟩ := h2.two
      have hlt : f (move (offset s2.pose o) p) < 1 := by
        obtain ⟨b1, b2⟩ := hball p hp (s2.pose.theta + o.theta)
        obtain ⟨k1, k2, k3⟩ := hf _ (hnear p hp)
        obtain ⟨a1, a2, a3⟩ := h2.on p hp
        simp only [move, h2.x, h2.y, zero_add] at a1 a2 a3
        rcases ox with hox | hox
        · rw [k3]
          · exact one_pos
          · rintro ⟨h, -⟩
            rw [e1] at h
            simp only [move, offset, h2.x, zero_add, hox] at h
            linarith
        · have hoff : (move (offset s2.pose o) p).y ≠ 1 / 10 := by
            simp only [move, offset, h2.y, zero_add]
            rcases oy with hoy | hoy
            · rw [hoy]; linarith
            · rcases ot with hot | hot
              · rw [hoy, hot, Real.sin_add, Real.cos_add, Real.sin_neg, Real.cos_neg]
                have hs : 0 < Real.sin (1 / 10) := Real.sin_pos_of_pos_of_lt_pi (by norm_num) (by
                  have := Real.two_le_pi; linarith)
                have hc := Real.cos_le_one (1 / 10)
                intro h
                nlinarith
              · exact absurd (by obtain ⟨x, y, z⟩ := o; simp only at hox hoy hot; rw [hox, hoy, hot]; rfl) hne
          obtain ⟨v, hv, e⟩ := (c123_wall_gives_no_hold hm hwall _ (hnear p hp)).2 hoff
          rw [k1] at e
          cases e
          exact hv
      have := sum_lt_length f (s2.points.map (move (offset s2.pose o))) (fun q hq => by
        obtain ⟨q', hq', rfl⟩ := List.mem_map.mp hq
        exact (hf _ (hnear q' hq')).2.1) _ (List.mem_map_of_mem hp) hlt
      rwa [List.length_map] at this
    · show NdtGrid.likelihoodPoints g ((samples s2.points (beamCount 100 s2.points.length)).map
        (move (offset s2.pose o))) = _
      rw [hS]
      apply likelihoodPoints_sum
      intro p hp
      obtain ⟨q, hq, rfl⟩ := List.mem_map.mp hp
      exact (hf _ (hnear q hq)).1

theorem wide_stays (s1 s2 : Scan) (h1 : SeesPiece s1) (h2 : SeesPiece s2) :
    ∃ mt', Matcher.addScans { wideMatcher with rangeMax := 10 } [s1] = .ok mt' ∧
      (∃ sc, mt'.scoreScan s2 = .ok sc) ∧ ∀ pose cov, ∃ r, mt'.matchScan s2 pose cov = .ok r ∧ r.pose = Pose2d.zero := by
  obtain ⟨mt', hadd, hn, g, v, hg, hv0, hw, hv, hlt⟩ := piece_fits s1 s2 h1 h2
  obtain ⟨g', e, -⟩ := addScans_computed hadd
  have hl : 0 < mt'.linearRes := by rw [e]; norm_num [wideMatcher]
  have ha : 0 < mt'.angularRes := by rw [e]; norm_num [wideMatcher]
  have hdef : ∀ pose cov, ∃ r, mt'.matchScan s2 pose cov = .ok r := by
    intro pose cov
    refine c13_match_defined hg hl ha s2 hn pose cov fun o ho => ?_
    by_cases hz : o = Pose2d.zero
    · rw [hz]; exact ⟨_, hv⟩
    · obtain ⟨v', -, hv'⟩ := hlt o ho hz
      exact ⟨_, hv'⟩
  refine ⟨mt', hadd, ?_, fun pose cov => ?_⟩
  · obtain ⟨r, hr⟩ := hdef Pose2d.zero (fun _ _ => .fin 0)
    obtain ⟨sc, hsc, -⟩ := c15_match_not_worse_than_score hg hl ha 1 1 (by norm_num) (by norm_num)
      (by rw [e]; norm_num [wideMatcher]) (by rw [e]; norm_num [wideMatcher]) s2 hn _ _ hr
    exact ⟨sc, hsc⟩
  · obtain ⟨r, hr⟩ := hdef pose cov
    exact ⟨r, hr, c123_strictly_best_is_taken_partial hg hl ha s2 hn _ _ hr _ hw v hv0 hv hlt⟩

/-- A case of the hypotheses of `c124_poses_are_true_partial`: the same robot with these steps. It is found where it is. -/
example (junk : Mat3F) : ∃ n0 is t, Node.start (demoNodeWith wideMatcher) true none = .ok n0 ∧
    NodeExec (demoNodeWith wideMatcher) (fun n i => ExactInput wallWorld Pose2d.zero false 10 i ∧ FitsBest n i) n0 is t ∧
    odometryOf is = [Pose2d.zero, ⟨0, 0, 1⟩] ∧ t.sys.spin = .idle ∧
    t.sys.scans.map (·.pose) = [Pose2d.zero, ⟨0, 0, 1⟩] := by
  obtain ⟨n0, n4, n5, t, s1, s2, mt', h0, hr1, ⟨k1, k2, k3, k4, k5⟩, hr2, hr3, h1, h2, h3, h4, -⟩ :=
    wall_run wideMatcher rfl Pose2d.zero junk wide_stays
  have e : addCorrection Pose2d.zero ⟨0, 0, 1⟩ = (⟨0, 0, 1⟩ : Pose2d) := by simp [addCorrection, Pose2d.zero]
  rw [e] at h1
  have hbest : FitsBest n4 (.localMatch junk) := by
    refine ⟨?_, by simp⟩
    intro _ scan odom l _ hsp hln
    rw [k1] at hsp
    rw [k2] at hln
    cases hsp
    cases hln
    obtain ⟨mt2, e2, hb⟩ := piece_fits s1 s2 k3 k4
    rw [k5] at e2
    cases e2
    exact hb
  have plain : ∀ (is : List Input), (∀ i ∈ is, ∃ e, i = .plain e) → ∀ n : Node, ∀ i ∈ is, FitsBest n i := by
    intro is his n i hi
    obtain ⟨e, rfl⟩ := his i hi
    exact ⟨by simp, by simp⟩
  refine ⟨n0, _, t, h0, NodeExec.append (.snoc (Node.exec_of_run _ hr1 ?_) ⟨exact_localMatch junk, hbest⟩ hr2)
    (Node.exec_of_run _ hr3 ?_), by simp [odometryOf, wallLaser, Pose2d.zero], h4, h1⟩
  · exact fun n i hi => ⟨exact_wall_inputs i (List.mem_append_left _ hi), plain _ (by simp) n i hi⟩
  · exact fun n i hi => ⟨exact_wall_inputs i (List.mem_append_right _ hi), plain _ (by simp) n i hi⟩

end

end Ndt
