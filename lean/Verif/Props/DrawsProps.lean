import Verif.Model.Draws
import Verif.Proof.FilterF
import Verif.Proof.Single
import Verif.Props.FilterModeProps

/-! # Property C134: the deviations of the filter's normal distributions -/

namespace Ndt

noncomputable section

open Real Spec Mapper

theorem sqrt_positive (a : ℝ) : Fl.fin 0 < Fl.sqrt (.fin a) ↔ 0 < a := by
  rcases lt_or_ge a 0 with h | h
  · rw [Fl.sqrt_neg h]
    exact ⟨fun h => h.elim, fun h' => absurd h' (not_lt.mpr h.le)⟩
  · rw [Fl.sqrt_fin h, Fl.fin_lt, Real.sqrt_pos]

theorem rad_positive (m : MotionModel) (h1 : 0 < m.a1) (h2 : 0 < m.a2) (h3 : 0 < m.a3) (h4 : 0 < m.a4) (d : Pose2d) (hd : d.x ≠ 0 ∨ d.y ≠ 0) :
    0 < m.radRot1 d.x d.y d.theta ∧ 0 < m.radTrans d.x d.y d.theta ∧ 0 < m.radRot2 d.x d.y d.theta := by
  have ht : 0 < MotionModel.trans d.x d.y := by
    refine Real.sqrt_pos.mpr ?_
    rcases hd with h | h
    · have := sq_pos_of_ne_zero h; positivity
    · have := sq_pos_of_ne_zero h; positivity
  have hf1 := fold_nonneg (MotionModel.rot1 d.x d.y)
  have hf2 := fold_nonneg (MotionModel.rot2 d.x d.y d.theta)
  refine ⟨?_, ?_, ?_⟩
  · unfold MotionModel.radRot1; positivity
  · unfold MotionModel.radTrans; positivity
  · unfold MotionModel.radRot2; positivity

/-- Turning on the spot, the first rotation has no noise. -/
theorem rad_turning (m : MotionModel) (dth : ℝ) : m.radRot1 0 0 dth = 0 := by
  have := (c29_no_motion_no_noise m).1
  exact this

/-- **C134** With positive coefficients the three distributions of a motion have positive deviations exactly when the robot changed its place. -/
theorem c134_motion_iff (m : MotionModel) (h1 : 0 < m.a1) (h2 : 0 < m.a2) (h3 : 0 < m.a3) (h4 : 0 < m.a4) (d : Pose2d) :
    (∀ a ∈ m.asked d, Fl.fin 0 < a.2) ↔ d.x ≠ 0 ∨ d.y ≠ 0 := by
  constructor
  · intro h
    by_contra hn
    rw [not_or, not_not, not_not] at hn
    have := h _ (List.mem_cons_self ..)
    rw [sqrt_positive, hn.1, hn.2, rad_turning] at this
    exact lt_irrefl _ this
  · intro hd
    obtain ⟨e1, e2, e3⟩ := rad_positive m h1 h2 h3 h4 d hd
    intro a ha
    simp only [MotionModel.asked, List.mem_cons, List.not_mem_nil, or_false] at ha
    rcases ha with rfl | rfl | rfl
    · exact (sqrt_positive _).mpr e1
    · exact (sqrt_positive _).mpr e2
    · exact (sqrt_positive _).mpr e3

/-- Odometry that stays in place is a motion without a change of place, and only that is. -/
theorem motion_in_place {a b m : Pose2d} (h : IsMotion a b m) : (m.x = 0 ∧ m.y = 0) ↔ (b.x = a.x ∧ b.y = a.y) := by
  obtain ⟨⟨ex, ey, -⟩, -⟩ := h
  simp only [compose] at ex ey
  constructor
  · rintro ⟨h1, h2⟩
    rw [h1, h2] at ex ey
    constructor <;> linarith
  · rintro ⟨h1, h2⟩
    rw [h1] at ex
    rw [h2] at ey
    have e := sin_sq_add_cos_sq a.theta
    have p1 : cos a.theta * m.x - sin a.theta * m.y = 0 := by linarith
    have p2 : sin a.theta * m.x + cos a.theta * m.y = 0 := by linarith
    constructor
    · linear_combination cos a.theta * p1 + sin a.theta * p2 - m.x * e
    · linear_combination -sin a.theta * p1 + cos a.theta * p2 - m.y * e

/-- **C134** (partial: when the odometry changed its place, with positive coefficients and a map that has a scan) Whatever happened before, the
distributions that the filter draws the motion from have positive deviations, so that a node that checks them does what one does that does not;
and only then. -/
theorem c134_moving_robot_partial (np : NodeParams) (W : Graph → Prop) (n : Node) (h : NodeReach np W Whatever n) {scan : Scan} {odom : Pose2d}
    (hi : n.sys.spin = .filter scan odom) (hne : n.sys.scans ≠ []) {f : Filter} {g : Matcher} (hf : n.filter = some f) (hg : n.globalN = some g)
    (h1 : 0 < f.motion.a1) (h2 : 0 < f.motion.a2) (h3 : 0 < f.motion.a3) (h4 : 0 < f.motion.a4) (nrm : MotionModel.Draws) (draw : ℕ → ℕ) :
    ((∀ a ∈ n.asked np (.filterScan nrm draw), Fl.fin 0 < a.2) ↔ odom.x ≠ n.sys.prevOdom.x ∨ odom.y ≠ n.sys.prevOdom.y) ∧
    (odom.x ≠ n.sys.prevOdom.x ∨ odom.y ≠ n.sys.prevOdom.y →
      n.checkedStep np (.filterScan nrm draw) = n.step np (.filterScan nrm draw)) := by
  have hpl := filterPlace_reach h scan odom hi hne
  have hm := c82_control_is_odometry_motion n.sys.prevOdom n.sys.prevRobot odom
  have ha : n.asked np (.filterScan nrm draw) = f.motion.asked (Node.control n.sys.prevRobot (predict n.sys.prevOdom n.sys.prevRobot odom)) := by
    simp only [Node.asked, hi, hf, hg]
    rw [← hpl]
    rfl
  have key : (∀ a ∈ n.asked np (.filterScan nrm draw), Fl.fin 0 < a.2) ↔ odom.x ≠ n.sys.prevOdom.x ∨ odom.y ≠ n.sys.prevOdom.y := by
    rw [ha, c134_motion_iff f.motion h1 h2 h3 h4, ← not_and_or, ← not_and_or, motion_in_place hm]
  exact ⟨key, fun hd => if_pos (key.mpr hd)⟩

/-- **C134** (refuted) Whatever happened before and whatever the coefficients, a robot that turned on the spot has its first rotation drawn from a
distribution with the deviation zero; a node that checks ends. -/
theorem c134_turning_on_the_spot (np : NodeParams) (W : Graph → Prop) (n : Node) (h : NodeReach np W Whatever n) {scan : Scan} {odom : Pose2d}
    (hi : n.sys.spin = .filter scan odom) (hne : n.sys.scans ≠ []) {f : Filter} {g : Matcher} (hf : n.filter = some f) (hg : n.globalN = some g)
    (hx : odom.x = n.sys.prevOdom.x) (hy : odom.y = n.sys.prevOdom.y) (nrm : MotionModel.Draws) (draw : ℕ → ℕ) :
    (∃ mean, (mean, Fl.fin 0) ∈ n.asked np (.filterScan nrm draw)) ∧ n.checkedStep np (.filterScan nrm draw) = .error .abort := by
  have hpl := filterPlace_reach h scan odom hi hne
  have hm := c82_control_is_odometry_motion n.sys.prevOdom n.sys.prevRobot odom
  obtain ⟨m1, m2⟩ := (motion_in_place hm).mpr ⟨hx, hy⟩
  have ha : n.asked np (.filterScan nrm draw) = f.motion.asked (Node.control n.sys.prevRobot (predict n.sys.prevOdom n.sys.prevRobot odom)) := by
    simp only [Node.asked, hi, hf, hg]
    rw [← hpl]
    rfl
  have hmem : ∃ mean, (mean, Fl.fin 0) ∈ n.asked np (.filterScan nrm draw) := by
    refine ⟨MotionModel.rot1 0 0, ?_⟩
    rw [ha, MotionModel.asked, m1, m2, rad_turning, Fl.sqrt_fin le_rfl, Real.sqrt_zero]
    exact List.mem_cons_self ..
  refine ⟨hmem, if_neg fun hall => ?_⟩
  obtain ⟨mean, hmean⟩ := hmem
  have := hall _ hmean
  simp only [Fl.fin_lt, lt_self_iff_false] at this

/-- **C134** The distributions of an initial pose have positive deviations exactly when its three variances are positive; with a variance of
zero, as in a message that leaves them out, a node that checks ends. -/
theorem c134_initial_pose_iff (np : NodeParams) (n : Node) {f : Filter} (hf : n.filter = some f) (msg : PoseMsg) (odom : Option Pose2d) (visit : List ℕ)
    (nrm : MotionModel.Draws) (hi : Node.initsFilter np n msg odom visit) :
    ((∀ a ∈ n.asked np (.pose msg odom visit nrm), Fl.fin 0 < a.2) ↔ 0 < msg.covX ∧ 0 < msg.covY ∧ 0 < msg.covTheta) ∧
    (0 < msg.covX ∧ 0 < msg.covY ∧ 0 < msg.covTheta → n.checkedStep np (.pose msg odom visit nrm) = n.step np (.pose msg odom visit nrm)) ∧
    (¬ (0 < msg.covX ∧ 0 < msg.covY ∧ 0 < msg.covTheta) → n.checkedStep np (.pose msg odom visit nrm) = .error .abort) := by
  have ha : n.asked np (.pose msg odom visit nrm) = msg.asked := by
    simp only [Node.asked]
    rw [if_pos ⟨hi, by rw [hf]; rfl⟩]
  have key : (∀ a ∈ n.asked np (.pose msg odom visit nrm), Fl.fin 0 < a.2) ↔ 0 < msg.covX ∧ 0 < msg.covY ∧ 0 < msg.covTheta := by
    rw [ha]
    simp only [PoseMsg.asked, List.mem_cons, List.not_mem_nil, or_false, forall_eq_or_imp, forall_eq, sqrt_positive]
  exact ⟨key, fun h => if_pos (key.mpr h), fun h => if_neg (fun h' => h (key.mp h'))⟩

/-- **C134** Pieces of work that are not the filter's make no distribution, so that only scans and initial poses can end the node this way. -/
theorem c134_only_the_filter (np : NodeParams) (n : Node) (i : Input) (h : n.filter = none) : n.checkedStep np i = n.step np i := by
  have : n.asked np i = [] := by
    cases i with
    | filterScan nrm draw => simp only [Node.asked, h]; split <;> simp_all
    | pose msg odom visit nrm => simp [Node.asked, h]
    | _ => rfl
  exact if_pos (by rw [this]; simp)

/-- **C134** Deviations that are not tiny stay positive when they are converted to single precision. -/
theorem c134_single_precision {rf : ℝ → ℝ} (hrf : RoundsToFloat rf) {s : ℝ} (h : 2⁻¹ ^ 149 ≤ s) : 0 < rf s := by
  have h1 : IsFloat (2⁻¹ ^ 149) := by
    have := isFloat_dyadic (k := 1) (e := -149) (by norm_num) le_rfl
    rw [Int.cast_one, one_mul, zpow_neg] at this
    rw [inv_pow]
    exact_mod_cast this
  exact lt_of_lt_of_le (by positivity) (hrf.ge_of_ge h1 h)

/-! ### A robot that is told where it is, with the variances that rviz sends, and turns on the spot -/

/-- The initial pose. -/
def spotPose : PoseMsg := ⟨true, ⟨1.5, 3.5, 0⟩, 0.25, 0.25, 0.07⟩

theorem spot_pose (g : NdtGrid) (f0 : Filter) :
    ∃ f, Node.checkedRun filterNode ⟨pileSeen, some (pileMatcher (some g)), some (pileMatcher none), some f0⟩
        [.pose spotPose (some Pose2d.zero) [0] noiseFree, .plain .setRobot, .plain .setOdom] =
        .ok ⟨pileReady, some (pileMatcher (some g)), some (pileMatcher none), some f⟩ := by
  obtain ⟨f, h1⟩ : ∃ f, f0.init noiseFree 1.5 3.5 0 (Real.sqrt 0.25) (Real.sqrt 0.25) (Real.sqrt 0.07) = .ok f := by
    unfold Filter.init
    exact Filter.updateStatistics_total (by simp)
  have hi : Node.initsFilter filterNode ⟨pileSeen, some (pileMatcher (some g)), some (pileMatcher none), some f0⟩
      spotPose (some Pose2d.zero) [0] :=
    ⟨rfl, by show ([0] : List ℕ).Perm (List.range 1); exact List.Perm.refl _, rfl, rfl, by simp, rfl⟩
  have hst : Node.step filterNode ⟨pileSeen, some (pileMatcher (some g)), some (pileMatcher none), some f0⟩
        (.pose spotPose (some Pose2d.zero) [0] noiseFree) =
        .ok ⟨{ pileSeen with spin := .poseRobot ⟨1.5, 3.5, 0⟩ Pose2d.zero }, some (pileMatcher (some g)),
          some (pileMatcher none), some f⟩ := by
    show (if Node.initsFilter _ _ _ _ _ then _ else _) = _
    rw [if_pos hi]
    simp only [spotPose]
    have hneg : ¬ ((0.25 : ℝ) < 0 ∨ (0.25 : ℝ) < 0 ∨ (0.07 : ℝ) < 0) := by norm_num
    simp only [hneg, if_false]
    rw [h1]
    simp only [Res.ok_bind]
    unfold Node.mapper
    have : Mapper.step filterNode.map pileSeen (.pose ⟨true, ⟨1.5, 3.5, 0⟩, 0.25, 0.25, 0.07⟩ (some Pose2d.zero) [0]) =
        .ok { pileSeen with spin := .poseRobot ⟨1.5, 3.5, 0⟩ Pose2d.zero } := by
      simp only [Mapper.step]
      rw [show pileSeen.spin = .idle from rfl]
      simp only
      rw [if_pos hi.2.1]
      rfl
    simp only [this, Res.ok_bind]
  have hc := (c134_initial_pose_iff filterNode _ (f := f0) rfl spotPose (some Pose2d.zero) [0] noiseFree hi).2.1 (by norm_num [spotPose])
  refine ⟨f, ?_⟩
  unfold Node.checkedRun
  rw [List.foldlM_cons, hc, hst, Res.ok_bind]
  have hn : ∀ (n : Node) (e : Event), n.checkedStep filterNode (.plain e) = n.step filterNode (.plain e) :=
    fun n e => if_pos (by simp [Node.asked])
  rw [List.foldlM_cons, hn]
  have h2 : Node.step filterNode ⟨{ pileSeen with spin := .poseRobot ⟨1.5, 3.5, 0⟩ Pose2d.zero }, some (pileMatcher (some g)),
      some (pileMatcher none), some f⟩ (.plain .setRobot) = .ok ⟨{ pileSeen with prevRobot := ⟨1.5, 3.5, 0⟩, spin := .poseOdom Pose2d.zero },
        some (pileMatcher (some g)), some (pileMatcher none), some f⟩ := rfl
  rw [h2, Res.ok_bind, List.foldlM_cons, hn]
  rfl

theorem spot_points : Laser.points pileBeam (.fin 10) false Pose2d.zero ⟨0, 0, 1.5⟩ ⟨0, 0, 1.5⟩ = .ok [(.fin 1, .fin 0)] := by
  have h : ¬ Laser.skip (.fin 10) (.fin 1) := by
    rintro (h | h)
    · exact h
    · simp only [Fl.fin_lt] at h; norm_num at h
  simp only [Laser.points, Laser.forwardLoop, pileBeam]
  rw [if_neg (by simp), if_neg h]
  simp [Laser.forwardPoint, Laser.shift, Laser.project, Laser.perMeas, Laser.translation, Pose2d.zero]

theorem spot_laser (f : Filter) (g : NdtGrid) :
    Node.step filterNode ⟨pileReady, some (pileMatcher (some g)), some (pileMatcher none), some f⟩
      (.plain (.laser pileBeam (some (Pose2d.zero, false)) (some ⟨0, 0, 1.5⟩) (some ⟨0, 0, 1.5⟩))) =
      .ok ⟨{ pileReady with spin := .filter (((Scan.new 1).setPose ⟨1.5, 3.5, 1.5⟩).setPoints [⟨1, 0⟩]) ⟨0, 0, 1.5⟩ },
        some (pileMatcher (some g)), some (pileMatcher none), some f⟩ := by
  show (if Node.makesMatchers _ (some (Pose2d.zero, false)) then _ else _) = _
  rw [if_neg (by rintro ⟨-, h, -⟩; cases h)]
  unfold Node.mapper
  have hpi := Real.pi_gt_three
  have hz : normalizeAngle 0 = 0 := normalizeAngle_of_mem ⟨by linarith, by linarith⟩
  have h1 : normalizeAngle 1.5 = 1.5 := normalizeAngle_of_mem ⟨by norm_num; linarith, by norm_num; linarith⟩
  have ht : ¬ (pileReady.scans ≠ [] ∧ tooLittle filterNode.map pileReady ⟨0, 0, 1.5⟩) := by
    rintro ⟨-, -, h⟩
    simp only [pileReady, Pose2d.zero, filterNode, demoParams, shortestAngularDistance, sub_zero, h1] at h
    norm_num [abs_lt] at h
  have hl : Laser.latchRangeMax pileReady.rangeMax pileBeam = .fin 10 := by
    show Laser.latchRangeMax (.fin 10) pileBeam = _
    unfold Laser.latchRangeMax
    rw [if_neg (by simp)]
  have hpr : predict pileReady.prevOdom pileReady.prevRobot ⟨0, 0, 1.5⟩ = ⟨1.5, 3.5, 1.5⟩ := by
    simp only [predict, pileReady, Pose2d.zero, shortestAngularDistance, sub_zero, hz, h1, Real.cos_zero, Real.sin_zero, zero_add]
    norm_num
  have : Mapper.step filterNode.map pileReady (.laser pileBeam (some (Pose2d.zero, false)) (some ⟨0, 0, 1.5⟩) (some ⟨0, 0, 1.5⟩)) =
      .ok { pileReady with spin := .filter (((Scan.new 1).setPose ⟨1.5, 3.5, 1.5⟩).setPoints [⟨1, 0⟩]) ⟨0, 0, 1.5⟩ } := by
    unfold Mapper.step
    simp only [show pileReady.spin = .idle from rfl]
    unfold laserCallback laserSetup
    simp only [show pileReady.laser = some (Pose2d.zero, false) from rfl, hl]
    rw [if_neg (by simp), if_neg (by simp [pileReady]), if_neg (by exact ht)]
    rw [spot_points, Res.ok_bind, show finitePoints [(Fl.fin 1, Fl.fin 0)] = .ok [⟨1, 0⟩] from rfl, Res.ok_bind]
    have hps : (if pileReady.scans = [] then Pose2d.zero else predict pileReady.prevOdom pileReady.prevRobot ⟨0, 0, 1.5⟩) =
        ⟨1.5, 3.5, 1.5⟩ := by rw [if_neg (by simp [pileReady, pileSeen, pileStart, startWith, Sys.scans]), hpr]
    show Except.ok { pileReady with spin := .filter (((Scan.new 1).setPose (if pileReady.scans = [] then Pose2d.zero else
      predict pileReady.prevOdom pileReady.prevRobot ⟨0, 0, 1.5⟩)).setPoints [⟨1, 0⟩]) ⟨0, 0, 1.5⟩ } = _
    rw [hps]
    rfl
  simp only [this, Res.ok_bind]

/-- **C134** (refuted) It happens: a node with a map and the default coefficients is told where it is, with positive variances, sees the robot turn
on the spot, and ends while it moves the particles. Everything before was checked, too. -/
theorem c134_turning_ends_the_node : ∃ n0 is n scan odom, Node.start filterNode false (some pileBag) = .ok n0 ∧
    n0.checkedRun filterNode is = .ok n ∧ n.sys.spin = .filter scan odom ∧ n.sys.scans ≠ [] ∧ odom = ⟨0, 0, 1.5⟩ ∧ n.sys.prevOdom = ⟨0, 0, 0⟩ ∧
    ∀ nrm draw, n.checkedStep filterNode (.filterScan nrm draw) = .error .abort := by
  obtain ⟨g, hg, -⟩ := pileMap
  obtain ⟨n0, f0, h0, -, h1⟩ := run_pile hg
  obtain ⟨f, h2⟩ := spot_pose g f0
  have hn : ∀ (n : Node) (e : Event), n.checkedStep filterNode (.plain e) = n.step filterNode (.plain e) :=
    fun n e => if_pos (by simp [Node.asked])
  refine ⟨n0, .plain (beamLaser Pose2d.zero) :: ([.pose spotPose (some Pose2d.zero) [0] noiseFree, .plain .setRobot, .plain .setOdom] ++
    [.plain (.laser pileBeam (some (Pose2d.zero, false)) (some ⟨0, 0, 1.5⟩) (some ⟨0, 0, 1.5⟩))]),
    ⟨{ pileReady with spin := .filter (((Scan.new 1).setPose ⟨1.5, 3.5, 1.5⟩).setPoints [⟨1, 0⟩]) ⟨0, 0, 1.5⟩ },
      some (pileMatcher (some g)), some (pileMatcher none), some f⟩, _, _, h0, ?_, rfl, ?_, rfl, rfl, ?_⟩
  · unfold Node.checkedRun at h2 ⊢
    rw [List.foldlM_cons, hn, h1, Res.ok_bind, List.foldlM_append, h2, Res.ok_bind, List.foldlM_cons, hn, spot_laser, Res.ok_bind, List.foldlM_nil]
    rfl
  · simp [pileReady, pileSeen, pileStart, startWith, Sys.scans]
  · intro nrm draw
    refine if_neg fun hall => ?_
    have := hall (MotionModel.rot1 0 0, Fl.fin 0) ?_
    · simp only [Fl.fin_lt, lt_self_iff_false] at this
    · show _ ∈ f.motion.asked (Node.control ⟨1.5, 3.5, 0⟩ ⟨1.5, 3.5, 1.5⟩)
      have e1 : (Node.control ⟨1.5, 3.5, 0⟩ ⟨1.5, 3.5, 1.5⟩).x = 0 := by simp [Node.control]
      have e2 : (Node.control ⟨1.5, 3.5, 0⟩ ⟨1.5, 3.5, 1.5⟩).y = 0 := by simp [Node.control]
      rw [MotionModel.asked, e1, e2, rad_turning, Fl.sqrt_fin le_rfl, Real.sqrt_zero]
      exact List.mem_cons_self ..

/-- Non-vacuous: a node reaches a scan after a metre of driving, and its filter has the default coefficients. -/
example : ∃ n scan odom f g, NodeReach filterNode (fun _ => True) Whatever n ∧ n.sys.spin = .filter scan odom ∧ n.sys.scans ≠ [] ∧
    n.filter = some f ∧ n.globalN = some g ∧ 0 < f.motion.a1 ∧ 0 < f.motion.a2 ∧ 0 < f.motion.a3 ∧ 0 < f.motion.a4 ∧ odom.x ≠ n.sys.prevOdom.x := by
  obtain ⟨f, g, hr, hf, -⟩ := pile_filtering (W := fun _ => True) trivial pileBeam pileBeam_points rfl
  refine ⟨_, _, _, f, _, hr, rfl, ?_, rfl, rfl, ?_⟩
  · simp [pileFiltering, pileReady, pileSeen, pileStart, startWith, Sys.scans]
  · rw [hf.motion]
    norm_num [filterNode, pileFiltering, pileReady, Pose2d.zero]

end

end Ndt
