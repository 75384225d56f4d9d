import Verif.Spec.Pause
import Verif.Props.SurveyProps

/-! # Property C163: messages between the stops change nothing -/

namespace Ndt

open Spec Mapper

noncomputable section

/-- A message of a robot that has moved too little leaves the node as it is. -/
theorem pause_step {np : NodeParams} {s : Node} {range : ℝ} (hrange : 0 ≤ range) {lt : Pose2d} {inverted : Bool} {odom : Pose2d}
    (hidle : s.sys.spin = .idle) (hinit : s.sys.initialized = true) (hlaser : s.sys.laser = some (lt, inverted)) (hne : s.sys.scans ≠ [])
    (hr : s.sys.rangeMax = .fin range) (hodom : s.sys.prevOdom = odom) {r : Pause} (hm : ¬ Moved np.map.minDist np.map.minRot odom r.odom) :
    Node.step np s r.input = .ok s := by
  have hlatch : Laser.latchRangeMax s.sys.rangeMax r.msg = s.sys.rangeMax := by
    unfold Laser.latchRangeMax
    rw [hr, if_neg (by simpa using hrange)]
  have hset : laserSetup np.map r.msg r.mount s.sys = (s.sys, true) := by
    unfold laserSetup
    simp only [hlaser, hlatch]
    rw [← hlaser]
  have hl : tooLittle np.map s.sys r.odom := by
    unfold Moved at hm
    rw [not_or, not_le, not_le] at hm
    unfold tooLittle
    rw [hodom]
    exact hm
  have hmk : ¬ s.makesMatchers r.mount := by
    rintro ⟨-, h, -⟩
    rw [hlaser] at h
    cases h
  have hcall : laserCallback np.map r.msg r.mount (some r.odom) r.odomEnd s.sys = .ok s.sys := by
    unfold laserCallback
    simp only [hset, hinit, Bool.not_true, Bool.false_eq_true, if_false]
    rw [if_pos ⟨hne, hl⟩]
  simp only [Pause.input, Node.step, if_neg hmk, Node.mapper, Mapper.step, hidle, hcall, Res.ok_bind]

/-- So do many of them. -/
theorem pause_run {np : NodeParams} {s : Node} (way : List Pause) (h : ∀ r ∈ way, Node.step np s r.input = .ok s) :
    Node.run np s (way.map Pause.input) = .ok s := by
  induction way with
  | nil => rfl
  | cons r way ih =>
    have h2 := ih fun q hq => h q (List.mem_cons_of_mem _ hq)
    unfold Node.run at h2 ⊢
    rw [List.map_cons, List.foldlM_cons, h r List.mem_cons_self, Res.ok_bind, h2]

/-- **C163** A localising node that gets messages between the stops, as many as there may be, does what it does without them. -/
theorem c163_localising {np : NodeParams} (hf : np.map.useFilter = false) {mt : Matcher} {scans : List Scan} {mt' : Matcher} {g : NdtGrid}
    (hm : GoodMap mt scans mt' g) {wall : ℤ × ℤ → Line}
    (hwall : WallsOf g.originX g.originY g.cellSize (mapPoints (scans.map .addScan)) wall)
    (hl : 0 < mt'.linearRes) (ha : 0 < mt'.angularRes) (hpi : mt'.angularSize < Real.pi / 2)
    {range : ℝ} (hrange : 0 ≤ range) {lt : Pose2d} {inverted : Bool} {n : ℕ} (ls : List Leg) {odom place : Pose2d} {s : Node}
    (hs : Tracks (.fin range) lt inverted n mt' odom place s)
    (hr : Drives np (.fin range) lt inverted n mt' g (mapPoints (scans.map .addScan)) wall odom place (ls.map Leg.stop))
    (hw : OnTheWay np.map.minDist np.map.minRot odom ls) :
    ∃ t, Node.run np s (ls.flatMap Leg.inputs) = .ok t ∧ Node.run np s ((ls.map Leg.stop).flatMap Stop.inputs) = .ok t ∧
      t.sys.prevRobot = ((ls.map Leg.stop).getLast?.map Stop.place).getD place ∧ t.sys.scans = s.sys.scans := by
  obtain ⟨t, ht, hp, -, hsc⟩ := c160_drift_does_not_add_up hf hm hwall hl ha hpi (ls.map Leg.stop) hs hr
  refine ⟨t, ?_, ht, hp, hsc⟩
  clear hp hsc
  induction ls generalizing odom place s with
  | nil => exact ht
  | cons l ls ih =>
    obtain ⟨h1, h2⟩ := hr
    obtain ⟨w1, w2⟩ := hw
    obtain ⟨u, hu, htr, -⟩ := c160_stop hf hm hwall hl ha hpi hs h1
    have hne : s.sys.scans ≠ [] := by
      intro h
      have a := hs.scans
      have b := hs.pos
      rw [h] at a
      simp at a
      omega
    have hway := pause_run (np := np) (s := s) l.way fun r h =>
      pause_step hrange hs.idle hs.initialized hs.laser hne hs.range hs.odom (w1 r h)
    have hrest : Node.run np u ((ls.map Leg.stop).flatMap Stop.inputs) = .ok t := by
      unfold Node.run at hu ht ⊢
      rw [List.map_cons, List.flatMap_cons, List.foldlM_append, hu, Res.ok_bind] at ht
      exact ht
    have := ih htr h2 w2 hrest
    unfold Node.run at hu this hway ⊢
    rw [List.flatMap_cons, Leg.inputs, List.foldlM_append, List.foldlM_append, hway, Res.ok_bind, hu, Res.ok_bind, this]

/-- **C163** So does a mapping node: the messages between the stops make no scans. -/
theorem c163_mapping {np : NodeParams} (hf : np.map.useFilter = false)
    (hl : 0 < np.localCfg.linearRes) (ha : 0 < np.localCfg.angularRes) (hpi : np.localCfg.angularSize < Real.pi / 2)
    {range : ℝ} {lt : Pose2d} {inverted : Bool} (ls : List Leg) {scans : List Scan} {odom place : Pose2d} {s : Node}
    (hs : Mapping np range lt inverted scans odom place s) (hr : Surveys np range lt inverted scans odom place (ls.map Leg.stop))
    (hw : OnTheWay np.map.minDist np.map.minRot odom ls) :
    ∃ t, Node.run np s (ls.flatMap Leg.mapInputs) = .ok t ∧ Node.run np s ((ls.map Leg.stop).flatMap Stop.mapInputs) = .ok t ∧
      t.sys.scans.map (·.pose) = scans.map (·.pose) ++ (ls.map Leg.stop).map Stop.place ∧
      t.sys.prevRobot = ((ls.map Leg.stop).getLast?.map Stop.place).getD place := by
  obtain ⟨t, ht, hsc, hp⟩ := c161_map_is_true hf hl ha hpi (ls.map Leg.stop) hs hr
  refine ⟨t, ?_, ht, hsc, hp⟩
  clear hp hsc
  induction ls generalizing scans odom place s with
  | nil => exact ht
  | cons l ls ih =>
    obtain ⟨pts, h1, h2⟩ := hr
    obtain ⟨w1, w2⟩ := hw
    obtain ⟨u, hu, htr⟩ := c161_stop hf hl ha hpi hs h1
    have hway := pause_run (np := np) (s := s) l.way fun r h =>
      pause_step hs.nonneg hs.idle hs.initialized hs.laser (by rw [hs.scans]; exact hs.ne) hs.range hs.odom (w1 r h)
    have hrest : Node.run np u ((ls.map Leg.stop).flatMap Stop.mapInputs) = .ok t := by
      unfold Node.run at hu ht ⊢
      rw [List.map_cons, List.flatMap_cons, List.foldlM_append, hu, Res.ok_bind] at ht
      exact ht
    have := ih htr h2 w2 hrest
    unfold Node.run at hu this hway ⊢
    rw [List.flatMap_cons, Leg.mapInputs, List.foldlM_append, List.foldlM_append, hway, Res.ok_bind, hu, Res.ok_bind, this]

/-- A message when odometry says `odom`. -/
def pauseAt (odom : Pose2d) : Pause := ⟨driftMsg, none, odom, none⟩

/-- **C163** (a concrete drive) The mapping node in the corner of C161 with a minimum travel of 5 cm, with two messages at 2 and 4 cm before the stop at 8 cm. -/
theorem c163_corner (junk : Mat3F) : ∃ n u t : Node, Node.start surveyNode true none = .ok n ∧
    Node.run surveyNode n [.plain (.laser surveyMsg (some (Pose2d.zero, false)) (some Pose2d.zero) (some ⟨3 / 10, 0, 0⟩)), .plain .pushScan,
      .plain .finishScan] = .ok u ∧
    Node.run surveyNode u ([(pauseAt ⟨2 / 100, 0, 0⟩).input, (pauseAt ⟨4 / 100, 0, 0⟩).input] ++ (surveyStop junk).mapInputs) = .ok t ∧
    t.sys.scans.map (·.pose) = [Pose2d.zero, ⟨7 / 100, 0, 0⟩] ∧ t.sys.prevRobot = ⟨7 / 100, 0, 0⟩ := by
  obtain ⟨fs, h1, h2⟩ := surveyMsg_points
  obtain ⟨n, u, b1, b2, b3⟩ := c161_first_stop (np := surveyNode) rfl (range := 10) (by norm_num)
    (by norm_num [Laser.latchRangeMax, surveyNode, demoNode, demoParams, surveyMsg]) h1 h2
  have h0 : normalizeAngle 0 = 0 := normalizeAngle_of_mem ⟨by linarith [Real.pi_pos], Real.pi_pos.le⟩
  obtain ⟨t, a1, -, a2, a3⟩ := c163_mapping (np := surveyNode) rfl (by norm_num [surveyNode, demoNode, defaultMatcher])
    (by norm_num [surveyNode, demoNode, defaultMatcher])
    (by have := Real.two_le_pi; norm_num [surveyNode, demoNode, defaultMatcher]; linarith)
    [⟨[pauseAt ⟨2 / 100, 0, 0⟩, pauseAt ⟨4 / 100, 0, 0⟩], surveyStop junk⟩] b3 (surveyStop_surveys junk) ⟨by
      intro r hr
      simp only [List.mem_cons, List.not_mem_nil, or_false] at hr
      rcases hr with rfl | rfl <;>
        norm_num [Moved, pauseAt, surveyNode, demoNode, demoParams, Pose2d.zero, shortestAngularDistance, h0], trivial⟩
  refine ⟨n, u, t, b1, b2, ?_, a2, a3⟩
  simpa [Leg.mapInputs] using a1

/-- **C163** (the same while localising) The node of C160 with a message at 6 cm (its minimum travel is 10 cm) before the stop at 1.01 m. -/
theorem c163_corner_localising (junk : Mat3F) (nrm : MotionModel.Draws) : ∃ n u t, Node.start (demoNode false) false (some cornerBag) = .ok n ∧
    Node.run (demoNode false) n [.plain (.laser driftMsg (some (Pose2d.zero, false)) none none),
      .pose ⟨true, ⟨-(93 / 100), 0, 0⟩, 0, 0, 0⟩ (some Pose2d.zero) [0] nrm, .plain .setRobot, .plain .setOdom] = .ok u ∧
    Node.run (demoNode false) u ((pauseAt ⟨6 / 100, 0, 0⟩).input :: (driftStop junk).inputs) = .ok t ∧ t.sys.prevRobot = ⟨7 / 100, 0, 0⟩ := by
  obtain ⟨g, hm, e1, e2, e0, e3, e4⟩ := cornerRoom_goodMap
  have h0 : normalizeAngle 0 = 0 := normalizeAngle_of_mem ⟨by linarith [Real.pi_pos], Real.pi_pos.le⟩
  have hpred : predict Pose2d.zero ⟨-(93 / 100), 0, 0⟩ ⟨101 / 100, 0, 0⟩ = ⟨8 / 100, 0, 0⟩ := by
    simp only [predict, Pose2d.zero, shortestAngularDistance, sub_self, h0, add_zero, Real.cos_zero, Real.sin_zero]
    norm_num
  obtain ⟨fs, hp1, hp2⟩ := driftMsg_points ⟨101 / 100, 0, 0⟩
  obtain ⟨n, u, b1, b2, -, b3⟩ := c160_first (np := demoNode false) rfl (cornerBag_load _) (by simp) (range := 10) (msg := driftMsg)
    (by norm_num [Laser.latchRangeMax, demoNode, demoParams, driftMsg]) hm.ok Pose2d.zero false none none
    (pm := ⟨true, ⟨-(93 / 100), 0, 0⟩, 0, 0, 0⟩) rfl Pose2d.zero (visit := [0]) (by simp) nrm
  obtain ⟨t, a1, -, a2, -⟩ := c163_localising (np := demoNode false) rfl hm (wall := cornerRoomWall) (by
      rw [e0, e1, e2, cornerRoom_points]
      refine ⟨?_, fun p hp => (cornerRoom_fits hp).1⟩
      intro k
      unfold cornerRoomWall
      split <;> simp)
    (by norm_num [defaultMatcher]) (by norm_num [defaultMatcher]) (by have := Real.two_le_pi; norm_num [defaultMatcher]; linarith)
    (by norm_num) [⟨[pauseAt ⟨6 / 100, 0, 0⟩], driftStop junk⟩] b3
    ⟨⟨by norm_num, Or.inl (by norm_num [demoNode, demoParams, driftStop, Pose2d.zero]), fs, driftPts, hp1, hp2, by
      rw [cornerRoom_points]
      show Holds _ _ _ _ (((Scan.new 1).setPose (predict Pose2d.zero ⟨-(93 / 100), 0, 0⟩ ⟨101 / 100, 0, 0⟩)).setPoints driftPts) ⟨7 / 100, 0, 0⟩
      rw [hpred]
      exact drift_holds e1 e2 e0 e3 e4⟩, trivial⟩ ⟨by
      intro r hr
      simp only [List.mem_cons, List.not_mem_nil, or_false] at hr
      subst hr
      norm_num [Moved, pauseAt, demoNode, demoParams, Pose2d.zero, shortestAngularDistance, h0], trivial⟩
  refine ⟨n, u, t, b1, b2, ?_, a2⟩
  simpa [Leg.inputs] using a1

end

end Ndt
