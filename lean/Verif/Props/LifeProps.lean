import Verif.Props.SurveyProps
import Verif.Props.GraphProps

/-! # Property C162: a map made with a drifting odometry, saved and loaded, and a drive in it with another drifting odometry -/

namespace Ndt

open Spec Mapper

noncomputable section

/-- A scan as the mapper leaves it, with nothing cached. -/
def Taken (s : Scan) : Prop := s = takenAt s.id s.pose s.points

theorem takenAt_taken (n : ℕ) (place : Pose2d) (pts : List Point) : Taken (takenAt n place pts) := rfl

/-- What is saved of such a scan is all of it. -/
theorem taken_round_trip {s : Scan} (h : Taken s) : Graph.scanOfMsg (Graph.scanToMsg s) = s := by
  conv_rhs => rw [h]
  simp [Graph.scanOfMsg, Graph.scanToMsg, Scan.getPose, Scan.getPoints, Scan.getId, takenAt]

/-- Loading what was saved of such scans gives them back. -/
theorem taken_load (g : Graph) (use : Bool) (bag : List BagMsg) (hi : Interleaving bag g.save) (ht : ∀ s ∈ g.scans, Taken s) :
    ∃ g', Graph.load use bag = .ok g' ∧ g'.scans = g.scans := by
  have f1 : (g.save.filter fun m => m.topic = "scans") =
      (g.scans.map Graph.scanToMsg).map fun s => ⟨"scans", .scan s⟩ := by
    unfold Graph.save
    rw [List.filter_append, List.filter_eq_self.mpr (by simp), List.filter_eq_nil_iff.mpr (by simp),
      List.append_nil, List.map_map]
    rfl
  have f2 : (g.save.filter fun m => ¬ m.topic = "scans") =
      (g.constraints.map Graph.constraintToMsg).map fun c => ⟨"constraints", .constraint c⟩ := by
    unfold Graph.save
    rw [List.filter_append, List.filter_eq_nil_iff.mpr (by simp), List.filter_eq_self.mpr (by simp),
      List.nil_append, List.map_map]
    rfl
  refine ⟨_, load_collect bag _ _ (hi.1.trans f1) (hi.2.trans f2) (Graph.new use), ?_⟩
  simp only [Graph.new, List.nil_append, List.map_map]
  conv_rhs => rw [← List.map_id g.scans]
  exact List.map_congr_left fun s hs => taken_round_trip (ht s hs)

/-- A drive leaves nothing but such scans. -/
theorem survey_taken {np : NodeParams} (hf : np.map.useFilter = false)
    (hl : 0 < np.localCfg.linearRes) (ha : 0 < np.localCfg.angularRes) (hpi : np.localCfg.angularSize < Real.pi / 2)
    {range : ℝ} {lt : Pose2d} {inverted : Bool} (rs : List Stop) {scans : List Scan} {odom place : Pose2d} {s : Node}
    (hs : Mapping np range lt inverted scans odom place s) (hr : Surveys np range lt inverted scans odom place rs) (ht : ∀ s ∈ scans, Taken s) :
    ∃ t, Node.run np s (rs.flatMap Stop.mapInputs) = .ok t ∧ t.sys.scans ≠ [] ∧ ∀ s ∈ t.sys.scans, Taken s := by
  induction rs generalizing scans odom place s with
  | nil => exact ⟨s, rfl, by rw [hs.scans]; exact hs.ne, by rw [hs.scans]; exact ht⟩
  | cons r rs ih =>
    obtain ⟨pts, h1, h2⟩ := hr
    obtain ⟨u, hu, htr⟩ := c161_stop hf hl ha hpi hs h1
    obtain ⟨t, h3, hsc⟩ := ih htr h2 (by
      intro s h
      rcases List.mem_append.mp h with h | h
      · exact ht s h
      · rw [List.mem_singleton.mp h]; exact takenAt_taken _ _ _)
    refine ⟨t, ?_, hsc⟩
    unfold Node.run at hu h3 ⊢
    rw [List.flatMap_cons, List.foldlM_append, hu, Res.ok_bind, h3]

/-- **C162** The first scan makes the origin; a drive makes a map; its file, read back by any node that localises, holds the same scans at their true places;
and after any drive in it that node is where its robot is. -/
theorem c162_map_then_localise {np : NodeParams} (hf : np.map.useFilter = false)
    (hl : 0 < np.localCfg.linearRes) (ha : 0 < np.localCfg.angularRes) (hpi : np.localCfg.angularSize < Real.pi / 2)
    {range : ℝ} (hrange : 0 ≤ range) {lt : Pose2d} {inverted : Bool}
    {odom odomEnd : Pose2d} {msg : LaserMsg} {fs : List FPoint} {pts : List Point} (hlatch : Laser.latchRangeMax np.map.rangeMax msg = .fin range)
    (h1 : Laser.points msg (.fin range) inverted lt odom odomEnd = .ok fs) (h2 : finitePoints fs = .ok pts) (rs : List Stop)
    (hr : Surveys np range lt inverted [takenAt 0 Pose2d.zero pts] odom Pose2d.zero rs) :
    ∃ n t, Node.start np true none = .ok n ∧
      Node.run np n ([.plain (.laser msg (some (lt, inverted)) (some odom) (some odomEnd)), .plain .pushScan, .plain .finishScan] ++
        rs.flatMap Stop.mapInputs) = .ok t ∧
      t.sys.scans.map (·.pose) = Pose2d.zero :: rs.map Stop.place ∧
      ∀ (np' : NodeParams), np'.map.useFilter = false → ∀ (bag : List BagMsg), Interleaving bag (t.sys.graph np.map).save →
      ∀ (range' : ℝ) (msg' : LaserMsg), Laser.latchRangeMax np'.map.rangeMax msg' = .fin range' →
      ∀ (mt' : Matcher) (g : NdtGrid), GoodMap { np'.globalCfg with rangeMax := range', ndt := none } t.sys.scans mt' g →
      ∀ (wall : ℤ × ℤ → Line), WallsOf g.originX g.originY g.cellSize (mapPoints (t.sys.scans.map .addScan)) wall →
      0 < mt'.linearRes → 0 < mt'.angularRes → mt'.angularSize < Real.pi / 2 →
      ∀ (lt' : Pose2d) (inverted' : Bool) (odom0 odomEnd0 : Option Pose2d) (pm : PoseMsg), pm.inMap = true →
      ∀ (odom' : Pose2d) (visit : List ℕ), visit.Perm (List.range t.sys.scans.length) → ∀ (nrm : MotionModel.Draws) (rs' : List Stop),
      Drives np' (.fin range') lt' inverted' t.sys.scans.length mt' g (mapPoints (t.sys.scans.map .addScan)) wall odom' pm.pose rs' →
      ∃ n' t', Node.start np' false (some bag) = .ok n' ∧
        Node.run np' n' ([.plain (.laser msg' (some (lt', inverted')) odom0 odomEnd0), .pose pm (some odom') visit nrm, .plain .setRobot,
          .plain .setOdom] ++ rs'.flatMap Stop.inputs) = .ok t' ∧
        t'.sys.prevRobot = (rs'.getLast?.map Stop.place).getD pm.pose ∧ t'.sys.scans = t.sys.scans := by
  obtain ⟨n, u, hn, hu, hm⟩ := c161_first_stop hf hrange hlatch h1 h2
  obtain ⟨t, ht, hsc, -⟩ := c161_map_is_true hf hl ha hpi rs hm hr
  obtain ⟨t2, ht2, hne, htk⟩ := survey_taken hf hl ha hpi rs hm hr (by
    intro s h
    rw [List.mem_singleton.mp h]
    exact takenAt_taken _ _ _)
  obtain rfl : t = t2 := by
    rw [ht] at ht2
    exact Except.ok.inj ht2
  refine ⟨n, t, hn, ?_, hsc, ?_⟩
  · unfold Node.run at hu ht ⊢
    rw [List.foldlM_append, hu, Res.ok_bind, ht]
  · intro np' hf' bag hi range' msg' hlatch' mt' g hg wall hwall hl' ha' hpi' lt' inverted' odom0 odomEnd0 pm hin odom' visit hv nrm rs' hr'
    obtain ⟨map, hbag, hmap⟩ := taken_load (t.sys.graph np.map) np'.map.useBarycenter bag hi htk
    have hmap : map.scans = t.sys.scans := hmap
    rw [← hmap] at hg hwall hv hr' hne ⊢
    exact c160_from_the_start hf' hbag hne hlatch' hg hwall hl' ha' hpi' lt' inverted' odom0 odomEnd0 hin odom' hv nrm rs' hr'

/-- **C162** (a concrete life) A node sees the corner of the room with its first message; a second node reads the map of the first, is told where it is, drives
1 m with an odometry that says 1.01 m, and is where its robot is. -/
theorem c162_corner (junk : Mat3F) (nrm : MotionModel.Draws) : ∃ n t n' t',
    Node.start surveyNode true none = .ok n ∧
    Node.run surveyNode n [.plain (.laser surveyMsg (some (Pose2d.zero, false)) (some Pose2d.zero) (some ⟨3 / 10, 0, 0⟩)), .plain .pushScan,
      .plain .finishScan] = .ok t ∧
    Node.start (demoNode false) false (some (t.sys.graph surveyNode.map).save) = .ok n' ∧
    Node.run (demoNode false) n' ([.plain (.laser driftMsg (some (Pose2d.zero, false)) none none),
      .pose ⟨true, ⟨-(93 / 100), 0, 0⟩, 0, 0, 0⟩ (some Pose2d.zero) [0] nrm, .plain .setRobot, .plain .setOdom] ++ (driftStop junk).inputs) = .ok t' ∧
    t'.sys.prevRobot = ⟨7 / 100, 0, 0⟩ ∧ t'.sys.scans = [cornerRoomScan] := by
  obtain ⟨fs, h1, h2⟩ := surveyMsg_points
  obtain ⟨n, t, a1, a2, a3, a4⟩ := c162_map_then_localise (np := surveyNode) rfl (by norm_num [surveyNode, demoNode, defaultMatcher])
    (by norm_num [surveyNode, demoNode, defaultMatcher])
    (by have := Real.two_le_pi; norm_num [surveyNode, demoNode, defaultMatcher]; linarith) (range := 10) (by norm_num)
    (by norm_num [Laser.latchRangeMax, surveyNode, demoNode, demoParams, surveyMsg]) h1 h2 [] trivial
  obtain ⟨n2, u, b1, b2, b3⟩ := c161_first_stop (np := surveyNode) rfl (range := 10) (by norm_num)
    (by norm_num [Laser.latchRangeMax, surveyNode, demoNode, demoParams, surveyMsg]) h1 h2
  have a2' : Node.run surveyNode n [.plain (.laser surveyMsg (some (Pose2d.zero, false)) (some Pose2d.zero) (some ⟨3 / 10, 0, 0⟩)), .plain .pushScan,
      .plain .finishScan] = .ok t := by simpa using a2
  obtain rfl : n = n2 := by
    rw [a1] at b1
    exact Except.ok.inj b1
  obtain rfl : t = u := by
    rw [a2'] at b2
    exact Except.ok.inj b2
  have hsc : t.sys.scans = [cornerRoomScan] := b3.scans
  obtain ⟨g, hm, e1, e2, e0, e3, e4⟩ := cornerRoom_goodMap
  have hpred : predict Pose2d.zero ⟨-(93 / 100), 0, 0⟩ ⟨101 / 100, 0, 0⟩ = ⟨8 / 100, 0, 0⟩ := by
    have h0 : normalizeAngle 0 = 0 := normalizeAngle_of_mem ⟨by linarith [Real.pi_pos], Real.pi_pos.le⟩
    simp only [predict, Pose2d.zero, shortestAngularDistance, sub_self, h0, add_zero, Real.cos_zero, Real.sin_zero]
    norm_num
  obtain ⟨fs2, hp1, hp2⟩ := driftMsg_points ⟨101 / 100, 0, 0⟩
  obtain ⟨n', t', c1, c2, c3, c4⟩ := a4 (demoNode false) rfl _ ⟨rfl, rfl⟩ 10 driftMsg (by norm_num [Laser.latchRangeMax, demoNode, demoParams, driftMsg])
    _ g (by rw [hsc]; exact hm) cornerRoomWall (by
      rw [hsc, e0, e1, e2, cornerRoom_points]
      refine ⟨?_, fun p hp => (cornerRoom_fits hp).1⟩
      intro k
      unfold cornerRoomWall
      split <;> simp)
    (by norm_num [defaultMatcher]) (by norm_num [defaultMatcher]) (by have := Real.two_le_pi; norm_num [defaultMatcher]; linarith)
    Pose2d.zero false none none ⟨true, ⟨-(93 / 100), 0, 0⟩, 0, 0, 0⟩ rfl Pose2d.zero [0] (by rw [hsc]; simp) nrm
    [driftStop junk] ⟨⟨by norm_num, Or.inl (by norm_num [demoNode, demoParams, driftStop, Pose2d.zero]), fs2, driftPts, hp1, hp2, by
      rw [hsc, cornerRoom_points]
      show Holds _ _ _ _ (((Scan.new 1).setPose (predict Pose2d.zero ⟨-(93 / 100), 0, 0⟩ ⟨101 / 100, 0, 0⟩)).setPoints driftPts) ⟨7 / 100, 0, 0⟩
      rw [hpred]
      exact drift_holds e1 e2 e0 e3 e4⟩, trivial⟩
  refine ⟨n, t, n', t', a1, a2', c1, ?_, c3, c4.trans hsc⟩
  simpa using c2

end

end Ndt
