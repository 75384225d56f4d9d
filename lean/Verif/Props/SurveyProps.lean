import Verif.Props.DriftProps

/-! # Property C161: a map made with an odometry that drifts is true -/

namespace Ndt

open Spec Mapper

noncomputable section

/-- A new scan of the points `pts`, the `n`-th one, taken at `place`. -/
def takenAt (n : ℕ) (place : Pose2d) (pts : List Point) : Scan := ((Scan.new n).setPose place).setPoints pts

/-- The matcher with the parameters `cfg` and the range limit `range` makes a map of straight walls of the scans, in which the new scan holds at `place`. -/
def HoldsIn (cfg : Matcher) (range : ℝ) (scans : List Scan) (scan : Scan) (place : Pose2d) : Prop :=
  ∃ mt' g wall, GoodMap { cfg with rangeMax := range, ndt := none } scans mt' g ∧
    WallsOf g.originX g.originY g.cellSize (mapPoints (scans.map .addScan)) wall ∧
    Holds mt' g (mapPoints (scans.map .addScan)) wall scan place

/-- The robot, last at `place` when odometry said `odom`, with the scans so far, makes the stop `r` and sees `pts`. -/
structure Sees (np : NodeParams) (range : ℝ) (lt : Pose2d) (inverted : Bool) (scans : List Scan) (odom place : Pose2d) (r : Stop)
    (pts : List Point) : Prop where
  moved : Moved np.map.minDist np.map.minRot odom r.odom
  depth : np.map.rollingDepth < scans.length → 10 ≤ scans.length
  sees : ∃ fs, Laser.points r.msg (.fin range) inverted lt r.odom r.odomEnd = .ok fs ∧ finitePoints fs = .ok pts
  holds : HoldsIn np.localCfg range (recent np.map.rollingDepth scans) (takenAt scans.length (predict odom place r.odom) pts) r.place

/-- A drive of many stops; every scan joins the map at its true place. -/
def Surveys (np : NodeParams) (range : ℝ) (lt : Pose2d) (inverted : Bool) : List Scan → Pose2d → Pose2d → List Stop → Prop
  | _, _, _, [] => True
  | scans, odom, place, r :: rs => ∃ pts, Sees np range lt inverted scans odom place r pts ∧
      Surveys np range lt inverted (scans ++ [takenAt scans.length r.place pts]) r.odom r.place rs

/-- The node makes a map, has the scans so far, its first pose and laser, and believes to be at `place` when odometry says `odom`. -/
structure Mapping (np : NodeParams) (range : ℝ) (lt : Pose2d) (inverted : Bool) (scans : List Scan) (odom place : Pose2d) (s : Node) : Prop where
  ne : scans ≠ []
  nonneg : 0 ≤ range
  matcher : ∃ l, s.localN = some l ∧ l.reset = { np.localCfg with rangeMax := range, ndt := none }
  idle : s.sys.spin = .idle
  enable : s.sys.enable = true
  initialized : s.sys.initialized = true
  laser : s.sys.laser = some (lt, inverted)
  filled : s.sys.localM ≠ none
  scans : s.sys.scans = scans
  range : s.sys.rangeMax = .fin range
  odom : s.sys.prevOdom = odom
  place : s.sys.prevRobot = place

/-- **C161** After a stop the node is at the true place and the scan is in the map there, whatever odometry said. -/
theorem c161_stop {np : NodeParams} (hf : np.map.useFilter = false)
    (hl : 0 < np.localCfg.linearRes) (ha : 0 < np.localCfg.angularRes) (hpi : np.localCfg.angularSize < Real.pi / 2)
    {range : ℝ} {lt : Pose2d} {inverted : Bool} {scans : List Scan} {odom place : Pose2d} {s : Node}
    (hs : Mapping np range lt inverted scans odom place s) {r : Stop} {pts : List Point}
    (hr : Sees np range lt inverted scans odom place r pts) :
    ∃ t, Node.run np s r.mapInputs = .ok t ∧
      Mapping np range lt inverted (scans ++ [takenAt scans.length r.place pts]) r.odom r.place t := by
  obtain ⟨fs, h1, h2⟩ := hr.sees
  obtain ⟨mt', g, wall, hm, hwall, hh⟩ := hr.holds
  obtain ⟨l, hl1, hl2⟩ := hs.matcher
  have hmt : mt' = { np.localCfg with rangeMax := range, ndt := mt'.ndt } := by
    obtain ⟨g', e, -⟩ := addScans_computed hm.ok
    rw [e]
  have q1 : mt'.linearRes = np.localCfg.linearRes := by rw [hmt]
  have q2 : mt'.angularRes = np.localCfg.angularRes := by rw [hmt]
  have q3 : mt'.angularSize = np.localCfg.angularSize := by rw [hmt]
  obtain ⟨t, ht, hplace⟩ := hh.off
  obtain ⟨w, w', hw, p, hp, q, hq, u, hu, hpq, hstay⟩ := hh.walls
  obtain ⟨m, hmatch, hpose, -, -⟩ := c159_put_back hm hwall (q1 ▸ hl) (q2 ▸ ha) (q3 ▸ hpi) _ hh.few hh.near ht hplace hh.fits hw hp hq hu hpq hstay
    Pose2d.zero r.junk
  have hb : 0 < beamCount mt'.laserMaxBeams (takenAt scans.length (predict odom place r.odom) pts).points.length := by
    have := List.length_pos_of_mem hp
    unfold beamCount at this ⊢
    rwa [(c12_samples_are_points _ _).1] at this
  obtain ⟨v, hv, -⟩ := c18_score_normalised_partial hm _ hh.few hb hh.near0
  have hok := hm.ok
  have hne : s.sys.scans ≠ [] := by rw [hs.scans]; exact hs.ne
  have hcorr : (takenAt scans.length (predict odom place r.odom) pts).setPose
      (addCorrection m.pose (takenAt scans.length (predict odom place r.odom) pts).getPose) = takenAt scans.length r.place pts := by
    have e : addCorrection m.pose (takenAt scans.length (predict odom place r.odom) pts).getPose = r.place := by
      rw [← hplace, hpose]
      simp only [addCorrection, offset, Scan.getPose]
      ext <;> simp [add_comm]
    rw [e]
    rfl
  have hscan : ((Scan.new scans.length).setPose (predict odom place r.odom)).setPoints pts = takenAt scans.length (predict odom place r.odom) pts := rfl
  generalize takenAt scans.length (predict odom place r.odom) pts = scan at *
  have hlatch : Laser.latchRangeMax s.sys.rangeMax r.msg = s.sys.rangeMax := by
    unfold Laser.latchRangeMax
    rw [hs.range, if_neg]
    simpa using hs.nonneg
  have hmoved : ¬ tooLittle np.map s.sys r.odom := by
    unfold tooLittle
    rw [hs.odom]
    rintro ⟨a1, a2⟩
    rcases hr.moved with h | h
    · exact absurd a1 (not_lt.mpr h)
    · exact absurd a2 (not_lt.mpr h)
  have hset : laserSetup np.map r.msg r.mount s.sys = (s.sys, true) := by
    unfold laserSetup
    simp only [hs.laser, hlatch]
    rw [← hs.laser]
  have hcall : laserCallback np.map r.msg r.mount (.some r.odom) (.some r.odomEnd) s.sys = .ok { s.sys with spin := .window scan r.odom } := by
    unfold laserCallback
    simp only [hset, hs.initialized, hs.laser, hs.enable, hs.range, hs.odom, hs.place, hf, h1, h2, Bool.not_true, Bool.false_eq_true, if_false,
      if_true, Res.ok_bind]
    rw [if_neg (fun h => hmoved h.2), if_neg hne, if_neg hne, hs.scans, hscan]
  have f1 : s.step np (.plain (.laser r.msg r.mount (.some r.odom) (.some r.odomEnd))) =
      .ok { s with sys := { s.sys with spin := .window scan r.odom } } := by
    have hmk : ¬ s.makesMatchers r.mount := by
      rintro ⟨-, h, -⟩
      rw [hs.laser] at h
      cases h
    simp only [Node.step, if_neg hmk, Node.mapper, Mapper.step, hs.idle, hcall, Res.ok_bind]
  have hwin : addWindow np.map scan r.odom { s.sys with spin := .window scan r.odom } =
      .ok { s.sys with localM := .some (recent np.map.rollingDepth scans), spin := .matching scan r.odom } := by
    have e : Sys.scans { s.sys with spin := .window scan r.odom } = scans := hs.scans
    unfold addWindow recent
    rw [if_neg hs.filled, e]
    by_cases hd : scans.length ≤ np.map.rollingDepth
    · rw [if_pos hd, if_pos hd]
    · have := hr.depth (by omega)
      rw [if_neg hd, if_neg hd, if_neg (by omega)]
  have f2 : Node.step np { s with sys := { s.sys with spin := .window scan r.odom } } (.plain .addWindow) =
      .ok { s with sys := { s.sys with localM := .some (recent np.map.rollingDepth scans), spin := .matching scan r.odom }, localN := .some mt' } := by
    simp only [Node.step, Mapper.step, hwin, Res.ok_bind, hl1, hl2, hok]
  obtain ⟨back, hback⟩ : ∃ back, scans.getLast? = .some back := by
    cases h : scans.getLast? with
    | none => exact absurd (List.getLast?_eq_none_iff.mp h) hs.ne
    | some b => exact ⟨b, rfl⟩
  set s2 : Sys := { s.sys with localM := .some (recent np.map.rollingDepth scans), spin := .matching scan r.odom } with hs2
  have e2 : s2.scans = scans := hs.scans
  have f3 : Node.step np { s with sys := s2, localN := .some mt' } (.localMatch r.junk) =
      .ok { s with sys := { s2 with
        typical := typicalResponse s2.typical m.score,
        spin := .constraint (makeConstraint back (takenAt scans.length r.place pts) m.covariance) (takenAt scans.length r.place pts) r.odom }, localN := .some mt' } := by
    have hsp : s2.spin = .matching scan r.odom := rfl
    simp only [Node.step, hsp, hv, hmatch, Node.mapper, Mapper.step, localMatched, e2, hback, hcorr, Res.ok_bind]
  set s3 : Sys := { s2 with
        typical := typicalResponse s2.typical m.score,
        spin := .constraint (makeConstraint back (takenAt scans.length r.place pts) m.covariance) (takenAt scans.length r.place pts) r.odom } with hs3
  set s4 : Sys := { s3 with
        constraints := s3.constraints ++ [makeConstraint back (takenAt scans.length r.place pts) m.covariance],
        spin := .append (takenAt scans.length r.place pts) r.odom } with hs4
  have f4 : Node.step np { s with sys := s3, localN := .some mt' } (.plain .pushConstraint) = .ok { s with sys := s4, localN := .some mt' } := by
    have hsp : s3.spin = .constraint (makeConstraint back (takenAt scans.length r.place pts) m.covariance) (takenAt scans.length r.place pts) r.odom := rfl
    simp only [Node.step, Node.mapper, Mapper.step, hsp, Res.ok_bind, hs4]
  have e4 : s4.scans = scans := hs.scans
  set s5 : Sys := { s4 with
        heap := fun e => if e = s4.epoch then scans ++ [takenAt scans.length r.place pts] else s4.heap e,
        spin := .announce ⟨s4.epoch, scans.length⟩ r.odom } with hs5
  have f5 : Node.step np { s with sys := s4, localN := .some mt' } (.plain .pushScan) = .ok { s with sys := s5, localN := .some mt' } := by
    have hsp : s4.spin = .append (takenAt scans.length r.place pts) r.odom := rfl
    simp only [Node.step, Node.mapper, Mapper.step, hsp, Res.ok_bind, hs5, e4]
  have e5 : s5.heap s5.epoch = scans ++ [takenAt scans.length r.place pts] := by
    show (if s4.epoch = s4.epoch then _ else _) = _
    rw [if_pos rfl]
  have f6 : Node.step np { s with sys := s5, localN := .some mt' } (.plain .finishScan) =
      .ok { s with sys := { s5 with prevOdom := r.odom, prevRobot := r.place, update := true, spin := .idle }, localN := .some mt' } := by
    have hsp : s5.spin = .announce ⟨s5.epoch, scans.length⟩ r.odom := rfl
    have hget : (s5.heap s5.epoch)[scans.length]? = .some (takenAt scans.length r.place pts) := by
      rw [e5]; simp
    simp only [Node.step, Node.mapper, Mapper.step, hsp, hget, Res.ok_bind]
    rfl
  refine ⟨{ s with sys := { s5 with prevOdom := r.odom, prevRobot := r.place, update := true, spin := .idle }, localN := .some mt' }, ?_,
    ⟨by simp, hs.nonneg, ⟨mt', rfl, ?_⟩, rfl, hs.enable, hs.initialized, hs.laser, by simp [s5, s4, s3, s2], e5, hs.range, rfl, rfl⟩⟩
  · unfold Node.run Stop.mapInputs
    rw [List.foldlM_cons, f1, Res.ok_bind, List.foldlM_cons, f2, Res.ok_bind, List.foldlM_cons, f3, Res.ok_bind, List.foldlM_cons, f4, Res.ok_bind,
      List.foldlM_cons, f5, Res.ok_bind, List.foldlM_cons, f6]
    rfl
  · rw [hmt]
    rfl

/-- **C161** So every scan of a drive, however long, is put into the map at the place where it was taken, and the node is where the robot is. -/
theorem c161_map_is_true {np : NodeParams} (hf : np.map.useFilter = false)
    (hl : 0 < np.localCfg.linearRes) (ha : 0 < np.localCfg.angularRes) (hpi : np.localCfg.angularSize < Real.pi / 2)
    {range : ℝ} {lt : Pose2d} {inverted : Bool} (rs : List Stop) {scans : List Scan} {odom place : Pose2d} {s : Node}
    (hs : Mapping np range lt inverted scans odom place s) (hr : Surveys np range lt inverted scans odom place rs) :
    ∃ t, Node.run np s (rs.flatMap Stop.mapInputs) = .ok t ∧ t.sys.scans.map (·.pose) = scans.map (·.pose) ++ rs.map Stop.place ∧
      t.sys.prevRobot = (rs.getLast?.map Stop.place).getD place := by
  induction rs generalizing scans odom place s with
  | nil => exact ⟨s, rfl, by rw [hs.scans]; simp, hs.place⟩
  | cons r rs ih =>
    obtain ⟨pts, h1, h2⟩ := hr
    obtain ⟨u, hu, htr⟩ := c161_stop hf hl ha hpi hs h1
    obtain ⟨t, ht, hsc, hp⟩ := ih htr h2
    refine ⟨t, ?_, ?_, ?_⟩
    · unfold Node.run at hu ht ⊢
      rw [List.flatMap_cons, List.foldlM_append, hu, Res.ok_bind, ht]
    · rw [hsc]
      simp [takenAt, Scan.setPose, Scan.setPoints]
    · rw [hp]
      cases rs with
      | nil => rfl
      | cons a b => rw [List.getLast?_cons_cons, List.getLast?_cons]; rfl

/-- The first message of a node without a map, and what is to be published then. -/
theorem first_stop_full {np : NodeParams} (hf : np.map.useFilter = false) {range : ℝ} (hrange : 0 ≤ range) {lt : Pose2d} {inverted : Bool}
    {odom odomEnd : Pose2d} {msg : LaserMsg} {fs : List FPoint} {pts : List Point} (hlatch : Laser.latchRangeMax np.map.rangeMax msg = .fin range)
    (h1 : Laser.points msg (.fin range) inverted lt odom odomEnd = .ok fs) (h2 : finitePoints fs = .ok pts) :
    ∃ n t, Node.start np true none = .ok n ∧
      Node.run np n [.plain (.laser msg (some (lt, inverted)) (some odom) (some odomEnd)), .plain .pushScan, .plain .finishScan] = .ok t ∧
      Mapping np range lt inverted [takenAt 0 Pose2d.zero pts] odom Pose2d.zero t ∧ t.sys.pub = .check ∧ t.sys.update = true := by
  set s0 : Sys := startWith np.map true false (Graph.new np.map.useBarycenter) with hs0
  have hlatch0 : Laser.latchRangeMax s0.rangeMax msg = .fin range := hlatch
  have hsc0 : s0.scans = [] := rfl
  set s1 : Sys := { s0 with
      rangeMax := .fin range, laser := some (lt, inverted), globalM := some [], localM := some [],
      spin := .append (takenAt 0 Pose2d.zero pts) odom } with hs1
  have e1 : Mapper.step np.map s0 (.laser msg (some (lt, inverted)) (some odom) (some odomEnd)) = .ok s1 := by
    rw [step_laser_points_first np.map s0 msg lt inverted odom odomEnd rfl rfl rfl (.inl hsc0) (by rw [hlatch0]; exact h1) h2, hlatch0]
    have he : s0.enable = true := rfl
    simp [hs1, hf, he, hsc0, branch, firstPose, takenAt]
  let g : Matcher := { np.globalCfg with rangeMax := range, ndt := none }
  let l : Matcher := { np.localCfg with rangeMax := range, ndt := none }
  have f1 : Node.step np ⟨s0, none, none, none⟩ (.plain (.laser msg (some (lt, inverted)) (some odom) (some odomEnd))) =
      .ok ⟨s1, some g, some l, none⟩ := by
    have hm : Node.makesMatchers ⟨s0, none, none, none⟩ (some (lt, inverted)) := ⟨rfl, rfl, by simp⟩
    have he : s0.enable = true := rfl
    simp only [Node.step, if_pos hm, Node.makeMatchers, hlatch0, Node.initMatcher, hf, he, Bool.not_true, Bool.or_self, Bool.false_eq_true,
      if_false, Res.ok_bind, Node.mapper, e1]
    rfl
  set s2 : Sys := { s1 with
      heap := fun e => if e = s1.epoch then [takenAt 0 Pose2d.zero pts] else s1.heap e, spin := .announce ⟨s1.epoch, 0⟩ odom } with hs2
  have f2 : Node.step np ⟨s1, some g, some l, none⟩ (.plain .pushScan) = .ok ⟨s2, some g, some l, none⟩ := by
    have hsp : s1.spin = .append (takenAt 0 Pose2d.zero pts) odom := rfl
    have hsc : s1.scans = [] := rfl
    simp only [Node.step, Node.mapper, Mapper.step, hsp, hsc, Res.ok_bind, List.nil_append, List.length_nil]
    rfl
  have e2 : s2.heap s2.epoch = [takenAt 0 Pose2d.zero pts] := by
    simp [hs2]
  have f3 : Node.step np ⟨s2, some g, some l, none⟩ (.plain .finishScan) =
      .ok ⟨{ s2 with prevOdom := odom, prevRobot := Pose2d.zero, update := true, spin := .idle }, some g, some l, none⟩ := by
    have hsp : s2.spin = .announce ⟨s2.epoch, 0⟩ odom := rfl
    have hget : (s2.heap s2.epoch)[0]? = some (takenAt 0 Pose2d.zero pts) := by rw [e2]; rfl
    simp only [Node.step, Node.mapper, Mapper.step, hsp, hget, Res.ok_bind]
    rfl
  refine ⟨⟨s0, none, none, none⟩, ⟨{ s2 with prevOdom := odom, prevRobot := Pose2d.zero, update := true, spin := .idle }, some g, some l, none⟩, ?_, ?_, ?_⟩
  · unfold Node.start
    simp only [Mapper.start, Res.ok_bind, hf]
    rfl
  · unfold Node.run
    rw [List.foldlM_cons, f1, Res.ok_bind, List.foldlM_cons, f2, Res.ok_bind, List.foldlM_cons, f3]
    rfl
  · exact ⟨⟨by simp, hrange, ⟨l, rfl, rfl⟩, rfl, rfl, rfl, rfl, by simp [s2, s1], e2, rfl, rfl, rfl⟩, rfl, rfl⟩

/-- **C161** The start: the first message of a node without a map makes the first scan, whose place is the origin of the map. -/
theorem c161_first_stop {np : NodeParams} (hf : np.map.useFilter = false) {range : ℝ} (hrange : 0 ≤ range) {lt : Pose2d} {inverted : Bool}
    {odom odomEnd : Pose2d} {msg : LaserMsg} {fs : List FPoint} {pts : List Point} (hlatch : Laser.latchRangeMax np.map.rangeMax msg = .fin range)
    (h1 : Laser.points msg (.fin range) inverted lt odom odomEnd = .ok fs) (h2 : finitePoints fs = .ok pts) :
    ∃ n t, Node.start np true none = .ok n ∧
      Node.run np n [.plain (.laser msg (some (lt, inverted)) (some odom) (some odomEnd)), .plain .pushScan, .plain .finishScan] = .ok t ∧
      Mapping np range lt inverted [takenAt 0 Pose2d.zero pts] odom Pose2d.zero t := by
  obtain ⟨n, t, h3, h4, h5, -⟩ := first_stop_full hf hrange hlatch h1 h2
  exact ⟨n, t, h3, h4, h5⟩

/-- **C161** From the start of the node on: if the first place of the robot is called the origin, all scans of a drive are at their true places. -/
theorem c161_from_the_start {np : NodeParams} (hf : np.map.useFilter = false)
    (hl : 0 < np.localCfg.linearRes) (ha : 0 < np.localCfg.angularRes) (hpi : np.localCfg.angularSize < Real.pi / 2)
    {range : ℝ} (hrange : 0 ≤ range) {lt : Pose2d} {inverted : Bool}
    {odom odomEnd : Pose2d} {msg : LaserMsg} {fs : List FPoint} {pts : List Point} (hlatch : Laser.latchRangeMax np.map.rangeMax msg = .fin range)
    (h1 : Laser.points msg (.fin range) inverted lt odom odomEnd = .ok fs) (h2 : finitePoints fs = .ok pts) (rs : List Stop)
    (hr : Surveys np range lt inverted [takenAt 0 Pose2d.zero pts] odom Pose2d.zero rs) :
    ∃ n t, Node.start np true none = .ok n ∧
      Node.run np n ([.plain (.laser msg (some (lt, inverted)) (some odom) (some odomEnd)), .plain .pushScan, .plain .finishScan] ++
        rs.flatMap Stop.mapInputs) = .ok t ∧
      t.sys.scans.map (·.pose) = Pose2d.zero :: rs.map Stop.place ∧ t.sys.prevRobot = (rs.getLast?.map Stop.place).getD Pose2d.zero := by
  obtain ⟨n, u, hn, hu, hm⟩ := c161_first_stop hf hrange hlatch h1 h2
  obtain ⟨t, ht, hsc, hp⟩ := c161_map_is_true hf hl ha hpi rs hm hr
  refine ⟨n, t, hn, ?_, hsc, hp⟩
  unfold Node.run at hu ht ⊢
  rw [List.foldlM_append, hu, Res.ok_bind, ht]

/-- The default parameters but for a minimum travel of 5 cm (and those of `demoParams` that play no part here: the grid and the barycenters). -/
def surveyNode : NodeParams := { demoNode false with map := { (demoNode false).map with minDist := 1 / 20 } }

/-- The stop: odometry says 8 cm, but the robot has moved by 7 cm. -/
def surveyStop (junk : Mat3F) : Stop := ⟨driftMsg, none, ⟨8 / 100, 0, 0⟩, ⟨8 / 100, 0, 0⟩, junk, ⟨7 / 100, 0, 0⟩⟩

/-- The stop after one scan of the corner. -/
theorem surveyStop_surveys (junk : Mat3F) : Surveys surveyNode 10 Pose2d.zero false [cornerRoomScan] Pose2d.zero Pose2d.zero [surveyStop junk] := by
  obtain ⟨g, hm, e1, e2, e0, e3, e4⟩ := cornerRoom_goodMap
  have hpred : predict Pose2d.zero Pose2d.zero ⟨8 / 100, 0, 0⟩ = ⟨8 / 100, 0, 0⟩ := by
    have h0 : normalizeAngle 0 = 0 := normalizeAngle_of_mem ⟨by linarith [Real.pi_pos], Real.pi_pos.le⟩
    simp only [predict, Pose2d.zero, shortestAngularDistance, sub_self, h0, add_zero, Real.cos_zero, Real.sin_zero]
    norm_num
  obtain ⟨fs, hp1, hp2⟩ := driftMsg_points ⟨8 / 100, 0, 0⟩
  exact ⟨driftPts, ⟨Or.inl (by norm_num [surveyNode, surveyStop, Pose2d.zero]), by simp [surveyNode, demoNode, demoParams],
      ⟨fs, hp1, hp2⟩, _, g, cornerRoomWall, hm, by
        have : recent surveyNode.map.rollingDepth [cornerRoomScan] = [cornerRoomScan] := by simp [recent, surveyNode, demoNode, demoParams]
        rw [this, e0, e1, e2, cornerRoom_points]
        refine ⟨?_, fun p hp => (cornerRoom_fits hp).1⟩
        intro k
        unfold cornerRoomWall
        split <;> simp, by
        have : recent surveyNode.map.rollingDepth [cornerRoomScan] = [cornerRoomScan] := by simp [recent, surveyNode, demoNode, demoParams]
        rw [this, cornerRoom_points]
        show Holds _ _ _ _ (((Scan.new 1).setPose (predict Pose2d.zero Pose2d.zero ⟨8 / 100, 0, 0⟩)).setPoints driftPts) ⟨7 / 100, 0, 0⟩
        rw [hpred]
        exact drift_holds e1 e2 e0 e3 e4⟩, trivial⟩

/-- The hypotheses of `c161_map_is_true`: a node that has the scan of the corner, taken at the origin, and the stop. -/
theorem c161_drift_is_corrected (junk : Mat3F) : ∃ n t : Node, n.sys.enable = true ∧ n.sys.scans = [cornerRoomScan] ∧ n.sys.prevOdom = Pose2d.zero ∧
    n.sys.prevRobot = Pose2d.zero ∧ Node.run surveyNode n (surveyStop junk).mapInputs = .ok t ∧
    t.sys.scans.map (·.pose) = [Pose2d.zero, ⟨7 / 100, 0, 0⟩] ∧ t.sys.prevRobot = ⟨7 / 100, 0, 0⟩ := by
  let n : Node := ⟨{ demoStart surveyNode.map true with
      heap := fun _ => [cornerRoomScan], initialized := true, laser := some (Pose2d.zero, false), globalM := some [], localM := some [],
      rangeMax := .fin 10 }, none, some { defaultMatcher with rangeMax := 10 }, none⟩
  have htr : Mapping surveyNode 10 Pose2d.zero false [cornerRoomScan] Pose2d.zero Pose2d.zero n :=
    ⟨by simp, by norm_num, ⟨_, rfl, rfl⟩, rfl, rfl, rfl, rfl, by simp [n], rfl, rfl, rfl, rfl⟩
  obtain ⟨t, h1, h2, h3⟩ := c161_map_is_true (np := surveyNode) rfl (by norm_num [surveyNode, demoNode, defaultMatcher])
    (by norm_num [surveyNode, demoNode, defaultMatcher])
    (by have := Real.two_le_pi; norm_num [surveyNode, demoNode, defaultMatcher]; linarith)
    [surveyStop junk] htr (surveyStop_surveys junk)
  refine ⟨n, t, rfl, rfl, rfl, rfl, ?_, h2, h3⟩
  simpa using h1

/-- The first message: ten beams at 45 degrees from a robot that slides along the x axis by 30 cm meanwhile. -/
def surveyMsg : LaserMsg := ⟨Real.pi / 4, 0, .fin 10, [1 / 10, 1 / 10, 1 / 10, 1 / 10, 1 / 10, 9 / 40, 39 / 200, 33 / 200, 27 / 200, 21 / 200].map
  fun y => .fin (Real.sqrt 2 * y)⟩

/-- They are the ten points of the corner. -/
theorem surveyMsg_points : ∃ fs, Laser.points surveyMsg (.fin 10) false Pose2d.zero Pose2d.zero ⟨3 / 10, 0, 0⟩ = .ok fs ∧
    finitePoints fs = .ok cornerRoomPts := by
  have h2 : ∀ y : ℝ, Real.sqrt 2 / 2 * (Real.sqrt 2 * y) = y := by
    intro y
    have := Real.mul_self_sqrt (show (0 : ℝ) ≤ 2 by norm_num)
    linear_combination y / 2 * this
  have hk : ∀ y : ℝ, y ≤ 1 → 0 ≤ y → ¬ Laser.skip (.fin 10) (.fin (Real.sqrt 2 * y)) := by
    intro y hy h0
    have : Real.sqrt 2 ≤ 2 := Real.sqrt_le_iff.mpr ⟨by norm_num, by norm_num⟩
    have hs := Real.sqrt_nonneg 2
    have : Real.sqrt 2 * y ≤ 10 := by nlinarith
    simp only [Laser.skip, Fl.isNan, not_or]
    exact ⟨by simp, by simpa using this⟩
  have hp : ∀ (i : ℕ) (y : ℝ), Laser.forwardPoint surveyMsg Pose2d.zero (Laser.translation Pose2d.zero ⟨3 / 10, 0, 0⟩) i (.fin (Real.sqrt 2 * y)) =
      (.fin (y + 3 / 100 * i), .fin y) := by
    intro i y
    have hlen : surveyMsg.ranges.length = 10 := by simp [surveyMsg]
    simp only [Laser.forwardPoint, hlen]
    simp [Laser.perMeas, Laser.translation, Laser.shift, Laser.project, surveyMsg, Pose2d.zero, h2]
    left
    norm_num
  refine ⟨[(.fin (1 / 10), .fin (1 / 10)), (.fin (13 / 100), .fin (1 / 10)), (.fin (16 / 100), .fin (1 / 10)), (.fin (19 / 100), .fin (1 / 10)),
    (.fin (22 / 100), .fin (1 / 10)), (.fin (3 / 8), .fin (9 / 40)), (.fin (3 / 8), .fin (39 / 200)), (.fin (3 / 8), .fin (33 / 200)),
    (.fin (3 / 8), .fin (27 / 200)), (.fin (3 / 8), .fin (21 / 200))], ?_, by simp [finitePoints, cornerRoomPts, Res.ok_bind]⟩
  have hr : surveyMsg.ranges = [1 / 10, 1 / 10, 1 / 10, 1 / 10, 1 / 10, 9 / 40, 39 / 200, 33 / 200, 27 / 200, 21 / 200].map
    fun y => .fin (Real.sqrt 2 * y) := rfl
  simp only [Laser.points, Bool.false_eq_true, if_false, hr, List.map_cons, List.map_nil, Laser.forwardLoop,
    if_neg (hk (1 / 10) (by norm_num) (by norm_num)), if_neg (hk (9 / 40) (by norm_num) (by norm_num)),
    if_neg (hk (39 / 200) (by norm_num) (by norm_num)), if_neg (hk (33 / 200) (by norm_num) (by norm_num)),
    if_neg (hk (27 / 200) (by norm_num) (by norm_num)), if_neg (hk (21 / 200) (by norm_num) (by norm_num)), hp]
  norm_num

/-- **C161** The same from the start of the node: two messages make a map of two scans, at their true places though odometry is off. -/
theorem c161_corner_from_the_start (junk : Mat3F) : ∃ n t, Node.start surveyNode true none = .ok n ∧
    Node.run surveyNode n ([.plain (.laser surveyMsg (some (Pose2d.zero, false)) (some Pose2d.zero) (some ⟨3 / 10, 0, 0⟩)), .plain .pushScan,
      .plain .finishScan] ++ (surveyStop junk).mapInputs) = .ok t ∧
    t.sys.scans.map (·.pose) = [Pose2d.zero, ⟨7 / 100, 0, 0⟩] ∧ t.sys.prevRobot = ⟨7 / 100, 0, 0⟩ := by
  obtain ⟨fs, h1, h2⟩ := surveyMsg_points
  obtain ⟨n, t, a1, a2, a3, a4⟩ := c161_from_the_start (np := surveyNode) rfl (by norm_num [surveyNode, demoNode, defaultMatcher])
    (by norm_num [surveyNode, demoNode, defaultMatcher])
    (by have := Real.two_le_pi; norm_num [surveyNode, demoNode, defaultMatcher]; linarith) (range := 10) (by norm_num)
    (by norm_num [Laser.latchRangeMax, surveyNode, demoNode, demoParams, surveyMsg]) h1 h2 [surveyStop junk] (surveyStop_surveys junk)
  refine ⟨n, t, a1, ?_, a3, a4⟩
  simpa using a2

end

end Ndt
