import Verif.Spec.Drift
import Verif.Props.PutBackProps
import Verif.Props.KnowsProps

/-! # Property C160: the drift of odometry does not add up while localising -/

namespace Ndt

open Spec Mapper

noncomputable section

/-- The scan is off by an offset of the window from `place`, fits the map there and holds by two walls that are not parallel: the hypotheses of
`c159_put_back`. -/
structure Holds (mt : Matcher) (g : NdtGrid) (ps : List Point) (wall : ℤ × ℤ → Line) (scan : Scan) (place : Pose2d) : Prop where
  few : scan.points.length < 2 ^ 64
  near : ∀ o, InWindow mt.linearSize mt.linearRes mt.angularSize mt.angularRes o → NearAt mt g scan o
  near0 : NearAt mt g scan ⟨0, 0, 0⟩
  off : ∃ t, InWindow mt.linearSize mt.linearRes mt.angularSize mt.angularRes t ∧ offset scan.pose t = place
  fits : ∀ p ∈ samples scan.points (beamCount mt.laserMaxBeams scan.points.length),
    (wall (square g.originX g.originY g.cellSize (move place p))).has (move place p) ∧
    InExtents g.originX g.originY g.cellSize g.sizeX g.sizeY (move place p) ∧
    5 ≤ (inSquare g.originX g.originY g.cellSize (square g.originX g.originY g.cellSize (move place p)) ps).length
  walls : ∃ w w' : Line, w.a * w'.b ≠ w.b * w'.a ∧
    ∃ p ∈ samples scan.points (beamCount mt.laserMaxBeams scan.points.length),
    ∃ q ∈ samples scan.points (beamCount mt.laserMaxBeams scan.points.length),
    ∃ s ∈ samples scan.points (beamCount mt.laserMaxBeams scan.points.length), p ≠ q ∧
    ∀ o, InWindow mt.linearSize mt.linearRes mt.angularSize mt.angularRes o →
      wall (square g.originX g.originY g.cellSize (move (offset scan.pose o) p)) = w ∧
      wall (square g.originX g.originY g.cellSize (move (offset scan.pose o) q)) = w ∧
      wall (square g.originX g.originY g.cellSize (move (offset scan.pose o) s)) = w'

/-- The robot, last at `place` when odometry said `odom`, makes the stop `r`: it has moved far enough, and what its laser sees there, taken at the pose that
odometry predicts, holds at the true place. -/
structure Reaches (np : NodeParams) (limit : Fl) (lt : Pose2d) (inverted : Bool) (n : ℕ) (mt : Matcher) (g : NdtGrid) (ps : List Point)
    (wall : ℤ × ℤ → Line) (odom place : Pose2d) (r : Stop) : Prop where
  range : ¬ limit < .fin 0
  moved : Moved np.map.minDist np.map.minRot odom r.odom
  sees : ∃ fs pts, Laser.points r.msg limit inverted lt r.odom r.odomEnd = .ok fs ∧ finitePoints fs = .ok pts ∧
    Holds mt g ps wall (((Scan.new n).setPose (predict odom place r.odom)).setPoints pts) r.place

/-- A drive of many stops. -/
def Drives (np : NodeParams) (limit : Fl) (lt : Pose2d) (inverted : Bool) (n : ℕ) (mt : Matcher) (g : NdtGrid) (ps : List Point)
    (wall : ℤ × ℤ → Line) : Pose2d → Pose2d → List Stop → Prop
  | _, _, [] => True
  | odom, place, r :: rs => Reaches np limit lt inverted n mt g ps wall odom place r ∧
      Drives np limit lt inverted n mt g ps wall r.odom r.place rs

/-- The node localises in a map of `n` scans with the matcher `mt`, has its first pose and laser, and believes to be at `place` when odometry says `odom`. -/
structure Tracks (limit : Fl) (lt : Pose2d) (inverted : Bool) (n : ℕ) (mt : Matcher) (odom place : Pose2d) (s : Node) : Prop where
  idle : s.sys.spin = .idle
  enable : s.sys.enable = false
  initialized : s.sys.initialized = true
  laser : s.sys.laser = some (lt, inverted)
  scans : s.sys.scans.length = n
  pos : 0 < n
  range : s.sys.rangeMax = limit
  matcher : s.globalN = some mt
  filled : s.sys.globalM ≠ none
  odom : s.sys.prevOdom = odom
  place : s.sys.prevRobot = place

/-- **C160** After a stop the node is at the true place, whatever odometry said. -/
theorem c160_stop {np : NodeParams} (hf : np.map.useFilter = false) {mt : Matcher} {scans : List Scan} {mt' : Matcher} {g : NdtGrid}
    (hm : GoodMap mt scans mt' g) {wall : ℤ × ℤ → Line}
    (hwall : WallsOf g.originX g.originY g.cellSize (mapPoints (scans.map .addScan)) wall)
    (hl : 0 < mt'.linearRes) (ha : 0 < mt'.angularRes) (hpi : mt'.angularSize < Real.pi / 2)
    {limit : Fl} {lt : Pose2d} {inverted : Bool} {n : ℕ} {odom place : Pose2d} {s : Node}
    (hs : Tracks limit lt inverted n mt' odom place s) {r : Stop}
    (hr : Reaches np limit lt inverted n mt' g (mapPoints (scans.map .addScan)) wall odom place r) :
    ∃ t, Node.run np s r.inputs = .ok t ∧ Tracks limit lt inverted n mt' r.odom r.place t ∧ t.sys.scans = s.sys.scans := by
  obtain ⟨fs, pts, h1, h2, hh⟩ := hr.sees
  obtain ⟨t, ht, hplace⟩ := hh.off
  obtain ⟨w, w', hw, p, hp, q, hq, u, hu, hpq, hstay⟩ := hh.walls
  obtain ⟨m, hmatch, hpose, -, -⟩ := c159_put_back hm hwall hl ha hpi _ hh.few hh.near ht hplace hh.fits hw hp hq hu hpq hstay
    Pose2d.zero r.junk
  have hb : 0 < beamCount mt'.laserMaxBeams (((Scan.new n).setPose (predict odom place r.odom)).setPoints pts).points.length := by
    have := List.length_pos_of_mem hp
    unfold beamCount at this ⊢
    rwa [(c12_samples_are_points _ _).1] at this
  obtain ⟨v, hv, -⟩ := c18_score_normalised_partial hm _ hh.few hb hh.near0
  have hne : s.sys.scans ≠ [] := by
    intro h
    have h1 := hs.scans
    have h2 := hs.pos
    rw [h] at h1
    simp at h1
    omega
  generalize hscan : ((Scan.new n).setPose (predict odom place r.odom)).setPoints pts = scan at *
  have hlatch : Laser.latchRangeMax s.sys.rangeMax r.msg = s.sys.rangeMax := by
    unfold Laser.latchRangeMax
    rw [hs.range, if_neg hr.range]
  have hmoved : ¬ tooLittle np.map s.sys r.odom := by
    unfold tooLittle
    rw [hs.odom]
    rintro ⟨a1, a2⟩
    rcases hr.moved with h | h
    · exact absurd a1 (not_lt.mpr h)
    · exact absurd a2 (not_lt.mpr h)
  have hset : laserSetup np.map r.msg r.mount s.sys = (s.sys, true) := by
    unfold laserSetup
    simp only [hs.laser, hlatch]
    rw [← hs.laser]
  have hcall : laserCallback np.map r.msg r.mount (some r.odom) (some r.odomEnd) s.sys = .ok { s.sys with spin := .localise scan r.odom } := by
    unfold laserCallback
    simp only [hset, hs.initialized, hs.laser, hs.enable, hs.range, hs.odom, hs.place, hs.scans, hf, h1, h2, Bool.not_true, Bool.false_eq_true, if_false,
      Res.ok_bind]
    rw [if_neg (fun h => hmoved h.2), if_neg hne, hscan]
  have f1 : s.step np (.plain (.laser r.msg r.mount (some r.odom) (some r.odomEnd))) =
      .ok { s with sys := { s.sys with spin := .localise scan r.odom } } := by
    have hmk : ¬ s.makesMatchers r.mount := by
      rintro ⟨-, h, -⟩
      rw [hs.laser] at h
      cases h
    simp only [Node.step, if_neg hmk, Node.mapper, Mapper.step, hs.idle, hcall, Res.ok_bind]
  have f2 : Node.step np { s with sys := { s.sys with spin := .localise scan r.odom } } (.globalMatch r.junk) =
      .ok { s with sys := { s.sys with spin := .finish r.place r.odom } } := by
    have e : addCorrection m.pose scan.getPose = r.place := by
      rw [← hplace, hpose]
      simp only [addCorrection, offset, Scan.getPose]
      ext <;> simp [add_comm]
    simp only [Node.step, hs.matcher, hv, hmatch, Node.mapper, Mapper.step, if_neg hs.filled, e, Res.ok_bind]
  have f3 : Node.step np { s with sys := { s.sys with spin := .finish r.place r.odom } } (.plain .finishScan) =
      .ok { s with sys := { s.sys with prevOdom := r.odom, prevRobot := r.place, spin := .idle } } := by
    simp only [Node.step, Node.mapper, Mapper.step, Res.ok_bind]
  refine ⟨{ s with sys := { s.sys with prevOdom := r.odom, prevRobot := r.place, spin := .idle } }, ?_,
    ⟨rfl, hs.enable, hs.initialized, hs.laser, hs.scans, hs.pos, hs.range, hs.matcher, hs.filled, rfl, rfl⟩, rfl⟩
  unfold Node.run Stop.inputs
  rw [List.foldlM_cons, f1, Res.ok_bind, List.foldlM_cons, f2, Res.ok_bind, List.foldlM_cons, f3]
  rfl

/-- **C160** So the drift does not add up: if odometry, from one stop to the next, is never off by anything but an offset of the window, then after every
drive, however long, the node is where the robot is. -/
theorem c160_drift_does_not_add_up {np : NodeParams} (hf : np.map.useFilter = false) {mt : Matcher} {scans : List Scan} {mt' : Matcher} {g : NdtGrid}
    (hm : GoodMap mt scans mt' g) {wall : ℤ × ℤ → Line}
    (hwall : WallsOf g.originX g.originY g.cellSize (mapPoints (scans.map .addScan)) wall)
    (hl : 0 < mt'.linearRes) (ha : 0 < mt'.angularRes) (hpi : mt'.angularSize < Real.pi / 2)
    {limit : Fl} {lt : Pose2d} {inverted : Bool} {n : ℕ} (rs : List Stop) {odom place : Pose2d} {s : Node}
    (hs : Tracks limit lt inverted n mt' odom place s)
    (hr : Drives np limit lt inverted n mt' g (mapPoints (scans.map .addScan)) wall odom place rs) :
    ∃ t, Node.run np s (rs.flatMap Stop.inputs) = .ok t ∧ t.sys.prevRobot = (rs.getLast?.map Stop.place).getD place ∧
      t.sys.prevOdom = (rs.getLast?.map Stop.odom).getD odom ∧ t.sys.scans = s.sys.scans := by
  induction rs generalizing odom place s with
  | nil => exact ⟨s, rfl, hs.place, hs.odom, rfl⟩
  | cons r rs ih =>
    obtain ⟨h1, h2⟩ := hr
    obtain ⟨u, hu, htr, hsc⟩ := c160_stop hf hm hwall hl ha hpi hs h1
    obtain ⟨t, ht, hp, ho, hsc'⟩ := ih htr h2
    refine ⟨t, ?_, ?_, ?_, hsc'.trans hsc⟩
    · unfold Node.run at hu ht ⊢
      rw [List.flatMap_cons, List.foldlM_append, hu, Res.ok_bind, ht]
    · rw [hp]
      cases rs with
      | nil => rfl
      | cons a b => rw [List.getLast?_cons_cons, List.getLast?_cons]; rfl
    · rw [ho]
      cases rs with
      | nil => rfl
      | cons a b => rw [List.getLast?_cons_cons, List.getLast?_cons]; rfl

/-- **C160** The start: a node started with a map file and told not to map makes its matcher at the first message, and a pose message then tells it where it
is. The first message makes no scan. -/
theorem c160_first {np : NodeParams} (hf : np.map.useFilter = false) {bag : List BagMsg} {map : Graph}
    (hbag : Graph.load np.map.useBarycenter bag = .ok map) (hne : map.scans ≠ []) {range : ℝ} {msg : LaserMsg}
    (hlatch : Laser.latchRangeMax np.map.rangeMax msg = .fin range) {mt' : Matcher}
    (hadd : Matcher.addScans { np.globalCfg with rangeMax := range, ndt := none } map.scans = .ok mt') (lt : Pose2d) (inverted : Bool)
    (odom0 odomEnd0 : Option Pose2d) {pm : PoseMsg} (hin : pm.inMap = true) (odom : Pose2d) {visit : List ℕ}
    (hv : visit.Perm (List.range map.scans.length)) (nrm : MotionModel.Draws) :
    ∃ n t, Node.start np false (some bag) = .ok n ∧
      Node.run np n [.plain (.laser msg (some (lt, inverted)) odom0 odomEnd0), .pose pm (some odom) visit nrm, .plain .setRobot, .plain .setOdom] = .ok t ∧
      t.sys.scans = map.scans ∧ Tracks (.fin range) lt inverted map.scans.length mt' odom pm.pose t := by
  set s0 : Sys := startWith np.map false true map with hs0
  have hlatch0 : Laser.latchRangeMax s0.rangeMax msg = .fin range := hlatch
  have hsc0 : s0.scans = map.scans := rfl
  have hla : s0.laser = none := rfl
  have hen : s0.enable = false := rfl
  have hin0 : s0.initialized = false := rfl
  have hid : s0.spin = .idle := rfl
  let s1 : Sys := { s0 with
      rangeMax := .fin range, laser := some (lt, inverted), globalM := some map.scans, localM := some [] }
  have e1 : Mapper.step np.map s0 (.laser msg (some (lt, inverted)) odom0 odomEnd0) = .ok s1 := by
    have hset : laserSetup np.map msg (some (lt, inverted)) s0 = (s1, true) := by
      simp only [laserSetup, hla, hlatch0, hf, hen, hsc0, Bool.not_false, Bool.or_true, if_true, s1]
    have hi1 : s1.initialized = false := rfl
    simp only [Mapper.step, hid, laserCallback, hset, hi1, Bool.not_true, Bool.not_false, Bool.false_eq_true, if_false, if_true]
  let l : Matcher := { np.localCfg with rangeMax := range, ndt := none }
  have f1 : Node.step np ⟨s0, none, none, none⟩ (.plain (.laser msg (some (lt, inverted)) odom0 odomEnd0)) = .ok ⟨s1, some mt', some l, none⟩ := by
    have hm : Node.makesMatchers ⟨s0, none, none, none⟩ (some (lt, inverted)) := ⟨rfl, rfl, by simp⟩
    simp only [Node.step, if_pos hm, Node.makeMatchers, hlatch0, Node.initMatcher, hf, hen, hsc0, Bool.not_false, Bool.or_true, if_true, hadd,
      Res.ok_bind, Node.mapper, e1]
    rfl
  have f2 : Node.step np ⟨s1, some mt', some l, none⟩ (.pose pm (some odom) visit nrm) =
      .ok ⟨{ s1 with spin := .poseRobot pm.pose odom }, some mt', some l, none⟩ := by
    have hi : ¬ Node.initsFilter np ⟨s1, some mt', some l, none⟩ pm (some odom) visit := by
      rintro ⟨-, -, -, -, -, h⟩
      rw [hf] at h
      cases h
    have hv1 : Visits visit s1.scans.length := hv
    have hi1 : s1.spin = .idle := rfl
    have hen1 : s1.enable = false := rfl
    simp only [Node.step, if_neg hi, Node.mapper, Mapper.step, hi1, if_pos hv1, poseCallback, hen1, hin, hf, Bool.false_and, Bool.not_true,
      Bool.false_eq_true, if_false, Res.ok_bind]
  have f3 : Node.step np ⟨{ s1 with spin := .poseRobot pm.pose odom }, some mt', some l, none⟩ (.plain .setRobot) =
      .ok ⟨{ s1 with prevRobot := pm.pose, spin := .poseOdom odom }, some mt', some l, none⟩ := by
    simp only [Node.step, Node.mapper, Mapper.step, Res.ok_bind]
  have f4 : Node.step np ⟨{ s1 with prevRobot := pm.pose, spin := .poseOdom odom }, some mt', some l, none⟩ (.plain .setOdom) =
      .ok ⟨{ s1 with prevRobot := pm.pose, prevOdom := odom, initialized := true, spin := .idle }, some mt', some l, none⟩ := by
    simp only [Node.step, Node.mapper, Mapper.step, Res.ok_bind]
  refine ⟨⟨s0, none, none, none⟩, ⟨{ s1 with prevRobot := pm.pose, prevOdom := odom, initialized := true, spin := .idle }, some mt', some l, none⟩,
    ?_, ?_, rfl, ⟨rfl, rfl, rfl, rfl, rfl, List.length_pos_iff.mpr hne, rfl, rfl, by simp [s1], rfl, rfl⟩⟩
  · unfold Node.start
    simp only [Mapper.start, hbag, Res.ok_bind, hf]
    rfl
  · unfold Node.run
    rw [List.foldlM_cons, f1, Res.ok_bind, List.foldlM_cons, f2, Res.ok_bind, List.foldlM_cons, f3, Res.ok_bind, List.foldlM_cons, f4]
    rfl

/-- **C160** From the start of the node on: with a map file of straight walls and a pose message that says where the robot is, the node is where the robot is
after every drive, and the scans are those of the file. -/
theorem c160_from_the_start {np : NodeParams} (hf : np.map.useFilter = false) {bag : List BagMsg} {map : Graph}
    (hbag : Graph.load np.map.useBarycenter bag = .ok map) (hne : map.scans ≠ []) {range : ℝ} {msg : LaserMsg}
    (hlatch : Laser.latchRangeMax np.map.rangeMax msg = .fin range) {mt' : Matcher} {g : NdtGrid}
    (hm : GoodMap { np.globalCfg with rangeMax := range, ndt := none } map.scans mt' g) {wall : ℤ × ℤ → Line}
    (hwall : WallsOf g.originX g.originY g.cellSize (mapPoints (map.scans.map .addScan)) wall)
    (hl : 0 < mt'.linearRes) (ha : 0 < mt'.angularRes) (hpi : mt'.angularSize < Real.pi / 2) (lt : Pose2d) (inverted : Bool)
    (odom0 odomEnd0 : Option Pose2d) {pm : PoseMsg} (hin : pm.inMap = true) (odom : Pose2d) {visit : List ℕ}
    (hv : visit.Perm (List.range map.scans.length)) (nrm : MotionModel.Draws) (rs : List Stop)
    (hr : Drives np (.fin range) lt inverted map.scans.length mt' g (mapPoints (map.scans.map .addScan)) wall odom pm.pose rs) :
    ∃ n t, Node.start np false (some bag) = .ok n ∧
      Node.run np n ([.plain (.laser msg (some (lt, inverted)) odom0 odomEnd0), .pose pm (some odom) visit nrm, .plain .setRobot, .plain .setOdom] ++
        rs.flatMap Stop.inputs) = .ok t ∧
      t.sys.prevRobot = (rs.getLast?.map Stop.place).getD pm.pose ∧ t.sys.scans = map.scans := by
  obtain ⟨n, u, hn, hu, hsc, htr⟩ := c160_first hf hbag hne hlatch hm.ok lt inverted odom0 odomEnd0 hin odom hv nrm
  obtain ⟨t, ht, hp, -, hsc'⟩ := c160_drift_does_not_add_up hf hm hwall hl ha hpi rs htr hr
  refine ⟨n, t, hn, ?_, hp, hsc'.trans hsc⟩
  unfold Node.run at hu ht ⊢
  rw [List.foldlM_append, hu, Res.ok_bind, ht]

/-- Three beams, 45 degrees apart, of a laser 7 cm from the y axis: one to the wall `x = 0.375` of the corner and two to the wall `y = 0.1`. -/
def driftMsg : LaserMsg := ⟨0, Real.pi / 4, .fin 10, [.fin (61 / 200), .fin (Real.sqrt 2 / 10), .fin (1 / 10)]⟩

/-- The three points. -/
def driftPts : List Point := [⟨61 / 200, 0⟩, ⟨1 / 10, 1 / 10⟩, ⟨0, 1 / 10⟩]

/-- The stop: odometry says 1.01 m, but the robot has moved by 1 m, to a place 7 cm from the y axis. -/
def driftStop (junk : Mat3F) : Stop := ⟨driftMsg, none, ⟨101 / 100, 0, 0⟩, ⟨101 / 100, 0, 0⟩, junk, ⟨7 / 100, 0, 0⟩⟩

theorem driftMsg_points (o : Pose2d) : ∃ fs, Laser.points driftMsg (.fin 10) false Pose2d.zero o o = .ok fs ∧ finitePoints fs = .ok driftPts := by
  have h2 : Real.sqrt 2 / 2 * (Real.sqrt 2 / 10) = 1 / 10 := by
    have := Real.mul_self_sqrt (show (0 : ℝ) ≤ 2 by norm_num)
    nlinarith
  have hs : Real.sqrt 2 / 10 ≤ 10 := by
    have : Real.sqrt 2 ≤ 2 := Real.sqrt_le_iff.mpr ⟨by norm_num, by norm_num⟩
    linarith
  have h4 : Real.pi / 4 + Real.pi / 4 = Real.pi / 2 := by ring
  refine ⟨[(.fin (61 / 200), .fin 0), (.fin (1 / 10), .fin (1 / 10)), (.fin 0, .fin (1 / 10))], ?_, by
    simp [finitePoints, driftPts, Res.ok_bind]⟩
  have k1 : ¬ Laser.skip (.fin 10) (.fin (61 / 200)) := by norm_num [Laser.skip, Fl.isNan]
  have k2 : ¬ Laser.skip (.fin 10) (.fin (Real.sqrt 2 / 10)) := by
    simp only [Laser.skip, Fl.isNan, not_or]
    exact ⟨by simp, by simp; linarith⟩
  have k3 : ¬ Laser.skip (.fin 10) (.fin (1 / 10)) := by norm_num [Laser.skip, Fl.isNan]
  have e2 : (2 : ℝ) * (Real.pi / 4) = Real.pi / 2 := by ring
  simp only [Laser.points, driftMsg, Bool.false_eq_true, if_false, Laser.forwardLoop, if_neg k1, if_neg k2, if_neg k3, Laser.forwardPoint, Laser.perMeas,
    Laser.translation, Laser.shift, Laser.project, Pose2d.zero, sub_self, zero_div, zero_mul, Real.cos_zero, Real.sin_zero, zero_add, Nat.cast_zero]
  norm_num [e2, h2]

/-- The corner's map seen from there. -/
theorem drift_holds {g : NdtGrid} (e1 : g.originX = -10) (e2 : g.originY = -10) (e0 : g.cellSize = 1 / 4) (e3 : g.sizeX = 81) (e4 : g.sizeY = 81) :
    Holds { { defaultMatcher with rangeMax := 10 } with ndt := some g } g cornerRoomPts cornerRoomWall
      (((Scan.new 1).setPose ⟨8 / 100, 0, 0⟩).setPoints driftPts) ⟨7 / 100, 0, 0⟩ := by
  have hS : samples driftPts (beamCount 100 driftPts.length) = driftPts := (c12_samples_are_points _ _).2.2 (by simp [driftPts])
  have hbox : ∀ o, InWindow defaultMatcher.linearSize defaultMatcher.linearRes defaultMatcher.angularSize defaultMatcher.angularRes o →
      (-(1 / 20) ≤ o.x ∧ o.x ≤ 1 / 20) ∧ (-(1 / 20) ≤ o.y ∧ o.y ≤ 1 / 20) ∧ -(1 / 10) ≤ o.theta ∧ o.theta ≤ 1 / 10 := by
    rintro ⟨dx, dy, dth⟩ ⟨⟨k1, a1, l1⟩, ⟨k2, a2, l2⟩, ⟨k3, a3, l3⟩⟩
    have b1 : (0 : ℝ) ≤ k1 := Nat.cast_nonneg _
    have b2 : (0 : ℝ) ≤ k2 := Nat.cast_nonneg _
    have b3 : (0 : ℝ) ≤ k3 := Nat.cast_nonneg _
    norm_num [defaultMatcher] at a1 a2 a3 l1 l2 l3 ⊢
    refine ⟨⟨?_, ?_⟩, ⟨?_, ?_⟩, ?_, ?_⟩ <;> linarith
  have hnear : ∀ o : Pose2d, o.x ≤ 1 / 20 → o.y ≤ 1 / 20 → NearAt { { defaultMatcher with rangeMax := 10 } with ndt := some g } g
      (((Scan.new 1).setPose ⟨8 / 100, 0, 0⟩).setPoints driftPts) o := by
    intro o hx hy
    show ∀ p ∈ samples driftPts (beamCount 100 driftPts.length), Near _ _ _ (move (offset ⟨8 / 100, 0, 0⟩ o) p)
    rw [hS, e0, e1, e2]
    intro p hp
    have c1 := Real.cos_le_one o.theta
    have c2 := Real.neg_one_le_cos o.theta
    have s1 := Real.sin_le_one o.theta
    have s2 := Real.neg_one_le_sin o.theta
    apply cornerRoom_near
    simp only [driftPts, List.mem_cons, List.not_mem_nil, or_false] at hp
    rcases hp with rfl | rfl | rfl <;> simp only [move, offset, zero_add] <;> constructor <;> linarith
  refine ⟨by simp [Scan.setPoints, driftPts], fun o ho => hnear o (hbox o ho).1.2 (hbox o ho).2.1.2, hnear _ (by norm_num) (by norm_num),
    ⟨⟨-(1 / 100), 0, 0⟩, ?_, ?_⟩, ?_, ?_⟩
  · refine ⟨⟨8, by norm_num [defaultMatcher], by norm_num [defaultMatcher]⟩,
      ⟨10, by norm_num [defaultMatcher], by norm_num [defaultMatcher]⟩,
      ⟨40, by norm_num [defaultMatcher], by norm_num [defaultMatcher]⟩⟩
  · norm_num [offset, Scan.setPose, Scan.setPoints]
  · show ∀ p ∈ samples driftPts (beamCount 100 driftPts.length), _
    rw [hS, e0, e1, e2, e3, e4]
    intro p hp
    simp only [driftPts, List.mem_cons, List.not_mem_nil, or_false] at hp
    rcases hp with rfl | rfl | rfl
    · have e : move ⟨7 / 100, 0, 0⟩ ⟨61 / 200, 0⟩ = ⟨3 / 8, 0⟩ := by norm_num [move]
      rw [e, cornerRoom_right (by norm_num)]
      exact ⟨by norm_num [cornerRoomWall, Line.has], by norm_num [InExtents], cornerRoom_five (Or.inr rfl)⟩
    · have e : move ⟨7 / 100, 0, 0⟩ ⟨1 / 10, 1 / 10⟩ = ⟨17 / 100, 1 / 10⟩ := by norm_num [move]
      rw [e, cornerRoom_left (by norm_num)]
      exact ⟨by norm_num [cornerRoomWall, Line.has], by norm_num [InExtents], cornerRoom_five (Or.inl rfl)⟩
    · have e : move ⟨7 / 100, 0, 0⟩ ⟨0, 1 / 10⟩ = ⟨7 / 100, 1 / 10⟩ := by norm_num [move]
      rw [e, cornerRoom_left (by norm_num)]
      exact ⟨by norm_num [cornerRoomWall, Line.has], by norm_num [InExtents], cornerRoom_five (Or.inl rfl)⟩
  · show ∃ w w' : Line, _ ∧ ∃ p ∈ samples driftPts (beamCount 100 driftPts.length), ∃ q ∈ samples driftPts (beamCount 100 driftPts.length),
      ∃ s ∈ samples driftPts (beamCount 100 driftPts.length), _
    rw [hS, e0, e1, e2]
    refine ⟨⟨0, 1, 1 / 10⟩, ⟨1, 0, 3 / 8⟩, by norm_num, ⟨1 / 10, 1 / 10⟩, by simp [driftPts], ⟨0, 1 / 10⟩, by simp [driftPts], ⟨61 / 200, 0⟩,
      by simp [driftPts], by norm_num, ?_⟩
    intro o ho
    obtain ⟨⟨x1, x2⟩, ⟨y1, y2⟩, t1, t2⟩ := hbox o ho
    obtain ⟨⟨c1, c2⟩, s1, s2⟩ := cornerRoom_turn t1 t2
    show cornerRoomWall (square _ _ _ (move (offset ⟨8 / 100, 0, 0⟩ o) ⟨1 / 10, 1 / 10⟩)) = _ ∧
      cornerRoomWall (square _ _ _ (move (offset ⟨8 / 100, 0, 0⟩ o) ⟨0, 1 / 10⟩)) = _ ∧
      cornerRoomWall (square _ _ _ (move (offset ⟨8 / 100, 0, 0⟩ o) ⟨61 / 200, 0⟩)) = _
    rw [cornerRoom_left, cornerRoom_left]
    · refine ⟨by simp [cornerRoomWall], by simp [cornerRoomWall], ?_⟩
      unfold cornerRoomWall
      rw [if_neg]
      intro h
      have h := congrArg Prod.fst h
      simp only [square, Int.floor_eq_iff, move, offset, zero_add] at h
      have := h.2
      norm_num at this
      linarith
    all_goals
      simp only [move, offset, zero_add]
      refine ⟨?_, ?_, ?_, ?_⟩ <;> linarith

/-- The hypotheses of `c160_drift_does_not_add_up`: a node that localises in the map of the corner with the default parameters of the matcher, 93 cm from the y axis, and the
stop. -/
theorem c160_drift_is_corrected (junk : Mat3F) : ∃ n t : Node, n.sys.enable = false ∧ n.sys.scans = [cornerRoomScan] ∧ n.sys.prevOdom = Pose2d.zero ∧
    n.sys.prevRobot = ⟨-(93 / 100), 0, 0⟩ ∧ Node.run (demoNode false) n (driftStop junk).inputs = .ok t ∧ t.sys.prevOdom = ⟨101 / 100, 0, 0⟩ ∧
    t.sys.prevRobot = ⟨7 / 100, 0, 0⟩ := by
  obtain ⟨g, hm, e1, e2, e0, e3, e4⟩ := cornerRoom_goodMap
  let n : Node := ⟨{ demoStart (demoNode false).map false with
      heap := fun _ => [cornerRoomScan], initialized := true, laser := some (Pose2d.zero, false), globalM := some [cornerRoomScan], localM := some [],
      rangeMax := .fin 10, prevRobot := ⟨-(93 / 100), 0, 0⟩ }, some { { defaultMatcher with rangeMax := 10 } with ndt := some g }, none, none⟩
  have htr : Tracks (.fin 10) Pose2d.zero false 1 { { defaultMatcher with rangeMax := 10 } with ndt := some g } Pose2d.zero ⟨-(93 / 100), 0, 0⟩ n :=
    ⟨rfl, rfl, rfl, rfl, rfl, one_pos, rfl, rfl, by simp [n], rfl, rfl⟩
  have hpred : predict Pose2d.zero ⟨-(93 / 100), 0, 0⟩ ⟨101 / 100, 0, 0⟩ = ⟨8 / 100, 0, 0⟩ := by
    have h0 : normalizeAngle 0 = 0 := normalizeAngle_of_mem ⟨by linarith [Real.pi_pos], Real.pi_pos.le⟩
    simp only [predict, Pose2d.zero, shortestAngularDistance, sub_self, h0, add_zero, Real.cos_zero, Real.sin_zero]
    norm_num
  obtain ⟨fs, hp1, hp2⟩ := driftMsg_points ⟨101 / 100, 0, 0⟩
  obtain ⟨t, h1, h2, h3, -⟩ := c160_drift_does_not_add_up (np := demoNode false) rfl hm (wall := cornerRoomWall) (by
      rw [e0, e1, e2, cornerRoom_points]
      refine ⟨?_, fun p hp => (cornerRoom_fits hp).1⟩
      intro k
      unfold cornerRoomWall
      split <;> simp)
    (by norm_num [defaultMatcher]) (by norm_num [defaultMatcher]) (by have := Real.two_le_pi; norm_num [defaultMatcher]; linarith)
    [driftStop junk] htr ⟨⟨by norm_num, Or.inl (by norm_num [demoNode, demoParams, driftStop, Pose2d.zero]), fs, driftPts, hp1, hp2, by
      rw [cornerRoom_points]
      show Holds _ _ _ _ (((Scan.new 1).setPose (predict Pose2d.zero ⟨-(93 / 100), 0, 0⟩ ⟨101 / 100, 0, 0⟩)).setPoints driftPts) ⟨7 / 100, 0, 0⟩
      rw [hpred]
      exact drift_holds e1 e2 e0 e3 e4⟩, trivial⟩
  refine ⟨n, t, rfl, rfl, rfl, rfl, ?_, h3, h2⟩
  simpa using h1

/-- A map file with the scan of the corner. -/
def cornerBag : List BagMsg := [⟨"scans", .scan ⟨0, 0, 0, 0, cornerRoomPts⟩⟩]

theorem cornerBag_load (use : Bool) : Graph.load use cornerBag = .ok ⟨use, [cornerRoomScan], []⟩ := by
  simp [Graph.load, cornerBag, Graph.loadMsg, Graph.scanOfMsg, Graph.new, cornerRoomScan, Scan.new, Scan.setPose, Scan.setPoints, Pose2d.zero]

/-- The same from the start of the node: the map file, a first message, a pose message and the stop. -/
theorem c160_corner_from_the_start (junk : Mat3F) (nrm : MotionModel.Draws) : ∃ n t, Node.start (demoNode false) false (some cornerBag) = .ok n ∧
    Node.run (demoNode false) n ([.plain (.laser driftMsg (some (Pose2d.zero, false)) none none),
      .pose ⟨true, ⟨-(93 / 100), 0, 0⟩, 0, 0, 0⟩ (some Pose2d.zero) [0] nrm, .plain .setRobot, .plain .setOdom] ++ (driftStop junk).inputs) = .ok t ∧
    t.sys.prevRobot = ⟨7 / 100, 0, 0⟩ ∧ t.sys.scans = [cornerRoomScan] := by
  obtain ⟨g, hm, e1, e2, e0, e3, e4⟩ := cornerRoom_goodMap
  have hpred : predict Pose2d.zero ⟨-(93 / 100), 0, 0⟩ ⟨101 / 100, 0, 0⟩ = ⟨8 / 100, 0, 0⟩ := by
    have h0 : normalizeAngle 0 = 0 := normalizeAngle_of_mem ⟨by linarith [Real.pi_pos], Real.pi_pos.le⟩
    simp only [predict, Pose2d.zero, shortestAngularDistance, sub_self, h0, add_zero, Real.cos_zero, Real.sin_zero]
    norm_num
  obtain ⟨fs, hp1, hp2⟩ := driftMsg_points ⟨101 / 100, 0, 0⟩
  obtain ⟨n, t, a1, a2, a3, a4⟩ := c160_from_the_start (np := demoNode false) rfl (cornerBag_load _) (by simp) (range := 10) (msg := driftMsg)
    (by norm_num [Laser.latchRangeMax, demoNode, demoParams, driftMsg]) hm (wall := cornerRoomWall) (by
      rw [e0, e1, e2, cornerRoom_points]
      refine ⟨?_, fun p hp => (cornerRoom_fits hp).1⟩
      intro k
      unfold cornerRoomWall
      split <;> simp)
    (by norm_num [defaultMatcher]) (by norm_num [defaultMatcher]) (by have := Real.two_le_pi; norm_num [defaultMatcher]; linarith)
    Pose2d.zero false none none (pm := ⟨true, ⟨-(93 / 100), 0, 0⟩, 0, 0, 0⟩) rfl Pose2d.zero (visit := [0]) (by simp) nrm
    [driftStop junk] ⟨⟨by norm_num, Or.inl (by norm_num [demoNode, demoParams, driftStop, Pose2d.zero]), fs, driftPts, hp1, hp2, by
      rw [cornerRoom_points]
      show Holds _ _ _ _ (((Scan.new 1).setPose (predict Pose2d.zero ⟨-(93 / 100), 0, 0⟩ ⟨101 / 100, 0, 0⟩)).setPoints driftPts) ⟨7 / 100, 0, 0⟩
      rw [hpred]
      exact drift_holds e1 e2 e0 e3 e4⟩, trivial⟩
  refine ⟨n, t, a1, ?_, a3, a4⟩
  simpa using a2

end

end Ndt
