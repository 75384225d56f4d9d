import Verif.Proof.FilterMode
import Verif.Proof.DemoNode
import Verif.Props.MotionProps

/-! # A node that localises with the particle filter, used in examples and counterexamples -/

namespace Ndt

open Spec Mapper

noncomputable section

/-- A matcher with the default parameters but for cells of a metre. -/
def coarseMatcher : Matcher := ⟨1, 0.0025, 0.1, 0.005, 0.05, 100, 0, none⟩

/-- A node with a particle filter of one particle. -/
def filterNode : NodeParams :=
  ⟨{ demoParams 10 3 with useFilter := true }, coarseMatcher, coarseMatcher, ⟨0.2, 0.2, 0.2, 0.2, 0.2⟩, 1, 1, 0.01, 2.3⟩

/-- Points around (3.5, 3.5). -/
def pile : List Point := [⟨3.5, 3.5⟩, ⟨3.5, 3.5⟩, ⟨3.4, 3.45⟩, ⟨3.6, 3.55⟩, ⟨3.6, 3.45⟩, ⟨3.4, 3.55⟩]

/-- A scan at the origin that sees them. -/
def pileScan : Scan := ((Scan.new 0).setPose Pose2d.zero).setPoints pile

/-- A file with this scan. -/
def pileBag : List BagMsg := [⟨"scans", .scan ⟨0, 0, 0, 0, pile⟩⟩]

theorem pileBag_load (use : Bool) : Graph.load use pileBag = .ok ⟨use, [pileScan], []⟩ := by
  simp [Graph.load, pileBag, Graph.loadMsg, Graph.new, Graph.scanOfMsg, pileScan, Pose2d.zero]

/-- The cell of the points. -/
def pileCell : Cell := (pile.foldl Cell.addPoint Cell.new).compute

theorem pileCell_score : pileCell.score ⟨3.5, 3.5⟩ = .fin 1 := by
  have hs : Real.sqrt (9 / 250000 : ℝ) = 3 / 500 := by
    rw [show (9 / 250000 : ℝ) = (3 / 500) ^ 2 by norm_num]
    exact Real.sqrt_sq (by norm_num)
  have e : pile.foldl Cell.addPoint Cell.new = ⟨false, 6, ⟨3.5, 3.5⟩, Mat2.zero, ⟨12.25 + 0.04 / 6, 12.25, 0, 12.25 + 0.01 / 6⟩,
      ⟨.fin 0, .fin 0, .fin 0, .fin 0⟩⟩ := by
    simp only [pile, List.foldl_cons, List.foldl_nil, Cell.addPoint, Cell.new, Mat2.zero]
    norm_num
  have e2 : pileCell = ⟨true, 6, ⟨3.5, 3.5⟩, ⟨0.008, 0, 0, 0.002⟩, ⟨12.25 + 0.04 / 6, 12.25, 0, 12.25 + 0.01 / 6⟩,
      ⟨.fin 125, .fin 0, .fin 0, .fin 500⟩⟩ := by
    unfold pileCell
    rw [e]
    simp only [Cell.compute, Cell.computeWith]
    norm_num [Cell.covarianceOf, informationOf, eigenvalues, hs, inverse2]
  rw [e2]
  simp only [Cell.score]
  norm_num

/-- The grid of the map of this scan. -/
def pileGrid (cells : List Cell) : NdtGrid := ⟨1, 21, 21, -10, -10, cells⟩

theorem pileGrid_index (cells : List Cell) {p : Point} (hx : 3 ≤ p.x ∧ p.x < 4) (hy : 3 ≤ p.y ∧ p.y < 4) :
    (pileGrid cells).getIndex p = .ok 286 := by
  have h13 : ∀ z : ℝ, 3 ≤ z → z < 4 → toU32F ((Fl.fin z - .fin (-10)) / .fin 1) = .ok 13 := by
    intro z h1 h2
    rw [Fl.fin_sub, Fl.fin_div (by norm_num)]
    show toU32 _ = _
    rw [toU32_of_nonneg (by linarith) (by norm_num; linarith)]
    have : ⌊(z - -10) / 1⌋ = 13 := by rw [Int.floor_eq_iff]; norm_num; constructor <;> linarith
    rw [this]; rfl
  unfold NdtGrid.getIndex NdtGrid.getIndexF
  have hin : ¬ (Fl.fin p.x < Fl.fin (-10) ∨ Fl.fin p.y < Fl.fin (-10)) := by
    simp only [Fl.fin_lt]; rintro (h | h) <;> linarith [hx.1, hy.1]
  rw [if_neg (show ¬ (Fl.fin p.x < Fl.fin (pileGrid cells).originX ∨ Fl.fin p.y < Fl.fin (pileGrid cells).originY) from hin)]
  rw [show toU32F ((Fl.fin p.x - .fin (pileGrid cells).originX) / .fin (pileGrid cells).cellSize) = .ok 13 from
      h13 _ hx.1 hx.2,
    show toU32F ((Fl.fin p.y - .fin (pileGrid cells).originY) / .fin (pileGrid cells).cellSize) = .ok 13 from h13 _ hy.1 hy.2]
  simp only [Res.ok_bind]
  rw [if_neg (by norm_num [pileGrid])]
  rfl

/-- The map of this scan, seen with a range of 10 m. -/
theorem pileMap : ∃ g, Matcher.addScans { coarseMatcher with rangeMax := 10, ndt := none } [pileScan] =
      .ok { coarseMatcher with rangeMax := 10, ndt := some g } ∧ g.likelihood ⟨3.5, 3.5⟩ = .ok (.fin 1) := by
  have hbox : Matcher.bbox 10 [pileScan] = ⟨-10, 10, -10, 10⟩ := by
    have h1 := dblMax_nonneg
    have h2 := dblMin_le_one
    simp only [Matcher.bbox, List.foldl_cons, List.foldl_nil, pileScan, Scan.getPose, Scan.setPose, Scan.setPoints,
      Pose2d.zero, zero_sub, zero_add]
    rw [min_eq_left (by linarith), max_eq_left (by linarith)]
  have h21 : toU64F (Fl.fin (10 - -10) / Fl.fin (1 : ℝ) + Fl.fin 1) = .ok 21 := by
    rw [Fl.fin_div (by norm_num), Fl.fin_add]
    show toU64 _ = _
    rw [toU64_of_nonneg (by norm_num) (by norm_num)]
    have : ⌊((10 - -10) / 1 + 1 : ℝ)⌋ = 21 := by rw [Int.floor_eq_iff]; norm_num
    rw [this]
    rfl
  have hadd : ∀ (ps : List Point) (cells : List Cell), cells.length = 441 →
      (∀ p ∈ ps, (3 ≤ p.x ∧ p.x < 4) ∧ 3 ≤ p.y ∧ p.y < 4) →
      ps.foldlM (fun g p => NdtGrid.addMapPoint g (NdtGrid.mapPoint Pose2d.zero p)) (pileGrid cells) =
        .ok (pileGrid (cells.modify 286 fun c => ps.foldl Cell.addPoint c)) := by
    intro ps
    induction ps with
    | nil =>
      intro cells _ _
      have : (fun c : Cell => List.foldl Cell.addPoint c []) = id := rfl
      rw [this, List.modify_id]
      rfl
    | cons p ps ih =>
      intro cells hl hp
      have hm : NdtGrid.mapPoint Pose2d.zero p = p := by simp [NdtGrid.mapPoint, Pose2d.zero]
      have hst : NdtGrid.addMapPoint (pileGrid cells) p = .ok (pileGrid (cells.modify 286 (·.addPoint p))) := by
        unfold NdtGrid.addMapPoint
        rw [pileGrid_index cells (hp p (by simp)).1 (hp p (by simp)).2]
        simp only [Res.ok_bind]
        rw [if_pos (by norm_num), if_pos (by simp [pileGrid, hl])]
        rfl
      rw [List.foldlM_cons, hm, hst, Res.ok_bind, ih _ (by rw [List.length_modify, hl]) fun q hq => hp q (by simp [hq]),
        List.modify_modify_eq]
      rfl
  have hin : ∀ p ∈ pile, (3 ≤ p.x ∧ p.x < 4) ∧ 3 ≤ p.y ∧ p.y < 4 := by
    intro p hp
    simp only [pile, List.mem_cons, List.not_mem_nil, or_false] at hp
    rcases hp with rfl | rfl | rfl | rfl | rfl | rfl <;> norm_num
  refine ⟨(pileGrid ((List.replicate 441 Cell.new).modify 286 fun c => pile.foldl Cell.addPoint c)).compute, ?_, ?_⟩
  · unfold Matcher.addScans
    simp only [hbox]
    unfold NdtGrid.new
    simp only [coarseMatcher]
    rw [h21]
    simp only [Res.ok_bind, Res.pure_eq, List.foldlM_cons, List.foldlM_nil]
    have := hadd pile (List.replicate 441 Cell.new) List.length_replicate hin
    unfold NdtGrid.addScan
    rw [show pileScan.getPoints = pile from rfl, show pileScan.getPose = Pose2d.zero from rfl]
    rw [show (⟨1, 21, 21, -10, -10, List.replicate (21 * 21 % 2 ^ 64) Cell.new⟩ : NdtGrid) =
      pileGrid (List.replicate 441 Cell.new) by norm_num [pileGrid], this]
    rfl
  · unfold NdtGrid.likelihood NdtGrid.compute
    rw [show ({ pileGrid ((List.replicate 441 Cell.new).modify 286 fun c => pile.foldl Cell.addPoint c) with
      cells := (pileGrid ((List.replicate 441 Cell.new).modify 286 fun c => pile.foldl Cell.addPoint c)).cells.map
        Cell.compute } : NdtGrid) = pileGrid (((List.replicate 441 Cell.new).modify 286 fun c =>
          pile.foldl Cell.addPoint c).map Cell.compute) from rfl, pileGrid_index _ (by norm_num) (by norm_num)]
    simp only [Res.ok_bind]
    rw [if_pos (by norm_num)]
    rw [show (pileGrid (((List.replicate 441 Cell.new).modify 286 fun c => pile.foldl Cell.addPoint c).map
      Cell.compute)).cells[(286 : ℤ).toNat]? = some pileCell by
        show (((List.replicate 441 Cell.new).modify 286 fun c => pile.foldl Cell.addPoint c).map Cell.compute)[286]? = _
        rw [List.getElem?_map, List.getElem?_modify_eq, List.getElem?_replicate]
        simp [pileCell]]
    simp only [Res.pure_eq, pileCell_score]

/-- A laser message with one beam of a metre straight ahead. -/
def pileBeam : LaserMsg := ⟨0, 1, .fin 10, [.fin 1]⟩

/-- It arrives while the odometry reports `o`. -/
def beamLaser (o : Pose2d) : Event := .laser pileBeam (some (Pose2d.zero, false)) (some o) (some o)

/-- The mapper with the map of the points. -/
def pileStart : Sys := startWith filterNode.map false true ⟨false, [pileScan], []⟩

/-- It has made the matchers. -/
def pileSeen : Sys :=
  { pileStart with rangeMax := .fin 10, laser := some (Pose2d.zero, false), globalM := some [pileScan], localM := some [] }

/-- It has been told to be at (1.5, 3.5). -/
def pileReady : Sys := { pileSeen with prevRobot := ⟨1.5, 3.5, 0⟩, prevOdom := Pose2d.zero, initialized := true }

/-- The message that tells it. -/
def pilePose : PoseMsg := ⟨true, ⟨1.5, 3.5, 0⟩, 0, 0, 0⟩

/-- Its matchers. -/
def pileMatcher (g : Option NdtGrid) : Matcher := { coarseMatcher with rangeMax := 10, ndt := g }

/-- What is said about its filter. -/
structure PileFilter (f : Filter) (p : Pose2d) : Prop where
  motion : f.motion = filterNode.motion
  minP : f.minP = 1
  maxP : f.maxP = 1
  particles : f.particles = [p]
  weights : f.weights = [.fin 1]
  size : f.kd.cellSize = ![0.5, 0.5, 0.2671]

theorem normalize_one : Filter.sumWeights [Fl.fin 1] = .fin 1 := by
  have := Filter.sumWeights_fin [1]
  simpa using this

theorem PileFilter.of {g f : Filter} {p : Pose2d} (h : g.updateStatistics = .ok f) (h0 : g.motion = filterNode.motion)
    (h1 : g.minP = 1) (h2 : g.maxP = 1) (h3 : g.particles = [p]) (h4 : ∃ w : ℝ, w ≠ 0 ∧ g.weights = [.fin w]) (h5 : g.kd.cellSize = ![0.5, 0.5, 0.2671]) :
    PileFilter f p := by
  obtain ⟨e0, e1, e2, e3, e4, -, e5⟩ := Filter.updateStatistics_ok h
  obtain ⟨w, hw, ew⟩ := h4
  refine ⟨e0.trans h0, e1.trans h1, e2.trans h2, e3.trans h3, ?_, by rw [e5]; exact h5⟩
  have hs : Filter.sumWeights [Fl.fin w] = .fin w := by
    have := Filter.sumWeights_fin [w]
    simpa using this
  rw [e4, ew, List.map_cons, List.map_nil, hs, Fl.fin_div hw, div_self hw]

theorem pile_quiet {f : Filter} {p : Pose2d} (hf : PileFilter f p) (d : Pose2d) : ¬ f.motion.NegativeNoise d := by
  rw [hf.motion]
  exact not_negativeNoise (by norm_num [filterNode]) (by norm_num [filterNode]) (by norm_num [filterNode])
    (by norm_num [filterNode]) d

theorem run_pile {g : NdtGrid} (hg : Matcher.addScans (pileMatcher none) [pileScan] = .ok (pileMatcher (some g))) :
    ∃ n0 f0, Node.start filterNode false (some pileBag) = .ok n0 ∧ PileFilter f0 Pose2d.zero ∧
      n0.step filterNode (.plain (beamLaser Pose2d.zero)) =
        .ok ⟨pileSeen, some (pileMatcher (some g)), some (pileMatcher none), some f0⟩ := by
  obtain ⟨f0, hf0⟩ := new_defined filterNode.motion filterNode.minP filterNode.maxP
  have h0 : Node.start filterNode false (some pileBag) = .ok ⟨pileStart, none, none, some f0⟩ := by
    have hs : Mapper.start filterNode.map false (some pileBag) = .ok pileStart := by
      unfold Mapper.start
      simp only
      rw [pileBag_load]
      rfl
    unfold Node.start
    rw [hs]
    simp only [Res.ok_bind]
    rw [if_pos (show filterNode.map.useFilter = true from rfl), hf0]
    rfl
  have hlatch : Laser.latchRangeMax pileStart.rangeMax pileBeam = .fin 10 := by
    show Laser.latchRangeMax (.fin (-1)) pileBeam = _
    simp [Laser.latchRangeMax, pileBeam]
  refine ⟨_, f0, h0, ?_, ?_⟩
  · refine PileFilter.of hf0 rfl rfl rfl rfl ⟨1, by norm_num, ?_⟩ rfl
    show List.replicate 1 (Fl.fin 1 / Fl.fin (1 : ℕ)) = _
    rw [Fl.fin_div (by norm_num)]
    simp
  · have hm : Node.makesMatchers ⟨pileStart, none, none, some f0⟩ (some (Pose2d.zero, false)) := ⟨rfl, rfl, by simp⟩
    show (if Node.makesMatchers _ (some (Pose2d.zero, false)) then _ else _) = _
    rw [if_pos hm]
    unfold Node.makeMatchers
    simp only [hlatch]
    rw [show Node.initMatcher filterNode.globalCfg (.fin 10) = .ok (pileMatcher none) from rfl,
      show Node.initMatcher filterNode.localCfg (.fin 10) = .ok (pileMatcher none) from rfl]
    simp only [Res.ok_bind]
    rw [if_pos (by simp [filterNode]), show pileStart.scans = [pileScan] from rfl, hg]
    simp only [Res.ok_bind]
    unfold Node.mapper
    have : Mapper.step filterNode.map pileStart (beamLaser Pose2d.zero) = .ok pileSeen := by
      unfold Mapper.step beamLaser
      simp only [show pileStart.spin = .idle from rfl]
      unfold laserCallback laserSetup
      simp only [show pileStart.laser = none from rfl, hlatch]
      rw [if_neg (by simp), if_pos (by rfl)]
      rfl
    unfold beamLaser at this
    simp only [this, Res.ok_bind]

theorem step_pilePose {g : NdtGrid} {f0 : Filter} (hf : PileFilter f0 Pose2d.zero) :
    ∃ f, PileFilter f ⟨1.5, 3.5, 0⟩ ∧
      Node.step filterNode ⟨pileSeen, some (pileMatcher (some g)), some (pileMatcher none), some f0⟩
        (.pose pilePose (some Pose2d.zero) [0] noiseFree) =
        .ok ⟨{ pileSeen with spin := .poseRobot ⟨1.5, 3.5, 0⟩ Pose2d.zero }, some (pileMatcher (some g)),
          some (pileMatcher none), some f⟩ := by
  obtain ⟨f, h1⟩ : ∃ f, f0.init noiseFree 1.5 3.5 0 (Real.sqrt 0) (Real.sqrt 0) (Real.sqrt 0) = .ok f := by
    unfold Filter.init
    exact Filter.updateStatistics_total (by simp)
  refine ⟨f, ?_, ?_⟩
  · refine PileFilter.of h1 hf.motion hf.minP hf.maxP ?_ ⟨1, by norm_num, ?_⟩ hf.size
    · simp only [hf.particles, List.mapIdx_cons, List.mapIdx_nil, noiseFree]
      rw [normalizeAngle_of_mem ⟨by linarith [Real.pi_pos], Real.pi_pos.le⟩]
    · simp only [hf.particles, List.mapIdx_cons, List.mapIdx_nil, List.length_cons, List.length_nil, zero_add,
        List.replicate_one]
      rw [Fl.fin_div (by norm_num)]
      simp
  · have hi : Node.initsFilter filterNode ⟨pileSeen, some (pileMatcher (some g)), some (pileMatcher none), some f0⟩
        pilePose (some Pose2d.zero) [0] :=
      ⟨rfl, by show ([0] : List ℕ).Perm (List.range 1); exact List.Perm.refl _, rfl, rfl, by simp, rfl⟩
    show (if Node.initsFilter _ _ _ _ _ then _ else _) = _
    rw [if_pos hi]
    simp only [pilePose]
    simp only [lt_self_iff_false, or_self, if_false]
    rw [h1]
    simp only [Res.ok_bind]
    unfold Node.mapper
    have : Mapper.step filterNode.map pileSeen (.pose ⟨true, ⟨1.5, 3.5, 0⟩, 0, 0, 0⟩ (some Pose2d.zero) [0]) =
        .ok { pileSeen with spin := .poseRobot ⟨1.5, 3.5, 0⟩ Pose2d.zero } := by
      simp only [Mapper.step]
      rw [show pileSeen.spin = .idle from rfl]
      simp only
      rw [if_pos hi.2.1]
      rfl
    simp only [this, Res.ok_bind]

theorem run_pilePose {g : NdtGrid} {f0 : Filter} (hf : PileFilter f0 Pose2d.zero) :
    ∃ f, PileFilter f ⟨1.5, 3.5, 0⟩ ∧
      Node.run filterNode ⟨pileSeen, some (pileMatcher (some g)), some (pileMatcher none), some f0⟩
        [.pose pilePose (some Pose2d.zero) [0] noiseFree, .plain .setRobot, .plain .setOdom] =
        .ok ⟨pileReady, some (pileMatcher (some g)), some (pileMatcher none), some f⟩ := by
  obtain ⟨f, h, hp⟩ := step_pilePose (g := g) hf
  refine ⟨f, h, ?_⟩
  rw [Node.run_cons, hp, Res.ok_bind]
  rfl

/-- A node that is ready to localise with its filter. -/
theorem pile_ready {W : Graph → Prop} (hW : W ⟨false, [pileScan], []⟩) :
    ∃ f g, NodeReach filterNode W (fun _ _ => True)
      ⟨pileReady, some (pileMatcher (some g)), some (pileMatcher none), some f⟩ ∧ PileFilter f ⟨1.5, 3.5, 0⟩ ∧
      g.likelihood ⟨3.5, 3.5⟩ = .ok (.fin 1) := by
  obtain ⟨g, hg, hl⟩ := pileMap
  obtain ⟨n0, f0, h0, hf0, h1⟩ := run_pile hg
  obtain ⟨f, hf, h2⟩ := run_pilePose (g := g) hf0
  refine ⟨f, g, ⟨false, some pileBag, n0, .plain (beamLaser Pose2d.zero) ::
    [.pose pilePose (some Pose2d.zero) [0] noiseFree, .plain .setRobot, .plain .setOdom], h0, ?_, ?_⟩, hf, hl⟩
  · intro bag hb g' hg'
    cases hb
    have := hg'.symm.trans (pileBag_load _)
    cases this
    exact hW
  · refine Node.exec_of_run _ ?_ fun n i hi => ⟨trivial, fun action bag e => ?_⟩
    · rw [Node.run_cons, h1, Res.ok_bind, h2]
    · subst e
      simp [beamLaser] at hi

/-- The robot has driven a metre and sees `points`. -/
theorem step_pileLaser (msg : LaserMsg) (f : Filter) (g : NdtGrid) (fps : List FPoint) (points : List Point)
    (hp : Laser.points msg (.fin 10) false Pose2d.zero ⟨1, 0, 0⟩ ⟨1, 0, 0⟩ = .ok fps) (hq : finitePoints fps = .ok points) :
    Node.step filterNode ⟨pileReady, some (pileMatcher (some g)), some (pileMatcher none), some f⟩
      (.plain (.laser msg (some (Pose2d.zero, false)) (some ⟨1, 0, 0⟩) (some ⟨1, 0, 0⟩))) =
      .ok ⟨{ pileReady with spin := .filter (((Scan.new 1).setPose ⟨2.5, 3.5, 0⟩).setPoints points) ⟨1, 0, 0⟩ },
        some (pileMatcher (some g)), some (pileMatcher none), some f⟩ := by
  show (if Node.makesMatchers _ (some (Pose2d.zero, false)) then _ else _) = _
  rw [if_neg (by rintro ⟨-, h, -⟩; cases h)]
  unfold Node.mapper
  have hz : normalizeAngle 0 = 0 := normalizeAngle_of_mem ⟨by linarith [Real.pi_pos], Real.pi_pos.le⟩
  have ht : ¬ (pileReady.scans ≠ [] ∧ tooLittle filterNode.map pileReady ⟨1, 0, 0⟩) := by
    rintro ⟨-, h, -⟩
    norm_num [pileReady, Pose2d.zero, filterNode, demoParams] at h
  have hl : Laser.latchRangeMax pileReady.rangeMax msg = .fin 10 := by
    show Laser.latchRangeMax (.fin 10) msg = _
    unfold Laser.latchRangeMax
    rw [if_neg (by simp)]
  have hpr : predict pileReady.prevOdom pileReady.prevRobot ⟨1, 0, 0⟩ = ⟨2.5, 3.5, 0⟩ := by
    simp only [predict, pileReady, Pose2d.zero, shortestAngularDistance, sub_zero, hz, Real.cos_zero, Real.sin_zero, add_zero]
    norm_num
  have : Mapper.step filterNode.map pileReady (.laser msg (some (Pose2d.zero, false)) (some ⟨1, 0, 0⟩) (some ⟨1, 0, 0⟩)) =
      .ok { pileReady with spin := .filter (((Scan.new 1).setPose ⟨2.5, 3.5, 0⟩).setPoints points) ⟨1, 0, 0⟩ } := by
    unfold Mapper.step
    simp only [show pileReady.spin = .idle from rfl]
    unfold laserCallback laserSetup
    simp only [show pileReady.laser = some (Pose2d.zero, false) from rfl, hl]
    rw [if_neg (by simp), if_neg (by simp [pileReady]), if_neg (by exact ht)]
    rw [hp, Res.ok_bind, hq, Res.ok_bind]
    have hps : (if pileReady.scans = [] then Pose2d.zero else predict pileReady.prevOdom pileReady.prevRobot ⟨1, 0, 0⟩) =
        ⟨2.5, 3.5, 0⟩ := by rw [if_neg (by simp [pileReady, pileSeen, pileStart, startWith, Sys.scans]), hpr]
    show Except.ok { pileReady with spin := .filter (((Scan.new 1).setPose (if pileReady.scans = [] then Pose2d.zero else
      predict pileReady.prevOdom pileReady.prevRobot ⟨1, 0, 0⟩)).setPoints points) ⟨1, 0, 0⟩ } = _
    rw [hps]
    rfl
  simp only [this, Res.ok_bind]

theorem pileBeam_points : Laser.points pileBeam (.fin 10) false Pose2d.zero ⟨1, 0, 0⟩ ⟨1, 0, 0⟩ = .ok [(.fin 1, .fin 0)] := by
  have h : ¬ Laser.skip (.fin 10) (.fin 1) := by
    rintro (h | h)
    · exact h
    · simp only [Fl.fin_lt] at h; norm_num at h
  simp only [Laser.points, Laser.forwardLoop, pileBeam]
  rw [if_neg (by simp), if_neg h]
  simp [Laser.forwardPoint, Laser.shift, Laser.project, Laser.perMeas, Laser.translation, Pose2d.zero]

/-- The node while the filter is to be updated with a scan of `points`. -/
def pileFiltering (points : List Point) (f : Filter) (g : NdtGrid) : Node :=
  ⟨{ pileReady with spin := .filter (((Scan.new 1).setPose ⟨2.5, 3.5, 0⟩).setPoints points) ⟨1, 0, 0⟩ },
    some (pileMatcher (some g)), some (pileMatcher none), some f⟩

theorem pile_control : Node.control ⟨1.5, 3.5, 0⟩ ⟨2.5, 3.5, 0⟩ = ⟨1, 0, 0⟩ := by
  have hz : normalizeAngle 0 = 0 := normalizeAngle_of_mem ⟨by linarith [Real.pi_pos], Real.pi_pos.le⟩
  simp [Node.control, shortestAngularDistance, hz]
  norm_num

theorem pile_update {f : Filter} (hf : PileFilter f ⟨1.5, 3.5, 0⟩) :
    ∃ f1, f.update noiseFree 1 0 0 = .ok f1 ∧ PileFilter f1 ⟨2.5, 3.5, 0⟩ := by
  obtain ⟨f1, h1⟩ : ∃ f1, f.update noiseFree 1 0 0 = .ok f1 :=
    Filter.updateStatistics_total (by simp [MotionModel.sample, hf.particles, hf.weights])
  refine ⟨f1, h1, PileFilter.of h1 hf.motion hf.minP hf.maxP ?_ ⟨1, by norm_num, hf.weights⟩ hf.size⟩
  have hd : (0.01 : ℝ) < hypot 1 0 := by
    rw [show hypot 1 0 = 1 by simp [hypot]]; norm_num
  obtain ⟨hl, hall⟩ := c28_noise_free_motion_is_composition f.motion 1 0 0 hd f.particles
  show f.motion.sample noiseFree 1 0 0 f.particles = _
  rw [hf.particles] at hl hall ⊢
  obtain ⟨q, hq⟩ := List.length_eq_one_iff.mp hl
  obtain ⟨e1, e2, e3, k, e4⟩ := hall 0 _ q rfl (by rw [hq]; rfl)
  have e5 : q.theta = 0 := by
    refine angle_unique k ?_ e3 ⟨by linarith [Real.pi_pos], Real.pi_pos.le⟩
    rw [e4]; simp [compose]
  rw [hq]
  congr 1
  obtain ⟨x, y, t⟩ := q
  simp only [compose, Real.cos_zero, Real.sin_zero] at e1 e2 e5
  norm_num at e1 e2
  simp only [Pose2d.mk.injEq]
  exact ⟨by rw [e1]; norm_num, by rw [e2]; norm_num, e5⟩

theorem pile_score {g : NdtGrid} (hg : g.likelihood ⟨3.5, 3.5⟩ = .ok (.fin 1)) :
    (pileMatcher (some g)).scorePoints [⟨1, 0⟩] ⟨2.5, 3.5, 0⟩ = .ok (.fin (-1)) := by
  have h1 : Matcher.beam [⟨1, 0⟩] 1 0 = .ok ⟨1, 0⟩ := by
    have : Matcher.beamIndex 1 1 0 = .ok 0 := by
      unfold Matcher.beamIndex
      rw [Fl.fin_div (by norm_num), Fl.fin_mul]
      show toU64 _ = _
      rw [toU64_of_nonneg (by norm_num) (by norm_num)]
      simp
    unfold Matcher.beam
    rw [show ([⟨1, 0⟩] : List Point).length = 1 from rfl, this]
    rfl
  have h2 : (toEigen ⟨2.5, 3.5, 0⟩).apply ⟨1, 0⟩ = ⟨3.5, 3.5⟩ := by
    simp [toEigen, Iso.apply]
    norm_num
  unfold Matcher.scorePoints
  simp only [pileMatcher, coarseMatcher]
  rw [show min 100 ([⟨1, 0⟩] : List Point).length = 1 from rfl]
  simp only [List.range_one, List.foldlM_cons, List.foldlM_nil]
  rw [h1]
  simp only [Res.ok_bind, h2, hg, Res.pure_eq, Fl.fin_neg, Fl.fin_add]
  rw [Fl.fin_div (by norm_num)]
  norm_num

theorem PileFilter.mean {h f : Filter} {x y : ℝ} (hf : PileFilter f ⟨x, y, 0⟩) (hu : h.updateStatistics = .ok f) :
    Node.meanPose f = .ok ⟨x, y, 0⟩ := by
  have hv : AreNumbers f.weights [1] := hf.weights
  obtain ⟨e0, e1, e2, -⟩ := Filter.updateStatistics_stats hu hv
  rw [hf.particles] at e0 e1 e2
  simp only [wmean, List.zip_cons_cons, List.zip_nil_right, List.map_cons, List.map_nil, List.sum_cons, List.sum_nil, one_mul,
    add_zero, Real.sin_zero, Real.cos_zero] at e0 e1 e2
  have ha : atan2 0 1 = 0 := by
    have := atan2_polar (r := 1) one_pos 0
    simp only [Real.sin_zero, Real.cos_zero, mul_zero, mul_one] at this
    rw [this, normalizeAngle_of_mem ⟨by linarith [Real.pi_pos], Real.pi_pos.le⟩]
  unfold Node.meanPose Filter.getMean
  rw [e0, e1, e2, ha]

theorem pile_bins : BinFits ![0.5, 0.5, 0.2671] ⟨2.5, 3.5, 0⟩ := by
  have h5 : truncZ ((2.5 : ℝ) / 0.5) = 5 := by
    rw [show ((2.5 : ℝ) / 0.5) = ((5 : ℤ) : ℝ) by norm_num, truncZ_intCast]
  have h7 : truncZ ((3.5 : ℝ) / 0.5) = 7 := by
    rw [show ((3.5 : ℝ) / 0.5) = ((7 : ℤ) : ℝ) by norm_num, truncZ_intCast]
  have h0 : truncZ ((0 : ℝ) / 0.2671) = 0 := by
    rw [show ((0 : ℝ) / 0.2671) = ((0 : ℤ) : ℝ) by norm_num, truncZ_intCast]
  intro i
  unfold bin
  simp only [Matrix.cons_val_zero, Matrix.cons_val_one, Matrix.cons_val, h5, h7, h0]
  fin_cases i <;> norm_num

/-- The filter follows the robot. -/
theorem pile_step {f : Filter} {g : NdtGrid} (hf : PileFilter f ⟨1.5, 3.5, 0⟩)
    (hg : g.likelihood ⟨3.5, 3.5⟩ = .ok (.fin 1)) :
    ∃ f', PileFilter f' ⟨2.5, 3.5, 0⟩ ∧ (pileFiltering [⟨1, 0⟩] f g).step filterNode (.filterScan noiseFree fun _ => 0) =
      .ok { pileFiltering [⟨1, 0⟩] f' g with
        sys := { (pileFiltering [⟨1, 0⟩] f g).sys with spin := .finish ⟨2.5, 3.5, 0⟩ ⟨1, 0, 0⟩ } } := by
  obtain ⟨f1, h1, hf1⟩ := pile_update hf
  obtain ⟨f2, h2, hf2⟩ : ∃ f2, f1.measure (fun p => (pileMatcher (some g)).scorePoints [⟨1, 0⟩] p) = .ok f2 ∧
      PileFilter f2 ⟨2.5, 3.5, 0⟩ := by
    have hm : f1.particles.mapM (fun p => (pileMatcher (some g)).scorePoints [⟨1, 0⟩] p) = .ok [.fin (-1)] := by
      rw [hf1.particles, List.mapM_cons, pile_score hg]
      rfl
    obtain ⟨f2, h2⟩ : ∃ f2, Filter.updateStatistics { f1 with weights := [.fin (-1)] } = .ok f2 :=
      Filter.updateStatistics_total (by simp [hf1.particles])
    refine ⟨f2, ?_, PileFilter.of h2 hf1.motion hf1.minP hf1.maxP hf1.particles ⟨-1, by norm_num, rfl⟩ hf1.size⟩
    unfold Filter.measure
    rw [hm, Res.ok_bind, if_neg (by simp [hf1.particles, hf1.weights]), hf1.weights]
    rw [show [Fl.fin (-1)] ++ List.drop f1.particles.length [Fl.fin 1] = [Fl.fin (-1)] by simp [hf1.particles]]
    exact h2
  obtain ⟨f3, h3⟩ : ∃ f3, f2.resample 0.01 2.3 (fun _ => 0) = .ok f3 := by
    refine c21_resample_defined (by norm_num) (by norm_num) (by simp [hf2.weights, hf2.particles]) hf2.size ?_ ?_ ?_
    · intro n; simp [hf2.particles]
    · intro p hp
      rw [hf2.particles] at hp
      rw [List.mem_singleton.mp hp]
      exact pile_bins
    · intro k h1 h2
      rw [hf2.maxP] at h2
      simp at h2
      omega
  obtain ⟨rs, ws, kd, mx, hinv, hle, -, hge, hu⟩ := Filter.resample_ok h3
  have hlen : rs.length = 1 := by
    rw [hf2.maxP] at hle hge
    rw [hf2.minP] at hge
    simp at hle
    omega
  have hf3 : PileFilter f3 ⟨2.5, 3.5, 0⟩ := by
    have hd := hinv.drawn 0 (by omega)
    rw [hf2.particles, hf2.weights] at hd
    have hwl : ws.length = 1 := hinv.len.trans hlen
    obtain ⟨r, rfl⟩ := List.length_eq_one_iff.mp hlen
    obtain ⟨w, rfl⟩ := List.length_eq_one_iff.mp hwl
    simp only [List.getElem?_cons_zero, Option.some.injEq] at hd
    refine PileFilter.of hu hf2.motion hf2.minP hf2.maxP (by rw [hd.1]) ⟨1, by norm_num, by rw [hd.2]⟩ ?_
    have := (Filter.updateStatistics_ok hu).2.2.2.2.2.2
    show kd.cellSize = _
    rw [← hf2.size, ← kd_size_step (op := .resample 0.01 2.3 fun _ => 0) h3, this]
  refine ⟨f3, hf3, ?_⟩
  refine Node.step_filterScan (np := filterNode) (n := pileFiltering [⟨1, 0⟩] f g) (odom := ⟨1, 0, 0⟩)
    (scan := ((Scan.new 1).setPose ⟨2.5, 3.5, 0⟩).setPoints [⟨1, 0⟩]) rfl ?_ rfl rfl
    (pile_quiet hf _) ?_ h2 h3 (hf3.mean hu)
  · simp [pileFiltering, pileReady, pileSeen]
  · show f.update noiseFree (Node.control ⟨1.5, 3.5, 0⟩ ⟨2.5, 3.5, 0⟩).x (Node.control ⟨1.5, 3.5, 0⟩ ⟨2.5, 3.5, 0⟩).y
      (Node.control ⟨1.5, 3.5, 0⟩ ⟨2.5, 3.5, 0⟩).theta = _
    rw [pile_control]
    exact h1

/-- The node gets there. -/
theorem pile_filtering {W : Graph → Prop} (hW : W ⟨false, [pileScan], []⟩) (msg : LaserMsg) {fps : List FPoint}
    {points : List Point} (hp : Laser.points msg (.fin 10) false Pose2d.zero ⟨1, 0, 0⟩ ⟨1, 0, 0⟩ = .ok fps)
    (hq : finitePoints fps = .ok points) :
    ∃ f g, NodeReach filterNode W (fun _ _ => True) (pileFiltering points f g) ∧ PileFilter f ⟨1.5, 3.5, 0⟩ ∧
      g.likelihood ⟨3.5, 3.5⟩ = .ok (.fin 1) := by
  obtain ⟨f, g, ⟨enable, file, n0, is, h0, hw, he⟩, hf, hg⟩ := pile_ready hW
  refine ⟨f, g, ⟨enable, file, n0, _, h0, hw, .snoc he ⟨trivial, ?_⟩ (step_pileLaser msg f g fps points hp hq)⟩, hf, hg⟩
  intro action bag h
  cases h

theorem pile_noScore (g : NdtGrid) (p : Pose2d) : (pileMatcher (some g)).scorePoints [] p = .ok .nan := by
  unfold Matcher.scorePoints
  simp only [pileMatcher, coarseMatcher]
  rw [show min 100 ([] : List Point).length = 0 from rfl]
  simp only [List.range_zero, List.foldlM_nil, Res.pure_eq, Res.ok_bind]
  show Except.ok (Fl.fin 0 / Fl.fin ((0 : ℕ) : ℝ)) = _
  simp [Fl.zero_div_zero]

/-- A scan without points makes every weight NaN. -/
theorem pile_blind {f : Filter} (g : NdtGrid) (hf : PileFilter f ⟨1.5, 3.5, 0⟩) :
    ∃ f1 f2 f3, f.update noiseFree 1 0 0 = .ok f1 ∧
      f1.measure (fun p => (pileMatcher (some g)).scorePoints [] p) = .ok f2 ∧ f2.resample 0.01 2.3 (fun _ => 0) = .ok f3 ∧
      f3.particles ≠ [] := by
  obtain ⟨f1, h1, hf1⟩ := pile_update hf
  obtain ⟨f2, h2, e2⟩ : ∃ f2, f1.measure (fun p => (pileMatcher (some g)).scorePoints [] p) = .ok f2 ∧
      Filter.updateStatistics { f1 with weights := [.nan] } = .ok f2 := by
    have hm : f1.particles.mapM (fun p => (pileMatcher (some g)).scorePoints [] p) = .ok [.nan] := by
      rw [hf1.particles, List.mapM_cons, pile_noScore]
      rfl
    obtain ⟨f2, h2⟩ : ∃ f2, Filter.updateStatistics { f1 with weights := [.nan] } = .ok f2 :=
      Filter.updateStatistics_total (by simp [hf1.particles])
    refine ⟨f2, ?_, h2⟩
    unfold Filter.measure
    rw [hm, Res.ok_bind, if_neg (by simp [hf1.particles, hf1.weights]), hf1.weights]
    rw [show [Fl.nan] ++ List.drop f1.particles.length [Fl.fin 1] = [Fl.nan] by simp [hf1.particles]]
    exact h2
  obtain ⟨-, em, eM, ep, ew, -, ek⟩ := Filter.updateStatistics_ok e2
  have hp2 : f2.particles = [⟨2.5, 3.5, 0⟩] := ep.trans hf1.particles
  obtain ⟨f3, h3⟩ : ∃ f3, f2.resample 0.01 2.3 (fun _ => 0) = .ok f3 := by
    refine c21_resample_defined (by norm_num) (by norm_num) (by rw [ew, hp2]; rfl) (by rw [ek]; exact hf1.size) ?_ ?_ ?_
    · intro n; simp [hp2]
    · intro p hp
      rw [hp2] at hp
      rw [List.mem_singleton.mp hp]
      exact pile_bins
    · intro k h1 h2
      rw [show f2.maxP = 1 from eM.trans hf1.maxP] at h2
      simp at h2
      omega
  refine ⟨f1, f2, f3, h1, h2, h3, ?_⟩
  obtain ⟨rs, ws, kd, mx, -, -, -, hge, hu⟩ := Filter.resample_ok h3
  obtain ⟨-, -, -, e3, -⟩ := Filter.updateStatistics_ok hu
  rw [show f2.maxP = 1 from eM.trans hf1.maxP, show f2.minP = 1 from em.trans hf1.minP] at hge
  rw [e3]
  show rs ≠ []
  rintro rfl
  simp at hge

/-- An empty map has been loaded. -/
def pileEmptied : Sys :=
  { pileSeen with epoch := 1, heap := fun e => if e = 1 then [] else pileSeen.heap e, constraints := [], update := true,
                  initialized := false }

/-- An empty map is loaded, the pose is given again, and a laser message arrives. The odometry has not changed. -/
theorem pile_emptied : ∃ n f, NodeReach filterNode (fun _ => True) (fun _ _ => True) n ∧ n.sys.scans = [] ∧
    n.sys.spin = .filter (((Scan.new 0).setPose Pose2d.zero).setPoints [⟨1, 0⟩]) Pose2d.zero ∧
    n.sys.prevOdom = Pose2d.zero ∧ n.sys.prevRobot = ⟨1.5, 3.5, 0⟩ ∧ n.filter = some f ∧
    PileFilter f ⟨1.5, 3.5, 0⟩ := by
  obtain ⟨g, hg, -⟩ := pileMap
  obtain ⟨n0, f0, h0, hf0, h1⟩ := run_pile hg
  set sE : Sys := pileEmptied with hsE
  have h2 : Node.step filterNode ⟨pileSeen, some (pileMatcher (some g)), some (pileMatcher none), some f0⟩
      (.plain (.configure 4#32 [])) = .ok ⟨sE, some (pileMatcher (some g)), some (pileMatcher none), some f0⟩ := by
    show Node.mapper _ _ _ = _
    unfold Node.mapper
    have : Mapper.step filterNode.map pileSeen (.configure 4#32 []) = .ok sE := by
      simp only [Mapper.step, show pileSeen.spin = .idle from rfl]
      unfold configure configureMapping configureFile
      rw [if_pos (by decide), if_neg (by decide), if_neg (by decide)]
      rfl
    simp only [this, Res.ok_bind]
  obtain ⟨f, h3⟩ : ∃ f, f0.init noiseFree 1.5 3.5 0 (Real.sqrt 0) (Real.sqrt 0) (Real.sqrt 0) = .ok f := by
    unfold Filter.init
    exact Filter.updateStatistics_total (by simp)
  have hf : PileFilter f ⟨1.5, 3.5, 0⟩ := by
    refine PileFilter.of h3 hf0.motion hf0.minP hf0.maxP ?_ ⟨1, by norm_num, ?_⟩ hf0.size
    · simp only [hf0.particles, List.mapIdx_cons, List.mapIdx_nil, noiseFree]
      rw [normalizeAngle_of_mem ⟨by linarith [Real.pi_pos], Real.pi_pos.le⟩]
    · simp only [hf0.particles, List.mapIdx_cons, List.mapIdx_nil, List.length_cons, List.length_nil, zero_add,
        List.replicate_one]
      rw [Fl.fin_div (by norm_num)]
      simp
  have hi : Node.initsFilter filterNode ⟨sE, some (pileMatcher (some g)), some (pileMatcher none), some f0⟩
      pilePose (some Pose2d.zero) [] :=
    ⟨rfl, by show ([] : List ℕ).Perm (List.range 0); exact List.Perm.refl _, rfl, rfl, by simp, rfl⟩
  have h4 : Node.step filterNode ⟨sE, some (pileMatcher (some g)), some (pileMatcher none), some f0⟩
      (.pose pilePose (some Pose2d.zero) [] noiseFree) =
      .ok ⟨{ sE with spin := .poseRobot ⟨1.5, 3.5, 0⟩ Pose2d.zero }, some (pileMatcher (some g)),
        some (pileMatcher none), some f⟩ := by
    show (if Node.initsFilter _ _ _ _ _ then _ else _) = _
    rw [if_pos hi]
    simp only [pilePose]
    simp only [lt_self_iff_false, or_self, if_false]
    rw [h3]
    simp only [Res.ok_bind]
    unfold Node.mapper
    have : Mapper.step filterNode.map sE (.pose ⟨true, ⟨1.5, 3.5, 0⟩, 0, 0, 0⟩ (some Pose2d.zero) []) =
        .ok { sE with spin := .poseRobot ⟨1.5, 3.5, 0⟩ Pose2d.zero } := by
      simp only [Mapper.step]
      rw [show sE.spin = .idle from rfl]
      simp only
      rw [if_pos hi.2.1]
      rfl
    simp only [this, Res.ok_bind]
  set sR : Sys := { sE with prevRobot := ⟨1.5, 3.5, 0⟩, prevOdom := Pose2d.zero, initialized := true } with hsR
  have h5 : Node.run filterNode ⟨{ sE with spin := .poseRobot ⟨1.5, 3.5, 0⟩ Pose2d.zero }, some (pileMatcher (some g)),
      some (pileMatcher none), some f⟩ [.plain .setRobot, .plain .setOdom] =
      .ok ⟨sR, some (pileMatcher (some g)), some (pileMatcher none), some f⟩ := rfl
  set sF : Sys := { sR with spin := .filter (((Scan.new 0).setPose Pose2d.zero).setPoints [⟨1, 0⟩]) Pose2d.zero } with hsF
  have h6 : Node.step filterNode ⟨sR, some (pileMatcher (some g)), some (pileMatcher none), some f⟩
      (.plain (beamLaser Pose2d.zero)) = .ok ⟨sF, some (pileMatcher (some g)), some (pileMatcher none), some f⟩ := by
    show (if Node.makesMatchers _ (some (Pose2d.zero, false)) then _ else _) = _
    rw [if_neg (by rintro ⟨-, h, -⟩; cases h)]
    unfold Node.mapper
    have hl : Laser.latchRangeMax sR.rangeMax pileBeam = .fin 10 := by
      show Laser.latchRangeMax (.fin 10) pileBeam = _
      unfold Laser.latchRangeMax
      rw [if_neg (by simp)]
    have hp : Laser.points pileBeam (.fin 10) false Pose2d.zero Pose2d.zero Pose2d.zero = .ok [(.fin 1, .fin 0)] := by
      have h : ¬ Laser.skip (.fin 10) (.fin 1) := by
        rintro (h | h)
        · exact h
        · simp only [Fl.fin_lt] at h; norm_num at h
      simp only [Laser.points, Laser.forwardLoop, pileBeam]
      rw [if_neg (by simp), if_neg h]
      simp [Laser.forwardPoint, Laser.shift, Laser.project, Laser.perMeas, Laser.translation, Pose2d.zero]
    have : Mapper.step filterNode.map sR (.laser pileBeam (some (Pose2d.zero, false)) (some Pose2d.zero) (some Pose2d.zero)) =
        .ok sF := by
      unfold Mapper.step
      simp only [show sR.spin = .idle from rfl]
      unfold laserCallback laserSetup
      simp only [show sR.laser = some (Pose2d.zero, false) from rfl, hl]
      have hsc : ¬ (sR.scans ≠ [] ∧ tooLittle filterNode.map sR Pose2d.zero) := fun h => h.1 rfl
      rw [if_neg (by simp), if_neg (by simp [hsR]), if_neg (by exact hsc)]
      rw [hp, Res.ok_bind]
      rfl
    simp only [this, Res.ok_bind]
  refine ⟨⟨sF, some (pileMatcher (some g)), some (pileMatcher none), some f⟩, f,
    ⟨false, some pileBag, n0, .plain (beamLaser Pose2d.zero) :: .plain (.configure 4#32 []) ::
      .pose pilePose (some Pose2d.zero) [] noiseFree :: [.plain .setRobot, .plain .setOdom] ++
        [.plain (beamLaser Pose2d.zero)], h0, by simp, ?_⟩, rfl, rfl, rfl, rfl, rfl, hf⟩
  exact Node.exec_of_run _ (t := ⟨sF, some (pileMatcher (some g)), some (pileMatcher none), some f⟩) (by
    rw [Node.run_append, Node.run_cons, h1, Res.ok_bind, Node.run_cons, h2, Res.ok_bind, Node.run_cons, h4, Res.ok_bind, h5,
      Res.ok_bind, Node.run_cons, h6, Res.ok_bind]
    rfl) fun n i hi => ⟨trivial, fun _ _ _ _ _ => trivial⟩

end

end Ndt
