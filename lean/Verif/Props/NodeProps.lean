import Verif.Proof.DemoNode
import Verif.Props.LoadProps

/-! # The node with its matchers (C18, C58, C74, C75, C76, C77) -/

namespace Ndt

open Spec Mapper

noncomputable section

/-! ## C18 Scores on any map -/

theorem candidate_upTo {mt : Matcher} {g : NdtGrid} (hg : g.Computed) (scan : Scan) (o : Pose2d) {v : Fl}
    (h : candidate mt g scan o = .ok v) : v.UpTo (beamCount mt.laserMaxBeams scan.points.length : ℕ) := by
  have := likelihoodPoints_upTo hg h
  rw [List.length_map, show beamCount mt.laserMaxBeams scan.points.length = min mt.laserMaxBeams scan.points.length from rfl,
    (c12_samples_are_points _ _).1] at this
  exact this

/-- **C18** On any map that `addScans` made, of whatever scans, the score of a match is a number in [-1, 0] whenever the
scan has a beam to use. -/
theorem c18_match_normalised_any_map {mt mt' : Matcher} {scans : List Scan} (h : mt.addScans scans = .ok mt')
    (hl : 0 < mt'.linearRes) (ha : 0 < mt'.angularRes) (scan : Scan) (hn : scan.points.length < 2 ^ 64)
    (hb : 0 < beamCount mt'.laserMaxBeams scan.points.length) (pose : Pose2d) (cov : Mat3F) {r : Matcher.MatchResult}
    (hr : mt'.matchScan scan pose cov = .ok r) : ∃ v : ℝ, r.score = .fin v ∧ -1 ≤ v ∧ v ≤ 0 := by
  obtain ⟨g, e, hg⟩ := addScans_computed h
  have hndt : mt'.ndt = some g := by rw [e]
  obtain ⟨best, e1, -, h3⟩ := c13_match_returns_best_candidate hndt hl ha scan hn pose cov hr
  have hb' : (0 : ℝ) < (beamCount mt'.laserMaxBeams scan.points.length : ℕ) := by exact_mod_cast hb
  rcases h3 with ⟨e2, -⟩ | ⟨hlt, -, v, hv, e2⟩
  · refine ⟨0, ?_, by norm_num, le_rfl⟩
    rw [e1, e2, Fl.fin_div hb'.ne', zero_div]
  · rcases candidate_upTo hg scan _ hv with rfl | ⟨x, rfl, h0, h1⟩
    · rw [e2] at hlt
      exact absurd hlt (Fl.nan_lt _)
    · refine ⟨-x / (beamCount mt'.laserMaxBeams scan.points.length : ℕ), ?_, ?_, ?_⟩
      · rw [e1, e2, Fl.fin_neg, Fl.fin_div hb'.ne']
      · rw [le_div_iff₀ hb']; linarith
      · exact div_nonpos_of_nonpos_of_nonneg (by linarith) hb'.le

/-- **C18** (partial: NaN is possible, C05) On any map that `addScans` made, the score of points at a pose is NaN or a number
in [-1, 0]. -/
theorem c18_score_any_map_partial {mt mt' : Matcher} {scans : List Scan} (h : mt.addScans scans = .ok mt')
    (points : List Point) (hn : points.length < 2 ^ 64) (pose : Pose2d) {v : Fl}
    (hv : mt'.scorePoints points pose = .ok v) : v = .nan ∨ ∃ x : ℝ, v = .fin x ∧ -1 ≤ x ∧ x ≤ 0 := by
  obtain ⟨g, e, hg⟩ := addScans_computed h
  have hndt : mt'.ndt = some g := by rw [e]
  rw [scorePoints_eq mt' g hndt _ hn] at hv
  obtain ⟨l, hl, hv⟩ := bind_ok hv
  have := likelihoodPoints_upTo hg hl
  rw [List.length_map, (c12_samples_are_points _ _).1] at this
  injection hv with hv
  subst hv
  rcases this with rfl | ⟨x, rfl, h0, h1⟩
  · left; simp
  · by_cases hm : min mt'.laserMaxBeams points.length = 0
    · left
      rw [hm] at h1
      have hx : x = 0 := le_antisymm (by simpa using h1) h0
      rw [hx, hm]; simp
    · right
      have hm' : (0 : ℝ) < (min mt'.laserMaxBeams points.length : ℕ) := by exact_mod_cast Nat.pos_of_ne_zero hm
      refine ⟨-x / (min mt'.laserMaxBeams points.length : ℕ), ?_, ?_, ?_⟩
      · rw [Fl.fin_neg, Fl.fin_div hm'.ne']
      · rw [le_div_iff₀ hm']; linarith
      · exact div_nonpos_of_nonpos_of_nonneg (by linarith) hm'.le

example : ∃ m, Matcher.addScans { defaultMatcher with rangeMax := 10, ndt := none } [blank 0 Pose2d.zero] = .ok m ∧
    0 < m.linearRes ∧ 0 < m.angularRes ∧ 0 < beamCount m.laserMaxBeams 1 := by
  obtain ⟨m, h⟩ := addScans_blank 0
  obtain ⟨g, rfl, -⟩ := addScans_computed h
  exact ⟨_, h, by norm_num [defaultMatcher], by norm_num [defaultMatcher], by norm_num [defaultMatcher, beamCount]⟩

/-! ## C58 The typical response of the node -/

/-- A scan that is matched has at least one point (and fewer than `size_t` can count). -/
def Usable (n : Node) (i : Input) : Prop :=
  ∀ junk scan odom, i = .localMatch junk → n.sys.spin = .matching scan odom → scan.points ≠ [] ∧ scan.points.length < 2 ^ 64

/-- **C58** (partial: as long as every matched scan has a point) The typical response of a node with NDT matchers is a
number between -1 and 0, in every reachable state: whatever the laser messages, transforms, maps and schedule. -/
theorem c58_node_typical_in_range_partial (np : NodeParams) (W : Graph → Prop) (n : Node) (hl : 0 < np.localCfg.linearRes)
    (ha : 0 < np.localCfg.angularRes) (hb : 0 < np.localCfg.laserMaxBeams) (h : NodeReach np W Usable n) :
    GoodScore n.sys.typical := by
  refine c58_typical_in_range_partial np.map W n.sys (Node.refines ?_ h)
  intro n i n' e hT ha' hd score c cov he
  obtain ⟨junk, scan, odom, l, r, hi, hs, hl', hr, rfl, -, -⟩ := hd.localMatched score c cov he
  obtain ⟨l1, w, h1, -, rng, hbu⟩ := hT.window scan odom hs
  rw [hl'] at h1
  cases h1
  obtain ⟨hne, hlen⟩ := ha' junk scan odom hi hs
  obtain ⟨g, rfl, -⟩ := addScans_computed hbu
  obtain ⟨v, e1, e2, e3⟩ := c18_match_normalised_any_map hbu hl ha scan hlen
    (lt_min hb (List.length_pos_of_ne_nil hne)) Pose2d.zero junk hr
  exact ⟨v, e1, e2, e3⟩

/-- What happens from now on, whatever it is. -/
def Whatever : Node → Input → Prop := fun _ _ => True

theorem Node.exec_sys {np : NodeParams} {n t : Node} {is : List Input} (h : NodeExec np Whatever n is t) :
    ∃ es, Exec np.map Any n.sys es t.sys := by
  induction h with
  | nil => exact ⟨[], .nil⟩
  | snoc _ _ hs ih =>
    obtain ⟨es, he⟩ := ih
    rcases Node.step_does hs with e | ⟨e, hd⟩
    · rw [e]; exact ⟨es, he⟩
    · exact ⟨es ++ [e], .snoc he trivial hd.ok⟩

/-- **C58** (refuted) A reachable node that is about to match a scan without points has no other choice than to spoil the
typical response: it is NaN afterwards and for ever, and no loop closure is accepted any more. -/
theorem c58_scan_without_points_disables_loop_closure (np : NodeParams) (W : Graph → Prop) (A : Node → Input → Prop) (n : Node)
    (h : NodeReach np W A n) (hl : 0 < np.localCfg.linearRes) (ha : 0 < np.localCfg.angularRes) (scan : Scan)
    (odom : Pose2d) (hs : n.sys.spin = .matching scan odom) (he : scan.points = []) (hne : n.sys.scans ≠ []) (junk : Mat3F) :
    ∃ n', n.step np (.localMatch junk) = .ok n' ∧ n'.sys.typical = .nan ∧
      ∀ is t, NodeExec np Whatever n' is t → t.sys.typical = .nan ∧ ∀ score : Fl, ¬ (score < t.sys.typical) := by
  have hT := Node.tied_reach h
  obtain ⟨l, w, h1, -, rng, hbu⟩ := hT.window scan odom hs
  obtain ⟨g, e, -⟩ := addScans_computed hbu
  have hndt : l.ndt = some g := by rw [e]
  obtain ⟨hsc, r, hr, hr1, hr2⟩ := c18_empty_scan_scores_nan hndt (by rw [e]; exact hl) (by rw [e]; exact ha) scan he
    Pose2d.zero junk
  obtain ⟨back, hback⟩ : ∃ b, n.sys.scans.getLast? = some b := by
    cases hb : n.sys.scans.getLast? with
    | none => exact absurd (List.getLast?_eq_none_iff.mp hb) hne
    | some b => exact ⟨b, rfl⟩
  obtain ⟨s, hstep, htyp⟩ : ∃ s, Mapper.step np.map n.sys (.localMatched r.score r.pose r.covariance) = .ok s ∧
      s.typical = .nan := by
    simp only [Mapper.step, hs, localMatched, hback]
    exact ⟨_, rfl, by simp only [hr1]; exact c58_nan_score _⟩
  refine ⟨{ n with sys := s }, ?_, htyp, ?_⟩
  · simp only [Node.step, hs, h1, hsc, Res.ok_bind, hr, Node.mapper, hstep]
  · intro is t ht
    obtain ⟨es, hes⟩ := Node.exec_sys ht
    exact c58_nan_for_ever np.map _ _ es hes htyp

/-- **C58** (refuted) Such nodes are reachable: two laser messages without returns do it, with default parameters. -/
theorem c58_node_nan_reachable (W : Graph → Prop) :
    ∃ n n', NodeReach (demoNode false) W Whatever n ∧ n.step (demoNode false) (.localMatch fun _ _ => .fin 0) = .ok n' ∧
      n.sys.typical ≠ .nan ∧ n'.sys.typical = .nan := by
  obtain ⟨n, o, hr, hs, hsc, -, ht⟩ := demo_matches_blank W
  obtain ⟨n', h1, h2, -⟩ := c58_scan_without_points_disables_loop_closure (demoNode false) W _ n hr
    (by norm_num [demoNode, defaultMatcher]) (by norm_num [demoNode, defaultMatcher]) _ _ hs rfl (by simp [hsc])
    (fun _ _ => .fin 0)
  exact ⟨n, n', hr, h1, by rw [ht]; simp, h2⟩

/-! ## C74 Localising without a map -/

/-- **C74** (refuted) A node that is to localise (mapping disabled, or with a particle filter) but has no map runs into
undefined behaviour with the first laser message whose frame is known: the extent of no scans is a huge negative number,
converted to an unsigned size. -/
theorem c74_localising_without_map_is_undefined (np : NodeParams) (n : Node)
    (hmode : np.map.useFilter = true ∨ n.sys.enable = false) (hi : n.sys.spin = .idle) (hl : n.sys.laser = none)
    (hs : n.sys.scans = []) (msg : LaserMsg) (mount : Pose2d × Bool) (odom odomEnd : Option Pose2d) (r : ℝ)
    (hr : Laser.latchRangeMax n.sys.rangeMax msg = .fin r) (h0 : 0 < np.globalCfg.resolution)
    (h1 : np.globalCfg.resolution < 2 ^ 1000) :
    n.step np (.plain (.laser msg (some mount) odom odomEnd)) = .error .conversion := by
  have hm : n.makesMatchers (some mount) := ⟨hi, hl, by simp⟩
  have hb : (np.map.useFilter || !n.sys.enable) = true := by
    rcases hmode with h | h <;> simp [h]
  simp only [Node.step]
  rw [if_pos hm]
  unfold Node.makeMatchers
  simp only [hr, Node.initMatcher, Res.ok_bind, hb, if_true, hs]
  rw [c11_no_scans_is_undefined { np.globalCfg with rangeMax := r, ndt := none } h0 h1]
  rfl

/-- **C74** (refuted) A freshly started node with default parameters, mapping disabled and no map, is one. -/
theorem c74_localising_without_map_reachable (W : Graph → Prop) :
    ∃ n, NodeReach (demoNode false) W Whatever n ∧
      n.step (demoNode false) (.plain (demoLaser Pose2d.zero)) = .error .conversion := by
  refine ⟨⟨demoStart (demoNode false).map false, none, none, none⟩, ⟨false, none, _, [], rfl, by simp, .nil⟩, ?_⟩
  exact c74_localising_without_map_is_undefined _ _ (Or.inr rfl) rfl rfl rfl noBeams _ _ _ 10
    (by simp [demoStart, startWith, Laser.latchRangeMax, noBeams, demoNode, demoParams])
    (by norm_num [demoNode, defaultMatcher])
    (by
      have : (1 : ℝ) ≤ 2 ^ 1000 := one_le_pow₀ (by norm_num)
      have h : (demoNode false).globalCfg.resolution = 0.25 := rfl
      rw [h]
      exact lt_of_lt_of_le (by norm_num) this)

/-- The extent of the map of some scans. -/
def extentX (r : ℝ) (scans : List Scan) : ℝ := (Matcher.bbox r scans).maxX - (Matcher.bbox r scans).minX
def extentY (r : ℝ) (scans : List Scan) : ℝ := (Matcher.bbox r scans).maxY - (Matcher.bbox r scans).minY

/-- **C74** With at least one scan, all of whose points are within range, and an extent of at most 2^31 cells, the map is
built without undefined behaviour. -/
theorem c74_map_of_scans_is_built (mt : Matcher) (scans : List Scan) (hne : scans ≠ []) (hres : 0 < mt.resolution)
    (hR : 0 ≤ mt.rangeMax)
    (hsm : cols (extentX mt.rangeMax scans) mt.resolution * cols (extentY mt.rangeMax scans) mt.resolution ≤ 2 ^ 31)
    (hp : ∀ s ∈ scans, ∀ q ∈ s.points, q.x ^ 2 + q.y ^ 2 ≤ mt.rangeMax ^ 2) :
    ∃ g, mt.addScans scans = .ok { mt with ndt := some g } := by
  have hbounds : ∀ s ∈ scans, (Matcher.bbox mt.rangeMax scans).minX ≤ s.pose.x - mt.rangeMax ∧
      s.pose.x + mt.rangeMax ≤ (Matcher.bbox mt.rangeMax scans).maxX ∧
      (Matcher.bbox mt.rangeMax scans).minY ≤ s.pose.y - mt.rangeMax ∧
      s.pose.y + mt.rangeMax ≤ (Matcher.bbox mt.rangeMax scans).maxY := fun s hs =>
    bbox_bounds mt.rangeMax scans { minX := dblMax, maxX := dblMin, minY := dblMax, maxY := dblMin } s hs
  obtain ⟨s0, hs0⟩ := List.exists_mem_of_ne_nil _ hne
  obtain ⟨b1, b2, b3, b4⟩ := hbounds s0 hs0
  have hw : 0 ≤ extentX mt.rangeMax scans := by unfold extentX; linarith
  have hh : 0 ≤ extentY mt.rangeMax scans := by unfold extentY; linarith
  obtain ⟨g0, hg0, hwf, e0, e1, e2, e3, e4, -⟩ := NdtGrid.new_wf (ox := (Matcher.bbox mt.rangeMax scans).minX)
    (oy := (Matcher.bbox mt.rangeMax scans).minY) hres hw hh hsm
  obtain ⟨g0', h0', -, hcov⟩ := c06_constructor_covers (ox := (Matcher.bbox mt.rangeMax scans).minX)
    (oy := (Matcher.bbox mt.rangeMax scans).minY) hres hw hh hsm
  have hnear : ∀ p ∈ mapPoints (scans.map .addScan ++ [.compute]), Near g0.originX g0.originY g0.cellSize p := by
    intro p hp'
    rw [mapPoints_append, List.mem_append] at hp'
    have hp'' : p ∈ mapPoints (scans.map .addScan) := by
      rcases hp' with h | h
      · exact h
      · simp [mapPoints] at h
    obtain ⟨s, hs, q, hq, rfl⟩ : ∃ s ∈ scans, ∃ q ∈ s.points, p = move s.pose q := by
      have : ∀ l : List Scan, p ∈ mapPoints (l.map .addScan) → ∃ s ∈ l, ∃ q ∈ s.points, p = move s.pose q := by
        intro l
        induction l with
        | nil => intro h; simp [mapPoints] at h
        | cons a l ih =>
          intro h
          rw [List.map_cons, show NdtOp.addScan a :: l.map .addScan = [NdtOp.addScan a] ++ l.map .addScan from rfl,
            mapPoints_append, List.mem_append] at h
          rcases h with h | h
          · simp only [mapPoints, List.flatMap_cons, List.flatMap_nil, List.append_nil, List.mem_map] at h
            obtain ⟨q, hq, rfl⟩ := h
            exact ⟨a, by simp, q, hq, rfl⟩
          · obtain ⟨s, hs, q, hq, e⟩ := ih h
            exact ⟨s, by simp [hs], q, hq, e⟩
      exact this scans hp''
    have hqr := hp s hs q hq
    obtain ⟨c1, c2, c3, c4⟩ := hbounds s hs
    have hdisp : ∀ a b : ℝ, a ^ 2 + b ^ 2 = 1 → |a * q.x + b * q.y| ≤ mt.rangeMax := by
      intro a b hab
      apply abs_le_of_sq_le_sq _ hR
      nlinarith [sq_nonneg (a * q.y - b * q.x), mul_comm a b]
    have d1 := abs_le.mp (hdisp (Real.cos s.pose.theta) (-Real.sin s.pose.theta)
      (by rw [neg_sq]; exact Real.cos_sq_add_sin_sq _))
    have d2 := abs_le.mp (hdisp (Real.sin s.pose.theta) (Real.cos s.pose.theta) (Real.sin_sq_add_cos_sq _))
    have hin := hcov (move s.pose q)
      (by simp only [move]; linarith [d1.1]) (by simp only [move, extentX]; linarith [d1.2])
      (by simp only [move]; linarith [d2.1]) (by simp only [move, extentY]; linarith [d2.2])
    rw [hg0] at h0'
    cases h0'
    rw [e3, e4] at hin
    rw [e0, e1, e2]
    exact near_of_inExtents hres hsm (by simp [cols]) (by simp [cols]) hin
  obtain ⟨g, hg, -⟩ := NdtGrid.run_spec (scans.map .addScan ++ [.compute]) hwf hnear
  refine ⟨g, ?_⟩
  rw [addScans_eq]
  unfold extentX extentY at hg0
  rw [hg0]
  simp only [Res.ok_bind]
  rw [hg]
  rfl

/-! ## C75 Corrections stay inside the search window -/

/-- The two poses differ by at most the search window. -/
def WithinWindow (m : Matcher) (a b : Pose2d) : Prop :=
  |b.x - a.x| ≤ |m.linearSize| ∧ |b.y - a.y| ≤ |m.linearSize| ∧ |b.theta - a.theta| ≤ |m.angularSize|

theorem correction_within {mt : Matcher} {g : NdtGrid} (hg : mt.ndt = some g) (hl : 0 < mt.linearRes) (ha : 0 < mt.angularRes)
    (scan : Scan) (hn : scan.points.length < 2 ^ 64) (cov : Mat3F) {r : Matcher.MatchResult}
    (h : mt.matchScan scan Pose2d.zero cov = .ok r) (a : Pose2d) : WithinWindow mt a (addCorrection r.pose a) := by
  have key : ∀ d s : ℝ, -s ≤ d ∧ d < s → |d| ≤ |s| := by
    rintro d s ⟨h1, h2⟩
    rw [abs_of_pos (show 0 < s by linarith)]
    exact abs_le.mpr ⟨h1, h2.le⟩
  unfold WithinWindow addCorrection
  simp only [add_sub_cancel_right]
  rcases c14_correction_inside_window hg hl ha scan hn Pose2d.zero cov h with e | ⟨-, -, -, e1, e2, e3⟩
  · rw [e]; simp [Pose2d.zero]
  · exact ⟨key _ _ e1, key _ _ e2, key _ _ e3⟩

/-- **C75** Whatever the maps, messages and schedule: local matching moves the new scan by at most the search window from
where odometry predicted it; its points, id and everything in the graph stay as they are. -/
theorem c75_local_correction_bounded (np : NodeParams) (W : Graph → Prop) (A : Node → Input → Prop) (n n' : Node)
    (h : NodeReach np W A n) (hl : 0 < np.localCfg.linearRes) (ha : 0 < np.localCfg.angularRes) (scan : Scan) (odom : Pose2d)
    (hs : n.sys.spin = .matching scan odom) (hn : scan.points.length < 2 ^ 64) (junk : Mat3F)
    (hst : n.step np (.localMatch junk) = .ok n') :
    n'.sys.scans = n.sys.scans ∧ n'.sys.constraints = n.sys.constraints ∧
    ∃ c scan', n'.sys.spin = .constraint c scan' odom ∧ scan'.points = scan.points ∧ scan'.id = scan.id ∧
      WithinWindow np.localCfg scan.pose scan'.pose := by
  have hT := Node.tied_reach h
  obtain ⟨l0, w, h1, -, rng, hbu⟩ := hT.window scan odom hs
  obtain ⟨g, e, -⟩ := addScans_computed hbu
  generalize hi : Input.localMatch junk = i at hst
  cases Node.step_ntrans hst with
  | localMatch junk' scan' odom' l sc r s hi' hl' hsc hr hstep =>
    rw [hs] at hi'
    cases hi'
    rw [h1] at hl'
    cases hl'
    simp only [Mapper.step, hs, localMatched] at hstep
    split at hstep
    · cases hstep
    · injection hstep with hstep
      rw [← hstep]
      refine ⟨rfl, rfl, _, _, rfl, rfl, rfl, ?_⟩
      have := correction_within (mt := l0) (g := g) (by rw [e]) (by rw [e]; exact hl) (by rw [e]; exact ha) scan hn junk' hr
        scan.pose
      rw [e] at this
      exact this
  | stutter =>
    exfalso
    subst hi
    simp only [Node.step, hs, h1] at hst
    obtain ⟨sc, -, hst⟩ := bind_ok hst
    obtain ⟨r, -, hst⟩ := bind_ok hst
    obtain ⟨s, hstep, hn'⟩ := Node.mapper_ok hst
    simp only [Mapper.step, hs, localMatched] at hstep
    split at hstep
    · cases hstep
    · injection hstep with hstep
      have : n.sys = s := by rw [hn']
      rw [← hstep] at this
      have h2 := congrArg Sys.spin this
      rw [hs] at h2
      cases h2
  | _ => cases hi

/-- **C75** Localisation moves the robot by at most the search window from where odometry predicted it. -/
theorem c75_global_correction_bounded (np : NodeParams) (W : Graph → Prop) (A : Node → Input → Prop) (n n' : Node)
    (h : NodeReach np W A n) (hl : 0 < np.globalCfg.linearRes) (ha : 0 < np.globalCfg.angularRes) (scan : Scan)
    (odom : Pose2d) (hs : n.sys.spin = .localise scan odom) (hn : scan.points.length < 2 ^ 64) (junk : Mat3F)
    (hst : n.step np (.globalMatch junk) = .ok n') :
    n'.sys.scans = n.sys.scans ∧ n'.sys.constraints = n.sys.constraints ∧
    ∃ pose, n'.sys.spin = .finish pose odom ∧ WithinWindow np.globalCfg scan.pose pose := by
  have hT := Node.tied_reach h
  simp only [Node.step, hs] at hst
  split at hst
  · rename_i g0 hg0
    obtain ⟨sc, -, hst⟩ := bind_ok hst
    obtain ⟨r, hr, hst⟩ := bind_ok hst
    obtain ⟨s, hstep, rfl⟩ := Node.mapper_ok hst
    simp only [Mapper.step, hs] at hstep
    split at hstep
    · cases hstep
    injection hstep with hstep'
    rw [← hstep']
    refine ⟨rfl, rfl, _, rfl, ?_⟩
    obtain ⟨rng, nd, e⟩ := hT.gcfg g0 hg0
    show WithinWindow np.globalCfg scan.pose (addCorrection r.pose scan.pose)
    rcases hT.gmap g0 hg0 with hnone | ⟨w, -, rng', hbu⟩
    · have : r.pose = Pose2d.zero := by
        unfold Matcher.matchScan at hr
        rw [hnone] at hr
        cases hr; rfl
      rw [this]
      simp [WithinWindow, addCorrection, Pose2d.zero]
    · obtain ⟨g, e', -⟩ := addScans_computed hbu
      have := correction_within (mt := g0) (g := g) (by rw [e']) (by rw [e']; exact hl) (by rw [e']; exact ha) scan hn junk hr
        scan.pose
      rw [e'] at this
      exact this
  · cases hst

/-- **C75** Loop closing moves a scan by at most the search window per accepted candidate. -/
theorem c75_loop_correction_bounded (np : NodeParams) (W : Graph → Prop) (A : Node → Input → Prop) (n n' : Node)
    (h : NodeReach np W A n) (hl : 0 < np.globalCfg.linearRes) (ha : 0 < np.globalCfg.angularRes) (q : Search) (cand : Ptr)
    (hs : n.sys.loop = .matching q cand) (scan : Scan) (hscan : (n.sys.heap q.scan.epoch)[q.scan.idx]? = some scan)
    (hn : scan.points.length < 2 ^ 64) (junk : Mat3F) (hst : n.step np (.loopMatch junk) = .ok n') :
    n'.sys.heap = n.sys.heap ∨ ∃ pose, n'.sys.heap = setPoseAt n.sys.heap q.scan pose ∧
      WithinWindow np.globalCfg scan.pose pose := by
  have hT := Node.tied_reach h
  simp only [Node.step, hs, hscan] at hst
  split at hst
  · rename_i g0 scan0 hg0 hsc0
    cases hsc0
    obtain ⟨r, hr, hst⟩ := bind_ok hst
    obtain ⟨s, hstep, rfl⟩ := Node.mapper_ok hst
    simp only [Mapper.step, hs, loopMatched] at hstep
    split at hstep
    · split at hstep
      · rename_i sc1 cd h1 h2
        rw [hscan] at h1
        cases h1
        injection hstep with hstep
        rw [← hstep]
        refine Or.inr ⟨_, rfl, ?_⟩
        obtain ⟨g1, w, hg1, -, rng', hbu⟩ := hT.region q cand hs
        rw [hg0] at hg1
        cases hg1
        obtain ⟨g, e', -⟩ := addScans_computed hbu
        have := correction_within (mt := g0) (g := g) (by rw [e']) (by rw [e']; exact hl) (by rw [e']; exact ha) scan hn junk
          hr scan.pose
        rw [e'] at this
        exact this
      · cases hstep
    · injection hstep with hstep
      left
      rw [← hstep]
      obtain ⟨n1, l1, e⟩ := afterAttempt_frame q n.sys
      rw [e]
  · cases hst

/-- The hypotheses of C75 are met by a reachable node with default parameters (0.05 m and 0.1 rad). -/
example : ∃ n n' scan odom, NodeReach (demoNode false) (fun _ => True) Whatever n ∧ n.sys.spin = .matching scan odom ∧
    n.step (demoNode false) (.localMatch fun _ _ => .fin 0) = .ok n' ∧ (demoNode false).localCfg.linearSize = 0.05 := by
  obtain ⟨n, o, hr, hs, hsc, -, -⟩ := demo_matches_blank (fun _ => True)
  obtain ⟨n', h1, -⟩ := c58_scan_without_points_disables_loop_closure (demoNode false) _ _ n hr
    (by norm_num [demoNode, defaultMatcher]) (by norm_num [demoNode, defaultMatcher]) _ _ hs rfl (by simp [hsc])
    (fun _ _ => .fin 0)
  exact ⟨n, n', _, _, hr, hs, h1, rfl⟩

end

end Ndt
