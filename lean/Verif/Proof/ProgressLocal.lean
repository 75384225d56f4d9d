import Verif.Proof.ProgressNode
import Verif.Proof.DemoFilter
import Verif.Props.FilterProps
import Verif.Props.RegionProps

/-! # Helper lemmas: the state of a node that localises within bounds -/

namespace Ndt

open Spec Mapper

noncomputable section

/-- No scan was added, and the filter is only updated if it is to be used. -/
structure CalmInv (p : Params) (s : Sys) : Prop where
  announce : ∀ a odom, s.spin ≠ .announce a odom
  filter : ∀ scan odom, s.spin = .filter scan odom → p.useFilter = true

theorem calmInv_step {p : Params} {s s' : Sys} {e : Event} (hM : MapInv p s) (hd : s.enable = false) (hI : CalmInv p s)
    (ht : Trans p s e s') : CalmInv p s' := by
  cases ht with
  | laserIgnored msg mount odom odomEnd hi =>
    obtain ⟨r, l, g, m, e, -⟩ := setup_cases p msg mount s
    rw [e]; exact ⟨hI.announce, hI.filter⟩
  | laserScan msg mount odom odomEnd points hi hgo hinit ht =>
    generalize ((Scan.new s.scans.length).setPose (firstPose s odom)).setPoints points = scan
    constructor
    · intro a o h
      have h : branch p s scan odom = .announce a o := h
      unfold branch at h
      split_ifs at h
    · intro t o h
      have h : branch p s scan odom = .filter t o := h
      unfold branch at h
      split_ifs at h with hf
      exact hf
  | pushScan scan odom hi =>
    have := (hM (by rw [hi]; trivial)).1
    rw [hd] at this; cases this
  | configureFlags action bag hi hl =>
    obtain ⟨en, ini, e, -⟩ := configureMapping_frame action s
    rw [e]; exact ⟨hI.announce, hI.filter⟩
  | load action bag g hi hl' hg =>
    obtain ⟨en, ini, e, -⟩ := configureMapping_frame action s
    rw [e]; exact ⟨hI.announce, hI.filter⟩
  | pubTf hi =>
    obtain ⟨x, e⟩ := pubTf_frame s
    rw [e]; exact ⟨hI.announce, hI.filter⟩
  | loopReject score correction cov q cand hi hs =>
    obtain ⟨n, l, e⟩ := afterAttempt_frame q s
    rw [e]; exact ⟨hI.announce, hI.filter⟩
  | loopPush q c hi =>
    obtain ⟨n, l, e⟩ := afterAttempt_frame q { s with constraints := s.constraints ++ [c], update := true }
    rw [e]; exact ⟨hI.announce, hI.filter⟩
  | _ => first
    | exact ⟨hI.announce, hI.filter⟩
    | exact ⟨fun a o h => by simp at h, fun a o h => by simp at h⟩

/-- What is known of the mapper of a node that localises within bounds. -/
structure LocalFacts (p : Params) (s : Sys) : Prop where
  enable : s.enable = false
  loop : s.loop = .asleep
  map : MapInv p s
  made : MatcherInv s
  calm : CalmInv p s
  scans : s.scans ≠ []
  ends : ∀ c ∈ s.constraints, c.begin_ < s.scans.length ∧ c.end_ < s.scans.length

theorem localFacts_step {p : Params} {s s' : Sys} {e : Event} (h : LocalFacts p s) (hl : ¬ Loads e) (hen : ¬ Enables e)
    (hs : step p s e = .ok s') : LocalFacts p s' := by
  by_cases hw : IsLoopWork e
  · rw [asleep_work h.enable h.loop hw hs]; exact h
  · have ht := step_trans hs
    obtain ⟨j1, j2⟩ := asleep_step h.enable h.loop hen ht
    obtain ⟨k1, k2⟩ := sameMap_step h.map hl hw (Or.inl h.enable) ht
    exact ⟨j1, j2, mapInv_step h.map ht, matcherInv_step h.made ht, calmInv_step h.map h.enable h.calm ht,
      by rw [k1]; exact h.scans, by rw [k1, k2]; exact h.ends⟩

theorem local_start {np : NodeParams} {bag : List BagMsg} {g : Graph} {n0 : Node}
    (hload : Graph.load np.map.useBarycenter bag = .ok g) (hne : g.scans ≠ [])
    (hv : ∀ c ∈ g.constraints, c.begin_ < g.scans.length ∧ c.end_ < g.scans.length)
    (h : Node.start np false (some bag) = .ok n0) : LocalFacts np.map n0.sys := by
  rcases start_cases (Node.start_sys h).1 with ⟨h0, -⟩ | ⟨bag', g', h0, hg, e⟩
  · cases h0
  · cases h0
    rw [hload] at hg
    cases hg
    rw [e]
    exact ⟨rfl, rfl, fun h => h.elim, ⟨fun h => absurd rfl h, fun h => h.elim⟩,
      ⟨fun a o h => by simp [startWith] at h, fun a o h => by simp [startWith] at h⟩, hne, hv⟩

theorem localFacts_node {np : NodeParams} {b : Bounds} {n n' : Node} {i : Input} (h : LocalFacts np.map n.sys)
    (ho : OrdinaryLocal np b n i) (hs : n.step np i = .ok n') : LocalFacts np.map n'.sys := by
  rcases Node.step_does hs with rfl | ⟨e, he⟩
  · exact h
  · have hc : ∀ action bag, e = .configure action bag → action &&& 4#32 = 0#32 ∧ action &&& 1#32 = 0#32 := by
      intro action bag h1
      have hi := he.configure action bag h1
      rw [hi, h1] at ho
      exact ho
    refine localFacts_step h ?_ ?_ he.ok
    · rintro ⟨a, c, h1, h2⟩; exact h2 (hc a c h1).1
    · rintro ⟨a, c, h1, h2⟩; exact h2 (hc a c h1).2

theorem localGrid_step {np : NodeParams} {b : Bounds} (hp : SuitsLocal b np) {n n' : Node} {i : Input}
    (hF : LocalFacts np.map n.sys) (hb : InBounds b n) (ho : OrdinaryLocal np b n i)
    (hG : ∀ m, n.globalN = some m → ∀ g, m.ndt = some g → GridIn b np.globalCfg.resolution g) (h : n.step np i = .ok n') :
    ∀ m, n'.globalN = some m → ∀ g, m.ndt = some g → GridIn b np.globalCfg.resolution g := by
  cases Node.step_ntrans h with
  | makes msg mount odom odomEnd r g s hm hr hg hs =>
    obtain ⟨-, r', h1, h2, h3⟩ := ho
    rw [h1] at hr
    injection hr with hr
    subst hr
    rw [hF.enable] at hg
    simp only [Bool.not_false, Bool.or_true, if_true] at hg
    obtain ⟨gr, hgr, hin⟩ := addScans_in (mt := { np.globalCfg with rangeMax := r', ndt := none }) hp.place hp.reach
      ⟨hp.glob.res, hp.glob.linear, hp.glob.angular, hp.glob.cells, hp.glob.near⟩ h2 h3 hF.scans hb.scans
    rw [hgr] at hg
    cases hg
    intro m h g' hg'
    cases h
    cases hg'
    exact hin
  | loopMap q q' c s g g' w hi hi' hg hw ha hs => rw [hF.loop] at hi; cases hi
  | _ => exact hG

/-- Everything needed of a node that localises within bounds. -/
theorem localises_facts {np : NodeParams} {b : Bounds} (hp : SuitsLocal b np) {n : Node} (h : Localises np b n) :
    Node.Tied np n ∧ LocalFacts np.map n.sys ∧
      (∀ m, n.globalN = some m → ∀ g, m.ndt = some g → GridIn b np.globalCfg.resolution g) ∧ Node.FilterRun np n ∧
      (np.map.useFilter = true → n.filter ≠ none) := by
  obtain ⟨bag, g, n0, is, hload, hne, hv, hst, he⟩ := h
  induction he with
  | nil =>
    obtain ⟨-, hg, hl⟩ := Node.start_sys hst
    refine ⟨Node.tied_start hst, local_start hload hne hv hst, fun m h => by (rw [hg] at h; cases h), ?_, ?_⟩
    · intro f hf
      unfold Node.start at hst
      obtain ⟨s, hs, hst⟩ := bind_ok hst
      split at hst
      · obtain ⟨f0, h0, hst⟩ := bind_ok hst
        cases hst
        cases hf
        exact ⟨[], by rw [h0]; rfl⟩
      · cases hst; cases hf
    · intro hu
      unfold Node.start at hst
      obtain ⟨s, hs, hst⟩ := bind_ok hst
      rw [if_pos hu] at hst
      obtain ⟨f0, h0, hst⟩ := bind_ok hst
      cases hst
      simp
  | snoc he ha hs ih =>
    obtain ⟨h1, h2, h3, h4, h5⟩ := ih
    exact ⟨Node.tied_step h1 hs, localFacts_node h2 ha.2 hs, localGrid_step hp h2 ha.1 ha.2 h3 hs,
      Node.filterRun_step h4 hs, fun hu => Node.hasFilter_step (h5 hu) hs⟩

/-! ### Single pieces of work -/

theorem bins_in {b : Bounds} (hb : b.place < 2 ^ 28) {p : Pose2d}
    (h : |p.x| ≤ b.place ∧ |p.y| ≤ b.place ∧ |p.theta| ≤ b.place) : BinFits ![0.5, 0.5, 0.2671] p := by
  have key : ∀ z c : ℝ, |z| ≤ b.place → 1 / 4 ≤ c → |truncZ (z / c)| < 2 ^ 30 := by
    intro z c hz hc
    have hc0 : 0 < c := by linarith
    have hq : |z / c| ≤ 4 * b.place := by
      rw [abs_div, abs_of_pos hc0, div_le_iff₀ hc0]
      nlinarith [abs_nonneg z]
    have hp : |z / c| < 2 ^ 30 := by norm_num at hb ⊢; linarith
    obtain ⟨h3, h4⟩ := abs_lt.mp hp
    unfold truncZ
    split
    · rename_i h0
      rw [abs_of_nonneg (Int.floor_nonneg.mpr h0), Int.floor_lt]
      push_cast; norm_num at h4 ⊢; exact h4
    · rename_i h0
      have h1 : ⌈z / c⌉ ≤ 0 := by rw [Int.ceil_le]; push_cast; linarith
      rw [abs_of_nonpos h1]
      have : (-(2 ^ 30) : ℤ) < ⌈z / c⌉ := by rw [Int.lt_ceil]; push_cast; norm_num at h3 ⊢; exact h3
      linarith
  obtain ⟨hx, hy, ht⟩ := h
  have k1 := key p.x 0.5 hx (by norm_num)
  have k2 := key p.y 0.5 hy (by norm_num)
  have k3 := key p.theta 0.2671 ht (by norm_num)
  intro i
  fin_cases i
  · exact k1
  · exact k2
  · exact k3

theorem filter_defined {np : NodeParams} {b : Bounds} (hp : SuitsLocal b np) {n : Node} (hT : Node.Tied np n)
    (hF : LocalFacts np.map n.sys)
    (hG : ∀ m, n.globalN = some m → ∀ g, m.ndt = some g → GridIn b np.globalCfg.resolution g) (hR : Node.FilterRun np n)
    (hH : np.map.useFilter = true → n.filter ≠ none) (hb : InBounds b n) {scan : Scan} {odom : Pose2d}
    (hs : n.sys.spin = .filter scan odom) {nrm : MotionModel.Draws} {draw : ℕ → ℕ} (ht : Tracks np b n nrm draw) :
    ∃ n', n.step np (.filterScan nrm draw) = .ok n' := by
  have hu := hF.calm.filter scan odom hs
  obtain ⟨k1, k2, k3⟩ := hp.filter hu
  obtain ⟨f, hf⟩ := Option.ne_none_iff_exists'.mp (hH hu)
  have hglob := (hF.made.made (hF.made.busy (by rw [hs]; trivial))).1
  obtain ⟨g, hg⟩ := Option.ne_none_iff_exists'.mp (fun h => hglob (hT.global.mpr h))
  obtain ⟨ops, hops⟩ := hR f hf
  obtain ⟨a1, a2, a3, a4, a5, a6⟩ := c21_particle_count_within_limits _ _ _ ops hops
  have hw : WithinLimits f := ⟨by rw [a4, a5]; exact a1, by rw [a4, a5]; exact a2, a3⟩
  obtain ⟨f1, h1⟩ := (c21_other_operations_defined hw).2.1 nrm (Node.control n.sys.prevRobot scan.pose).x
    (Node.control n.sys.prevRobot scan.pose).y (Node.control n.sys.prevRobot scan.pose).theta
  obtain ⟨t1, t2, t3⟩ := ht scan odom f g f1 hs hf hg h1
  have hops1 := Node.Filter_snoc hops (op := .update nrm _ _ _) h1
  obtain ⟨b1, b2, b3, b4, b5, b6⟩ := c21_particle_count_within_limits _ _ _ _ hops1
  obtain ⟨hfit, hres⟩ := fits_params (hT.gcfg g hg) hp.glob
  have hsc := hb.current scan (by rw [hs]; rfl)
  have hscore : ∀ p ∈ f1.particles, ∃ v, g.scorePoints scan.points p = .ok v := fun p hpp =>
    score_in hp.reach hfit (fun gr hgr => by rw [hres]; exact hG g hg gr hgr) hsc (t1 p hpp).1 (t1 p hpp).2.1
  obtain ⟨ws, hws⟩ : ∃ ws, f1.particles.mapM (fun p => g.scorePoints scan.points p) = .ok ws := by
    classical
    choose! v hv using hscore
    exact ⟨_, mapM_ok _ _ v hv⟩
  obtain ⟨f2, h2⟩ : ∃ f2, f1.measure (fun p => g.scorePoints scan.points p) = .ok f2 := by
    unfold Filter.measure
    rw [hws]
    simp only [Res.ok_bind]
    rw [if_neg (by omega)]
    exact Filter.updateStatistics_total (by simp [Filter.mapM_length _ _ hws])
  have hops2 := Node.Filter_snoc hops1 (op := .measure _) h2
  obtain ⟨c1, c2, c3, c4, c5, c6⟩ := c21_particle_count_within_limits _ _ _ _ hops2
  have hpart : f2.particles = f1.particles := by
    obtain ⟨ws', -, -, h⟩ := Filter.measure_ok b3 h2
    obtain ⟨-, -, -, e, -⟩ := Filter.updateStatistics_ok h
    exact e
  obtain ⟨f3, h3⟩ := c21_resample_defined (f := f2) (draw := draw) k1 k2 c3 c6 (by rw [hpart]; exact t2)
    (by rw [hpart]; exact fun p h => bins_in hp.placeEnd (t1 p h)) (by rw [c5]; exact k3)
  obtain ⟨mean, h4⟩ := t3 f2 f3 h2 h3
  have hmot : f.motion = np.motion := Node.filterRun_motion hops
  obtain ⟨n1, n2, n3, n4⟩ := hp.noise hu
  have hq := not_negativeNoise (m := f.motion) (by rw [hmot]; exact n1) (by rw [hmot]; exact n2) (by rw [hmot]; exact n3)
    (by rw [hmot]; exact n4) (Node.control n.sys.prevRobot scan.pose)
  exact ⟨_, Node.step_filterScan hs hglob hf hg hq h1 h2 h3 h4⟩

/-! ### A node that localises with its filter -/

theorem pile_suits : SuitsLocal demoBounds filterNode := by
  refine ⟨by norm_num [demoBounds], by norm_num [demoBounds], by norm_num [demoBounds], ?_,
    fun _ => by norm_num [filterNode], fun _ => ⟨?_, ?_, ?_⟩⟩
  · constructor <;> norm_num [filterNode, coarseMatcher, demoBounds]
  · norm_num [filterNode]
  · norm_num [filterNode]
  · intro k h1 h2
    simp [filterNode] at h2
    omega

theorem pileScan_in : ScanIn demoBounds pileScan := by
  refine ⟨by norm_num [pileScan, Scan.setPoints, Scan.setPose, Pose2d.zero, demoBounds],
    by norm_num [pileScan, Scan.setPoints, Scan.setPose, Pose2d.zero, demoBounds],
    by norm_num [pileScan, Scan.setPoints, pile], ?_⟩
  intro q hq
  simp only [pileScan, Scan.setPoints, pile, List.mem_cons, List.not_mem_nil, or_false] at hq
  rcases hq with rfl | rfl | rfl | rfl | rfl | rfl <;> norm_num [demoBounds]

theorem pile_inBounds {n : Node} (hs : n.sys.scans = [pileScan]) (hc : n.sys.constraints = [])
    (hm : ∀ m, n.globalN = some m ∨ n.localN = some m → m.rangeMax = 10)
    (hcur : ∀ s, WorksOn n.sys.spin s → ScanIn demoBounds s) : InBounds demoBounds n := by
  refine ⟨?_, hcur, fun m h => ?_, ?_, ?_⟩
  · intro s h
    rw [hs, List.mem_singleton] at h
    rw [h]; exact pileScan_in
  · rw [hm m h]; norm_num [demoBounds]
  · rw [hs]; norm_num
  · rw [hc]; norm_num

/-- The filter is about to be updated with a scan. -/
theorem pile_localises : ∃ f g, Localises filterNode demoBounds (pileFiltering [⟨1, 0⟩] f g) ∧
    InBounds demoBounds (pileFiltering [⟨1, 0⟩] f g) ∧
    OrdinaryLocal filterNode demoBounds (pileFiltering [⟨1, 0⟩] f g) (.filterScan noiseFree fun _ => 0) := by
  obtain ⟨g, hg, hl⟩ := pileMap
  obtain ⟨n0, f0, h0, hf0, h1⟩ := run_pile hg
  obtain ⟨f, hf, h2⟩ := step_pilePose (g := g) hf0
  have hn0 : n0.sys = pileStart ∧ n0.globalN = none ∧ n0.localN = none := by
    obtain ⟨k1, k2, k3⟩ := Node.start_sys h0
    refine ⟨?_, k2, k3⟩
    unfold Mapper.start at k1
    simp only at k1
    rw [pileBag_load] at k1
    injection k1 with k1
    exact k1.symm
  have range : ∀ m, some (pileMatcher (some g)) = some m ∨ some (pileMatcher none) = some m → m.rangeMax = 10 := by
    rintro m (h | h) <;> (injection h with h; rw [← h]; rfl)
  have latch : ∀ r, r = Fl.fin (-1) ∨ r = Fl.fin 10 → Laser.latchRangeMax r pileBeam = .fin 10 := by
    rintro r (rfl | rfl) <;> simp [Laser.latchRangeMax, pileBeam]
  have laser : ∀ (n : Node) (o : Pose2d), (n.sys.rangeMax = .fin (-1) ∨ n.sys.rangeMax = .fin 10) →
      OrdinaryLocal filterNode demoBounds n (.plain (beamLaser o)) := by
    intro n o hr
    exact ⟨⟨by simp [pileBeam], ⟨10, latch _ hr⟩, fun _ => by simp [pileBeam]⟩, 10, latch _ hr, by norm_num,
      by norm_num [demoBounds]⟩
  have still : ∀ (s : Sys) (gn ln : Option Matcher) (fn : Option Filter), s.scans = [pileScan] → s.constraints = [] →
      (∀ m, gn = some m ∨ ln = some m → m.rangeMax = 10) → (∀ t, ¬ WorksOn s.spin t) →
      InBounds demoBounds ⟨s, gn, ln, fn⟩ :=
    fun s gn ln fn a b c d => pile_inBounds a b c fun t h => absurd h (d t)
  have x0 : NodeExec filterNode (fun n i => InBounds demoBounds n ∧ OrdinaryLocal filterNode demoBounds n i) n0 [] n0 := .nil
  have x1 := NodeExec.snoc x0 ⟨pile_inBounds (by rw [hn0.1]; rfl) (by rw [hn0.1]; rfl)
    (fun m h => by rw [hn0.2.1, hn0.2.2] at h; simp at h) (fun s h => by rw [hn0.1] at h; exact h.elim),
    laser n0 Pose2d.zero (Or.inl (by rw [hn0.1]; rfl))⟩ h1
  have x2 := NodeExec.snoc (i := .pose pilePose (some Pose2d.zero) [0] noiseFree) x1
    ⟨still _ _ _ _ rfl rfl range fun t h => h, ⟨le_refl (0 : ℝ), le_refl (0 : ℝ), le_refl (0 : ℝ)⟩⟩ h2
  have x3 := NodeExec.snoc (i := .plain .setRobot) x2 ⟨still _ _ _ _ rfl rfl range fun t h => h, trivial⟩ rfl
  have x4 := NodeExec.snoc (i := .plain .setOdom) x3 ⟨still _ _ _ _ rfl rfl range fun t h => h, trivial⟩ rfl
  have x5 := NodeExec.snoc x4 ⟨still _ _ _ _ rfl rfl range fun t h => h,
    laser ⟨pileReady, some (pileMatcher (some g)), some (pileMatcher none), some f⟩ ⟨1, 0, 0⟩ (Or.inr rfl)⟩
    (step_pileLaser pileBeam f g _ [⟨1, 0⟩] pileBeam_points rfl)
  have hcur : ∀ s, WorksOn (pileFiltering [⟨1, 0⟩] f g).sys.spin s → ScanIn demoBounds s := by
    intro s h
    have h : ((Scan.new 1).setPose ⟨2.5, 3.5, 0⟩).setPoints [⟨1, 0⟩] = s := h
    rw [← h]
    refine ⟨by norm_num [Scan.setPoints, Scan.setPose, demoBounds, abs_of_pos],
      by norm_num [Scan.setPoints, Scan.setPose, demoBounds, abs_of_pos],
      by norm_num [Scan.setPoints], ?_⟩
    intro q hq
    simp only [Scan.setPoints, List.mem_singleton] at hq
    rw [hq]; norm_num [demoBounds]
  refine ⟨f, g, ⟨pileBag, ⟨false, [pileScan], []⟩, n0, _, pileBag_load _, by simp, by simp, h0, x5⟩,
    pile_inBounds rfl rfl range hcur, ?_⟩
  obtain ⟨f', hf', hst⟩ := pile_step hf hl
  obtain ⟨k, kg, k1, k2, k3, mean, e1, e2, e3, e4, e5, e6, -⟩ := Node.filterScan_ok
    (scan := ((Scan.new 1).setPose ⟨2.5, 3.5, 0⟩).setPoints [⟨1, 0⟩]) (odom := ⟨1, 0, 0⟩) rfl hst
  intro scan odom f'' g'' moved a1 a2 a3 a4
  rw [e1] at a2
  rw [e2] at a3
  cases a1; cases a2; cases a3
  rw [e3] at a4
  cases a4
  obtain ⟨m1, hm1, hpm⟩ := pile_update hf
  have hk : m1 = k1 := by
    cases e1
    have : (Except.ok m1 : Res Filter) = .ok k1 := by
      rw [← e3, ← hm1]
      show _ = f.update noiseFree (Node.control ⟨1.5, 3.5, 0⟩ ⟨2.5, 3.5, 0⟩).x (Node.control ⟨1.5, 3.5, 0⟩ ⟨2.5, 3.5, 0⟩).y
        (Node.control ⟨1.5, 3.5, 0⟩ ⟨2.5, 3.5, 0⟩).theta
      rw [pile_control]
    injection this
  rw [hk] at hpm
  refine ⟨?_, by simp [hpm.particles], ?_⟩
  · intro p hp
    rw [hpm.particles, List.mem_singleton] at hp
    rw [hp]
    norm_num [demoBounds, abs_of_pos]
  · intro w f4 b1 b2
    rw [e4] at b1
    cases b1
    rw [e5] at b2
    cases b2
    exact ⟨mean, e6⟩

end

end Ndt
