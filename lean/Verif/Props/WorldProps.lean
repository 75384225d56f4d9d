import Verif.Proof.World

/-! # In an ideal world the map is the world (C122) -/

namespace Ndt

noncomputable section

open Spec Mapper

theorem square_middle (ox c p : ℝ) (hc : 0 < c) : |ox + ((⌊(p - ox) / c⌋ : ℤ) + 1 / 2) * c - p| ≤ c / 2 := by
  have h1 := Int.floor_le ((p - ox) / c)
  have h2 := Int.lt_floor_add_one ((p - ox) / c)
  rw [le_div_iff₀ hc] at h1
  rw [div_lt_iff₀ hc] at h2
  rw [abs_le]
  constructor <;> linarith

/-- The cell of the hit is not far from the measured point. -/
theorem hit_near (ox oy : ℝ) {c : ℝ} (hc : 0 < c) (p q : Point) {t : List GCell × GCell}
    (ht : Traced (square ox oy c p) (square ox oy c q) t) :
    |(middle ox oy c t.2).x - q.x| ≤ 3 / 2 * c ∧ |(middle ox oy c t.2).y - q.y| ≤ c / 2 := by
  have h := c44_hit_cell_partial _ _ _ ht
  have hx := square_middle ox c q.x hc
  have hy := square_middle oy c q.y hc
  unfold middle
  split at h
  · rw [h]
    refine ⟨?_, hy⟩
    set e := square ox oy c q
    set s := square ox oy c p
    have hs : |((Int.sign (e.1 - s.1) : ℤ) : ℝ)| ≤ 1 := by
      rcases Int.sign_trichotomy (e.1 - s.1) with h | h | h <;> rw [h] <;> norm_num
    have e1 : ox + (((e.1 - (e.1 - s.1).sign : ℤ) : ℝ) + 1 / 2) * c - q.x =
        (ox + ((e.1 : ℝ) + 1 / 2) * c - q.x) - ((e.1 - s.1).sign : ℝ) * c := by push_cast; ring
    show |ox + (((e.1 - (e.1 - s.1).sign : ℤ) : ℝ) + 1 / 2) * c - q.x| ≤ _
    rw [e1]
    refine (abs_sub _ _).trans ?_
    rw [abs_mul, abs_of_pos hc]
    have := mul_le_mul_of_nonneg_right hs hc.le
    have hx' : |ox + ((e.1 : ℝ) + 1 / 2) * c - q.x| ≤ c / 2 := hx
    linarith
  · rw [h]
    refine ⟨?_, hy⟩
    have hx' : |ox + (((square ox oy c q).1 : ℝ) + 1 / 2) * c - q.x| ≤ c / 2 := hx
    linarith

/-- **C122** A mapper without a map to start from, whose scans are placed by odometry, which is exact, as the laser is; the robot
stands while a scan is taken. In every execution and schedule there is one rigid transform, that from the pose of the robot at its
first scan, by which every point of every scan of the map is an obstacle of the world. -/
theorem c122_points_are_obstacles (p : Params) (hf : p.useFilter = false) (hr : 0 < p.resolution) (W : Set Point) (lt : Pose2d)
    (inverted : Bool) (limit : ℝ) (hx : p.rangeMax = .fin limit ∨ p.rangeMax < .fin 0) (enable : Bool) (s t : Sys)
    (es : List Event) (hs : Mapper.start p enable none = .ok s) (h : Exec p (InWorld W lt inverted limit) s es t) :
    t.scans = [] ∨ ∃ o ∈ odometry es, ∀ x ∈ t.scans, Shows W (toEigen o).inverse x := by
  obtain ⟨T, os, h1, h2, -⟩ := world_exec hf hr hx hs h
  have hsc := h1.scans
  cases os with
  | nil => left; exact List.forall₂_nil_left_iff.mp hsc
  | cons o os =>
    right
    refine ⟨o, h1.part.subset List.mem_cons_self, ?_⟩
    have hT : T = (toEigen o).inverse := by
      have hfi := h1.first
      cases hx : t.scans with
      | nil => rw [hx] at hsc; cases hsc
      | cons x xs =>
        rw [hx] at hsc hfi
        cases hsc with
        | cons hp _ =>
          have := hfi x rfl
          rw [this] at hp
          have := (mapToOdom_iff _ _ _).mpr hp
          rw [← this]
          unfold mapToOdom Iso.mul toEigen Iso.inverse
          simp [Pose2d.zero]
    rw [← hT]
    exact h2.scans

/-- **C122** And of whatever occupancy grid has been published: where it says occupied there is an obstacle, within a cell and a
half along the first axis and half a cell along the second; and everywhere it does not say unknown a beam has passed within two
cells, from a place where a scan was taken to an obstacle. For maps of up to 20000 cells in each direction whose scans have points
on all sides. -/
theorem c122_published_grid (p : Params) (hf : p.useFilter = false) (hr : 0 < p.resolution) (hth : 0 ≤ p.occThresh)
    (W : Set Point) (lt : Pose2d) (inverted : Bool) (limit : ℝ) (hx : p.rangeMax = .fin limit ∨ p.rangeMax < .fin 0)
    (enable : Bool) (s t : Sys) (es : List Event) (hs : Mapper.start p enable none = .ok s)
    (h : Exec p (InWorld W lt inverted limit) s es t) (hw : Within (20000 * p.resolution) t.scans)
    (hsur : ∀ x ∈ t.scans, Surrounded x) :
    ∃ T : Iso, (∀ x ∈ t.scans, Shows W T x) ∧ ∀ m, t.lastGrid = some m → ∀ x y : ℕ, x < m.width → y < m.height →
      (m.data[x + y * m.width]? = some 100 → ∃ w ∈ W,
        |(middle m.originX m.originY p.resolution ((x : ℤ), (y : ℤ))).x - (T.apply w).x| ≤ 3 / 2 * p.resolution ∧
        |(middle m.originX m.originY p.resolution ((x : ℤ), (y : ℤ))).y - (T.apply w).y| ≤ p.resolution / 2) ∧
      (m.data[x + y * m.width]? ≠ some (-1) → ∃ w ∈ W, ∃ a ∈ t.scans, ∃ l : ℝ, 0 ≤ l ∧ l ≤ 1 ∧
        |(middle m.originX m.originY p.resolution ((x : ℤ), (y : ℤ))).x - (along ⟨a.pose.x, a.pose.y⟩ (T.apply w) l).x| ≤
          p.resolution ∧
        |(middle m.originX m.originY p.resolution ((x : ℤ), (y : ℤ))).y - (along ⟨a.pose.x, a.pose.y⟩ (T.apply w) l).y| <
          2 * p.resolution) := by
  obtain ⟨T, os, -, h2, g1, g2, prev, g3, -, g5, g6, g7⟩ := world_exec hf hr hx hs h
  refine ⟨T, h2.scans, ?_⟩
  intro m hm x y hxw hyh
  have hb := g6 20000 (by exact_mod_cast hw)
  have hres : 0 < t.grid.resolution := by rw [g1]; exact hr
  have hmod := OccGrid.bounded_moderate hres hb
  obtain ⟨⟨-, b1⟩, ⟨b2, -⟩, ⟨-, b3⟩, b4, -⟩ := hb
  have hcp : CoversPoses t.grid prev := OccGrid.surrounded_covered g5 fun z hz => hsur z (g3.subset hz)
  have hren := g7 m hm
  obtain ⟨-, ts, hts, hval⟩ := c45_cell_values hres (b1.trans b2) (b3.trans b4) hmod g5 hcp hren
  have hmres : m.resolution = p.resolution := by
    rw [OccGrid.covered_render hres (b1.trans b2) (b3.trans b4) hmod g5 hcp] at hren
    injection hren with hren
    rw [← hren]; exact g1
  rw [hmres] at hts
  have hv := hval x y hxw hyh
  -- every trace belongs to an obstacle
  have key : ∀ tr ∈ ts, ∃ w ∈ W, ∃ a ∈ t.scans, Traced (square m.originX m.originY p.resolution ⟨a.pose.x, a.pose.y⟩)
      (square m.originX m.originY p.resolution (T.apply w)) tr := by
    intro tr htr
    obtain ⟨i, hi, rfl⟩ := List.getElem_of_mem htr
    have hlen := hts.length_eq
    have := List.Forall₂.get hts (by omega) hi
    have hmem : (measured prev)[i]'(by omega) ∈ measured prev := List.getElem_mem _
    generalize hq : (measured prev)[i]'(by omega) = q at hmem
    simp only [List.get_eq_getElem, hq] at this
    unfold measured at hmem
    obtain ⟨z, hz, hq'⟩ := List.mem_flatMap.mp hmem
    obtain ⟨pt, hpt, rfl⟩ := List.mem_map.mp hq'
    obtain ⟨w, hw, hww⟩ := h2.scans z (g3.subset hz) pt hpt
    refine ⟨w, hw, z, g3.subset hz, ?_⟩
    rw [hww]; exact this
  constructor
  · intro hocc
    rw [hv] at hocc
    injection hocc with hocc
    have hpos : 0 < ts.countP fun t => t.2 = ((x : ℤ), (y : ℤ)) := by
      by_contra h0
      have h0' : (ts.countP fun t => t.2 = ((x : ℤ), (y : ℤ))) = 0 := by omega
      rw [h0'] at hocc
      unfold valueOf at hocc
      split_ifs at hocc with k1 k2
      · have hq : 0 ≤ t.grid.occThresh := by rw [g2]; exact hth
        have := mul_nonneg hq (Nat.cast_nonneg (α := ℝ) ((ts.flatMap (·.1)).countP fun c => c = ((x : ℤ), (y : ℤ))))
        simp only [Nat.cast_zero, zero_add] at k2
        exact absurd k2 (not_lt.mpr this)
      · exact absurd hocc (by norm_num)
    obtain ⟨tr, htr, he⟩ := List.countP_pos_iff.mp hpos
    have he' : tr.2 = ((x : ℤ), (y : ℤ)) := by simpa using he
    obtain ⟨w, hw, a, -, htrd⟩ := key tr htr
    have := hit_near m.originX m.originY hr _ _ htrd
    rw [he'] at this
    exact ⟨w, hw, this⟩
  · intro hkn
    rw [hv] at hkn
    have hex : ∃ tr ∈ ts, ((x : ℤ), (y : ℤ)) ∈ tr.1 ++ [tr.2] := by
      by_contra hno
      push Not at hno
      apply hkn
      have c1 : (ts.countP fun t => t.2 = ((x : ℤ), (y : ℤ))) = 0 := by
        rw [List.countP_eq_zero]
        intro tr htr he
        have he' : tr.2 = ((x : ℤ), (y : ℤ)) := by simpa using he
        exact hno tr htr (by rw [← he']; simp)
      have c2 : ((ts.flatMap (·.1)).countP fun c => c = ((x : ℤ), (y : ℤ))) = 0 := by
        rw [List.countP_eq_zero]
        intro c hc he
        have he' : c = ((x : ℤ), (y : ℤ)) := by simpa using he
        subst he'
        obtain ⟨tr, htr, hc⟩ := List.mem_flatMap.mp hc
        exact hno tr htr (List.mem_append_left _ hc)
      rw [c1, c2]
      simp [valueOf]
    obtain ⟨tr, htr, hk⟩ := hex
    obtain ⟨w, hw, a, ha, htrd⟩ := key tr htr
    obtain ⟨l, l0, l1, hl⟩ := c118_cells_near_the_beam_partial m.originX m.originY hr _ _ htrd _ hk
    refine ⟨w, hw, a, ha, l, l0, l1, ?_⟩
    rcases hl with ⟨k1, k2⟩ | ⟨k1, k2⟩
    · exact ⟨k1, by linarith⟩
    · exact ⟨by linarith, k2⟩

/-- A robot that stands still a metre from the only obstacle of its world: its map has two scans, each with a point. -/
example : ∃ (t : Sys) (es : List Event), Exec standParams (InWorld {⟨1, 0⟩} Pose2d.zero false 10)
    (demoStart standParams true) es t ∧ t.scans.length = 2 ∧ ∀ x ∈ t.scans, x.points = [⟨1, 0⟩] := by
  obtain ⟨s1, r1, h1⟩ := standing_one
  obtain ⟨s2, r2, h2⟩ := standing_more le_rfl h1
  have hbeam : Honest {⟨1, 0⟩} Pose2d.zero false 10 standLaser := by
    refine ⟨Or.inr rfl, rfl, by simp [oneBeam], ?_⟩
    intro o ho
    injection ho with ho
    subst ho
    refine ⟨Or.inr rfl, ?_⟩
    intro i x hi _
    have : i = 0 ∧ x = 1 := by
      rcases i with _ | i
      · simp [oneBeam] at hi; exact ⟨rfl, hi.symm⟩
      · simp [oneBeam] at hi
    obtain ⟨rfl, rfl⟩ := this
    simp [move, polar, oneBeam, Pose2d.zero]
  refine ⟨s2, [standLaser, .pushScan, .finishScan] ++ standMore, ?_, h2.len, fun x hx => (h2.scans x hx).2.2⟩
  refine Exec.mono (A := fun _ e => ((∀ a b c, e ≠ .loopMatched a b c) ∧ CorrectsNothing e ∧
    (∀ m odom visit, e ≠ .pose m odom visit) ∧ ¬ Loads e) ∧ Honest {⟨1, 0⟩} Pose2d.zero false 10 e) ?_
    ((exec_iff_run _ (fun e => ((∀ a b c, e ≠ .loopMatched a b c) ∧ CorrectsNothing e ∧
    (∀ m odom visit, e ≠ .pose m odom visit) ∧ ¬ Loads e) ∧ Honest {⟨1, 0⟩} Pose2d.zero false 10 e) _ _ _).mpr ⟨?_, ?_⟩)
  · rintro s e ⟨⟨h1, h2⟩, h3⟩
    exact ⟨⟨fun a b c he => absurd he (h1 a b c), h2⟩, h3⟩
  · rw [run_append, r1]; exact r2
  · intro e he
    simp only [standMore, List.mem_append, List.mem_cons, List.not_mem_nil, or_false] at he
    rcases he with (rfl | rfl | rfl) | rfl | rfl | rfl | rfl | rfl | rfl
    all_goals first
      | exact ⟨by simp [standLaser, CorrectsNothing, Loads], hbeam⟩
      | exact ⟨by simp [CorrectsNothing, Loads], trivial⟩

/-- A laser message with a beam of a metre ahead and one behind. -/
def twoBeams : LaserMsg := ⟨0, Real.pi, .fin 10, [.fin 1, .fin 1]⟩

/-- That message from a robot at the origin. -/
def twoLaser : Event := .laser twoBeams (some (Pose2d.zero, false)) (some Pose2d.zero) (some Pose2d.zero)

theorem twoBeams_points : ∃ fps, Laser.points twoBeams (.fin 10) false Pose2d.zero Pose2d.zero Pose2d.zero = .ok fps ∧
    finitePoints fps = .ok [⟨1, 0⟩, ⟨-1, 0⟩] := by
  have h1 : (1 : ℝ) ≤ 10 := by norm_num
  have hv : validBeams 10 twoBeams.ranges = [(0, 1), (1, 1)] := by simp [validBeams, twoBeams, h1]
  refine ⟨_, c47_forward_beams_partial _ _ _ _ _ (by simp [twoBeams]), ?_⟩
  rw [hv, finitePoints_forward]
  simp [move, polar, twoBeams, Pose2d.zero]

/-- A robot between two obstacles: a scan is added and the grid is published. -/
theorem two_published : ∃ t, run standParams (demoStart standParams true)
      [twoLaser, .pushScan, .finishScan, .pubCheck, .pubClear, .pubGrid] = .ok t ∧
    t.scans = [((Scan.new 0).setPose Pose2d.zero).setPoints [⟨1, 0⟩, ⟨-1, 0⟩]] ∧ ∃ m, t.lastGrid = some m := by
  obtain ⟨fps, hf, hp⟩ := twoBeams_points
  set scan := ((Scan.new 0).setPose Pose2d.zero).setPoints [⟨1, 0⟩, ⟨-1, 0⟩] with hscan
  have h1 : step standParams (demoStart standParams true) twoLaser = .ok
      { demoStart standParams true with
        rangeMax := .fin 10, laser := some (Pose2d.zero, false), globalM := some [], localM := some [],
        spin := .append scan Pose2d.zero } := by
    have hr : Laser.latchRangeMax (.fin (-1)) twoBeams = .fin 10 := by simp [Laser.latchRangeMax, twoBeams]
    have e : laserSetup standParams twoBeams (some (Pose2d.zero, false)) (demoStart standParams true) =
        ({ demoStart standParams true with
          rangeMax := .fin 10, laser := some (Pose2d.zero, false), globalM := some [], localM := some [] }, true) := by
      unfold laserSetup
      simp only [demoStart, startWith]
      rw [show standParams.rangeMax = .fin (-1) from rfl, hr]
      simp [standParams, demoParams]
    unfold step twoLaser
    rw [show (demoStart standParams true).spin = .idle from rfl]
    simp only
    unfold laserCallback
    rw [e]
    dsimp only
    rw [if_neg (by simp), if_neg (by simp [demoStart, startWith]), if_neg (by simp [demoStart, startWith, Sys.scans, Graph.new]),
      hf, Res.ok_bind, hp]
    simp [demoStart, startWith, Sys.scans, Graph.new, standParams, demoParams, hscan]
  have hsur : ∀ s ∈ [scan], Surrounded s := by
    intro s hs
    rw [List.mem_singleton.mp hs]
    refine ⟨⟨⟨-1, 0⟩, ?_⟩, ⟨⟨1, 0⟩, ?_⟩, ⟨⟨1, 0⟩, ?_⟩, ⟨⟨1, 0⟩, ?_⟩⟩ <;>
      simp [hscan, Scan.setPoints, Scan.setPose, move, Pose2d.zero]
  have hwi : Within (20000 * standParams.resolution) [scan] := by
    intro q hq
    simp [measured, hscan, Scan.setPoints, Scan.setPose] at hq
    rcases hq with rfl | rfl <;> norm_num [move, Pose2d.zero, standParams, demoParams]
  obtain ⟨g, hg⟩ := c42_growing_history_defined_partial (res := standParams.resolution) (thresh := standParams.occThresh)
    (by norm_num [standParams, demoParams]) (calls := [[scan]]) (by simp) (by
      intro scans hs
      rw [List.mem_singleton.mp hs]
      exact ⟨hwi, hsur⟩)
  unfold gridHistory at hg
  simp only [List.foldlM_cons, List.foldlM_nil] at hg
  obtain ⟨g', hg, -⟩ := bind_ok hg
  obtain ⟨⟨g1, m⟩, hg, -⟩ := bind_ok hg
  have h2 : ∃ u, run standParams { demoStart standParams true with
        rangeMax := .fin 10, laser := some (Pose2d.zero, false), globalM := some [], localM := some [],
        spin := .append scan Pose2d.zero } [.pushScan, .finishScan, .pubCheck, .pubClear] = .ok u ∧
      u.grid = OccGrid.new standParams.resolution standParams.occThresh ∧ u.scans = [scan] ∧ u.pub = .grid :=
    ⟨_, rfl, rfl, rfl, rfl⟩
  obtain ⟨u, hu, hug, hus, hup⟩ := h2
  have h3 : step standParams u .pubGrid = .ok { u with grid := g1, lastGrid := some m, pub := .graph } := by
    unfold step
    rw [hup]
    simp only
    unfold pubGrid
    rw [hug, hus, hg]
    rfl
  refine ⟨{ u with grid := g1, lastGrid := some m, pub := .graph }, ?_, hus, m, rfl⟩
  rw [show ([twoLaser, .pushScan, .finishScan, .pubCheck, .pubClear, .pubGrid] : List Event) =
    twoLaser :: ([.pushScan, .finishScan, .pubCheck, .pubClear] ++ [.pubGrid]) from rfl, run_cons, h1, Res.ok_bind,
    run_append, hu, Res.ok_bind, run_cons, h3]
  rfl

/-- A case of the hypotheses of `c122_published_grid`. -/
example : ∃ (t : Sys) (es : List Event) (m : GridMsg),
    Exec standParams (InWorld {⟨1, 0⟩, ⟨-1, 0⟩} Pose2d.zero false 10) (demoStart standParams true) es t ∧
    Within (20000 * standParams.resolution) t.scans ∧ (∀ x ∈ t.scans, Surrounded x) ∧ t.scans ≠ [] ∧ t.lastGrid = some m := by
  obtain ⟨t, hrun, hsc, m, hm⟩ := two_published
  have hbeam : Honest {⟨1, 0⟩, ⟨-1, 0⟩} Pose2d.zero false 10 twoLaser := by
    refine ⟨Or.inr rfl, rfl, by simp [twoBeams], ?_⟩
    intro o ho
    injection ho with ho
    subst ho
    refine ⟨Or.inr rfl, ?_⟩
    intro i x hi _
    rcases i with _ | _ | i
    · simp [twoBeams] at hi; subst hi; simp [move, polar, twoBeams, Pose2d.zero]
    · simp [twoBeams] at hi; subst hi; simp [move, polar, twoBeams, Pose2d.zero]
    · simp [twoBeams] at hi
  refine ⟨t, [twoLaser, .pushScan, .finishScan, .pubCheck, .pubClear, .pubGrid], m, ?_, ?_, ?_, by rw [hsc]; simp, hm⟩
  · refine Exec.mono (A := fun _ e => ((∀ a b c, e ≠ .loopMatched a b c) ∧ CorrectsNothing e ∧
      (∀ m odom visit, e ≠ .pose m odom visit) ∧ ¬ Loads e) ∧ Honest {⟨1, 0⟩, ⟨-1, 0⟩} Pose2d.zero false 10 e) ?_
      ((exec_iff_run _ (fun e => ((∀ a b c, e ≠ .loopMatched a b c) ∧ CorrectsNothing e ∧
      (∀ m odom visit, e ≠ .pose m odom visit) ∧ ¬ Loads e) ∧ Honest {⟨1, 0⟩, ⟨-1, 0⟩} Pose2d.zero false 10 e) _ _ _).mpr
        ⟨hrun, ?_⟩)
    · rintro s e ⟨⟨h1, h2⟩, h3⟩
      exact ⟨⟨fun a b c he => absurd he (h1 a b c), h2⟩, h3⟩
    · intro e he
      simp only [List.mem_cons, List.not_mem_nil, or_false] at he
      rcases he with rfl | rfl | rfl | rfl | rfl | rfl
      all_goals first
        | exact ⟨by simp [twoLaser, CorrectsNothing, Loads], hbeam⟩
        | exact ⟨by simp [CorrectsNothing, Loads], trivial⟩
  · rw [hsc]
    intro q hq
    simp [measured, Scan.setPoints, Scan.setPose] at hq
    rcases hq with rfl | rfl <;> norm_num [move, Pose2d.zero, standParams, demoParams]
  · rw [hsc]
    intro s hs
    rw [List.mem_singleton.mp hs]
    refine ⟨⟨⟨-1, 0⟩, ?_⟩, ⟨⟨1, 0⟩, ?_⟩, ⟨⟨1, 0⟩, ?_⟩, ⟨⟨1, 0⟩, ?_⟩⟩ <;>
      simp [Scan.setPoints, Scan.setPose, move, Pose2d.zero]

end

end Ndt
