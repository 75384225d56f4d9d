import Verif.Proof.Matcher
import Verif.Props.NdtProps

/-! # C11-C18: the NDT scan matcher -/

namespace Ndt

noncomputable section

open Spec

/-! ### C11 -/

/-- **C11** After a successful `addScans` (positive resolution, non-negative range, at most 2^31 cells) every
point not farther than `range_max` from its robot pose lands in a cell of the map. -/
theorem c11_in_range_points_land_in_the_map {mt mt' : Matcher} {scans : List Scan} {g : NdtGrid}
    (hres : 0 < mt.resolution) (hR : 0 ≤ mt.rangeMax) (h : mt.addScans scans = .ok mt')
    (hg : mt'.ndt = some g) (hsmall : g.sizeX * g.sizeY ≤ 2 ^ 31) (s : Scan) (hs : s ∈ scans) (q : Point)
    (hq : q.x ^ 2 + q.y ^ 2 ≤ mt.rangeMax ^ 2) :
    ∃ i : ℤ, g.getIndex (move s.pose q) = .ok i ∧ 0 ≤ i ∧ i.toNat < g.cells.length := by
  obtain ⟨g0, g', h0, h1, rfl, geo⟩ := addScans_ok h
  simp only [Option.some.injEq] at hg
  subst hg
  obtain ⟨b1, b2, b3, b4⟩ := bbox_bounds mt.rangeMax scans
    { minX := dblMax, maxX := dblMin, minY := dblMax, maxY := dblMin } s hs
  change (Matcher.bbox mt.rangeMax scans).minX ≤ _ at b1
  change _ ≤ (Matcher.bbox mt.rangeMax scans).maxX at b2
  change (Matcher.bbox mt.rangeMax scans).minY ≤ _ at b3
  change _ ≤ (Matcher.bbox mt.rangeMax scans).maxY at b4
  have hw : 0 ≤ (Matcher.bbox mt.rangeMax scans).maxX - (Matcher.bbox mt.rangeMax scans).minX := by linarith
  have hh : 0 ≤ (Matcher.bbox mt.rangeMax scans).maxY - (Matcher.bbox mt.rangeMax scans).minY := by linarith
  obtain ⟨e0, e1, e2, e3, e4⟩ := NdtGrid.new_ok hres hw hh h0
  have hsm : cols ((Matcher.bbox mt.rangeMax scans).maxX - (Matcher.bbox mt.rangeMax scans).minX) mt.resolution *
      cols ((Matcher.bbox mt.rangeMax scans).maxY - (Matcher.bbox mt.rangeMax scans).minY) mt.resolution ≤ 2 ^ 31 := by
    rw [← e3, ← e4, ← geo.sizeX, ← geo.sizeY]; exact hsmall
  obtain ⟨g0', h0', -, hcov⟩ := c06_constructor_covers (ox := (Matcher.bbox mt.rangeMax scans).minX)
    (oy := (Matcher.bbox mt.rangeMax scans).minY) hres hw hh hsm
  rw [h0] at h0'
  cases h0'
  have hdisp : ∀ a b : ℝ, a ^ 2 + b ^ 2 = 1 → |a * q.x + b * q.y| ≤ mt.rangeMax := by
    intro a b hab
    apply abs_le_of_sq_le_sq _ hR
    nlinarith [sq_nonneg (a * q.y - b * q.x), mul_comm a b]
  have d1 := abs_le.mp (hdisp (Real.cos s.pose.theta) (-Real.sin s.pose.theta)
    (by rw [neg_sq]; exact Real.cos_sq_add_sin_sq _))
  have d2 := abs_le.mp (hdisp (Real.sin s.pose.theta) (Real.cos s.pose.theta) (Real.sin_sq_add_cos_sq _))
  have hin0 := hcov (move s.pose q)
    (by simp only [move]; linarith [d1.1]) (by simp only [move]; linarith [d1.2])
    (by simp only [move]; linarith [d2.1]) (by simp only [move]; linarith [d2.2])
  obtain ⟨g0', h0', hwf, -⟩ := NdtGrid.new_wf (ox := (Matcher.bbox mt.rangeMax scans).minX)
    (oy := (Matcher.bbox mt.rangeMax scans).minY) hres hw hh hsm
  rw [h0] at h0'
  cases h0'
  have hin : InExtents g'.originX g'.originY g'.cellSize g'.sizeX g'.sizeY (move s.pose q) := by
    rw [geo.originX, geo.originY, geo.cellSize, geo.sizeX, geo.sizeY, e0, e1, e2]; exact hin0
  have hwg := geo.wf hwf
  have hpx : 0 < g'.sizeX := by rw [geo.sizeX, e3]; simp [cols]
  have hpy : 0 < g'.sizeY := by rw [geo.sizeY, e4]; simp [cols]
  obtain ⟨x, y, -, hx, hy, hi⟩ := NdtGrid.getIndex_inside hwg
    (near_of_inExtents hwg.cellPos hsmall hpx hpy hin) hin
  refine ⟨_, hi, Int.natCast_nonneg _, ?_⟩
  rw [Int.toNat_natCast, hwg.len]
  exact index_lt hx hy

/-- **C11** (why the scan set must not be empty) With no scans the box is inside out and the constructor converts
a huge negative number to `size_t`: undefined behaviour. -/
theorem c11_no_scans_is_undefined (mt : Matcher) (hres : 0 < mt.resolution) (hres2 : mt.resolution < 2 ^ 1000) :
    mt.addScans [] = .error .conversion := by
  unfold Matcher.addScans Matcher.bbox NdtGrid.new
  simp only [List.foldl_nil]
  have h : toU64F (Fl.fin (dblMin - dblMax) / Fl.fin mt.resolution + Fl.fin 1) = .error .conversion := by
    rw [Fl.fin_div hres.ne', Fl.fin_add]
    show toU64 _ = _
    have h1 : dblMin - dblMax < -(2 ^ 1022) := by
      unfold dblMin dblMax
      have a1 : (2⁻¹ : ℝ) ^ 1022 ≤ 1 := pow_le_one₀ (by norm_num) (by norm_num)
      have a2 : (2⁻¹ : ℝ) ^ 52 ≤ 1 / 2 := by norm_num
      have a3 : (2 : ℝ) ^ 1023 = 2 * 2 ^ 1022 := by rw [pow_succ]; ring
      have a4 : (2 : ℝ) ≤ 2 ^ 1022 := by
        calc (2 : ℝ) = 2 ^ 1 := by norm_num
          _ ≤ 2 ^ 1022 := pow_le_pow_right₀ (by norm_num) (by norm_num)
      rw [a3]
      clear a3 hres2
      generalize (2 : ℝ) ^ 1022 = z at *
      generalize (2⁻¹ : ℝ) ^ 1022 = y at *
      generalize (2⁻¹ : ℝ) ^ 52 = x at *
      have a5 := mul_nonneg (sub_nonneg.mpr a2) (by linarith : 0 ≤ z)
      linarith
    have h2 : (dblMin - dblMax) / mt.resolution + 1 ≤ -1 := by
      have : (dblMin - dblMax) / mt.resolution ≤ -2 := by
        rw [div_le_iff₀ hres]
        have a5 : (2 : ℝ) * 2 ^ 1000 ≤ 2 ^ 1022 := by
          calc (2 : ℝ) * 2 ^ 1000 = 2 ^ 1001 := by rw [← pow_succ']
            _ ≤ 2 ^ 1022 := pow_le_pow_right₀ (by norm_num) (by norm_num)
        generalize (2 : ℝ) ^ 1022 = z at *
        generalize (2 : ℝ) ^ 1000 = y at *
        linarith
      linarith
    unfold toU64
    rw [if_neg]
    rintro ⟨h3, -⟩
    have h4 : truncZ ((dblMin - dblMax) / mt.resolution + 1) ≤ -1 := by
      unfold truncZ
      rw [if_neg (by linarith), Int.ceil_le]
      push_cast
      exact h2
    omega
  rw [h]
  rfl

/-! ### C12 -/

/-- **C12** The beams used are `min(laser_max_beams, n)` many, their indices are valid, start at 0 and increase
strictly. -/
theorem c12_beam_indices {n maxBeams : ℕ} (hn : n < 2 ^ 64) :
    let m := min maxBeams n
    (∀ i, i < m → ∃ idx, Matcher.beamIndex n m i = .ok idx ∧ idx < n) ∧
    (0 < m → Matcher.beamIndex n m 0 = .ok 0) ∧
    (∀ i j a b, i < j → j < m → Matcher.beamIndex n m i = .ok a → Matcher.beamIndex n m j = .ok b → a < b) := by
  intro m
  have hmn : m ≤ n := min_le_right _ _
  refine ⟨?_, ?_, ?_⟩
  · intro i hi
    exact ⟨_, beamIndex_eq hi hmn hn, sampleIdx_lt hi (by omega)⟩
  · intro hm
    rw [beamIndex_eq hm hmn hn]; simp [sampleIdx]
  · intro i j a b hij hj ha hb
    rw [beamIndex_eq (by omega) hmn hn] at ha
    rw [beamIndex_eq hj hmn hn] at hb
    cases ha; cases hb
    exact sampleIdx_strictMono (by omega) hmn hij

/-- **C12** With no more points than `laser_max_beams` every point is used, in order. -/
theorem c12_all_beams_used {n maxBeams : ℕ} (hn : n < 2 ^ 64) (h : n ≤ maxBeams) (i : ℕ) (hi : i < n) :
    Matcher.beamIndex n (min maxBeams n) i = .ok i := by
  rw [min_eq_right h, beamIndex_eq hi le_rfl hn]
  simp [sampleIdx, Nat.mul_div_cancel _ (by omega : 0 < n)]

/-- **C12** `scorePoints` and `matchScan` both look at exactly these samples: the points they see are
`min(laser_max_beams, n)` of the scan's points. -/
theorem c12_samples_are_points (ps : List Point) (maxBeams : ℕ) :
    (samples ps (min maxBeams ps.length)).length = min maxBeams ps.length ∧
    (∀ p ∈ samples ps (min maxBeams ps.length), p ∈ ps) ∧
    (ps.length ≤ maxBeams → samples ps (min maxBeams ps.length) = ps) := by
  refine ⟨?_, ?_, ?_⟩
  · rw [samples_eq (min_le_right _ _)]; simp
  · intro p hp
    unfold samples at hp
    rw [List.mem_filterMap] at hp
    obtain ⟨i, -, hi⟩ := hp
    exact List.mem_of_getElem? hi
  · intro h
    rw [min_eq_right h]
    apply List.ext_getElem?
    intro i
    rw [samples_eq le_rfl, List.getElem?_map]
    by_cases hi : i < ps.length
    · rw [List.getElem?_range hi, Option.map_some, ← getElem?_sample hi le_rfl]
      simp [sampleIdx, Nat.mul_div_cancel _ (by omega : 0 < ps.length)]
    · rw [List.getElem?_eq_none (by simpa using hi), List.getElem?_eq_none (by simpa using hi)]
      rfl

example : Matcher.beamIndex 1000 (min 100 1000) 99 = .ok 990 := by
  rw [beamIndex_eq (by norm_num) (by norm_num) (by norm_num)]; rfl

/-! ### C13, C14, C15 -/

/-- The value of one candidate offset: the likelihood of the samples at the offset pose. -/
abbrev candidate (mt : Matcher) (g : NdtGrid) (scan : Scan) (o : Pose2d) : Res Fl :=
  g.likelihoodPoints ((samples scan.points (beamCount mt.laserMaxBeams scan.points.length)).map
    (move (offset scan.pose o)))

/-- **C13** `matchScan` (when it meets no undefined behaviour) returns the best candidate: no offset of the window
has a lower score, the score is that of the offset written to `pose`, or zero with `pose` left alone. A NaN
candidate is never chosen. -/
theorem c13_match_returns_best_candidate {mt : Matcher} {g : NdtGrid} (hg : mt.ndt = some g)
    (hl : 0 < mt.linearRes) (ha : 0 < mt.angularRes) (scan : Scan) (hn : scan.points.length < 2 ^ 64)
    (pose : Pose2d) (cov : Mat3F) {r : Matcher.MatchResult} (h : mt.matchScan scan pose cov = .ok r) :
    ∃ best : Fl, r.score = best / .fin (beamCount mt.laserMaxBeams scan.points.length : ℕ) ∧
      (∀ o, InWindow mt.linearSize mt.linearRes mt.angularSize mt.angularRes o →
        ∃ v, candidate mt g scan o = .ok v ∧ ¬ (-v < best)) ∧
      ((best = .fin 0 ∧ r.pose = pose) ∨
       (best < .fin 0 ∧ InWindow mt.linearSize mt.linearRes mt.angularSize mt.angularRes r.pose ∧
        ∃ v, candidate mt g scan r.pose = .ok v ∧ best = -v)) := by
  unfold Matcher.matchScan at h
  rw [hg] at h
  simp only [Scan.getPoints, Scan.getPose, if_neg (not_endless hl ha)] at h
  rw [search_eq mt hl ha g _ _ (min_le_right _ _) hn] at h
  set a0 : Matcher.SearchAcc :=
    { best := .fin 0, pose := pose, k := fun _ _ => .fin 0, u := fun _ => .fin 0, s := .fin 0 } with ha0
  have hev := foldlM_eval (window mt.linearSize mt.linearRes mt.angularSize mt.angularRes)
    (candLik g (samples scan.points (min mt.laserMaxBeams scan.points.length)) scan.pose)
    (fun a o v => accUpd a o (-v)) a0
  cases hs : (window mt.linearSize mt.linearRes mt.angularSize mt.angularRes).foldlM
      (fun a o => do
        let v ← candLik g (samples scan.points (min mt.laserMaxBeams scan.points.length)) scan.pose o
        (pure (accUpd a o (-v)) : Res _)) a0 with
  | error e => rw [hs] at h; cases h
  | ok a =>
    rw [hs] at h
    cases h
    have hok := hev.2 a hs
    classical
    let w : Pose2d → Fl := fun o =>
      if ho : ∃ v, candLik g (samples scan.points (min mt.laserMaxBeams scan.points.length)) scan.pose o = .ok v
      then ho.choose else .nan
    have hw : ∀ o ∈ window mt.linearSize mt.linearRes mt.angularSize mt.angularRes,
        candLik g (samples scan.points (min mt.laserMaxBeams scan.points.length)) scan.pose o = .ok (w o) := by
      intro o ho
      have hex := hok o ho
      simp only [w, dif_pos hex]
      exact hex.choose_spec
    have hfold := hev.1 w hw
    rw [hs] at hfold
    have ea : a = List.foldl (fun s x => accUpd s x (-(w x))) a0
        (window mt.linearSize mt.linearRes mt.angularSize mt.angularRes) := by injection hfold
    obtain ⟨h1, h2, h3⟩ := foldl_best (window mt.linearSize mt.linearRes mt.angularSize mt.angularRes)
      (fun o => -(w o)) a0
    rw [← ea] at h1 h2 h3
    refine ⟨a.best, rfl, ?_, ?_⟩
    · intro o ho
      have hm := (mem_window _ _ _ _ hl ha o).mpr ho
      exact ⟨w o, hw o hm, h2 o hm⟩
    · rcases h3 with ⟨e1, e2⟩ | ⟨e1, e2, e3⟩
      · exact Or.inl ⟨e1, e2⟩
      · exact Or.inr ⟨e1, (mem_window _ _ _ _ hl ha _).mp e2, w a.pose, hw _ e2, e3⟩

/-- **C13** The only undefined behaviour of `matchScan` is that of evaluating a candidate. -/
theorem c13_match_defined {mt : Matcher} {g : NdtGrid} (hg : mt.ndt = some g)
    (hl : 0 < mt.linearRes) (ha : 0 < mt.angularRes) (scan : Scan) (hn : scan.points.length < 2 ^ 64)
    (pose : Pose2d) (cov : Mat3F)
    (hok : ∀ o, InWindow mt.linearSize mt.linearRes mt.angularSize mt.angularRes o →
      ∃ v, candidate mt g scan o = .ok v) :
    ∃ r, mt.matchScan scan pose cov = .ok r := by
  classical
  unfold Matcher.matchScan
  rw [hg]
  simp only [Scan.getPoints, Scan.getPose, if_neg (not_endless hl ha)]
  rw [search_eq mt hl ha g _ _ (min_le_right _ _) hn]
  let w : Pose2d → Fl := fun o =>
    if ho : ∃ v, candidate mt g scan o = .ok v then ho.choose else .nan
  have hw : ∀ o ∈ window mt.linearSize mt.linearRes mt.angularSize mt.angularRes,
      candLik g (samples scan.points (min mt.laserMaxBeams scan.points.length)) scan.pose o = .ok (w o) := by
    intro o ho
    have hex := hok o ((mem_window _ _ _ _ hl ha o).mp ho)
    simp only [w, dif_pos hex]
    exact hex.choose_spec
  rw [(foldlM_eval _ _ (fun a o v => accUpd a o (-v)) _).1 w hw]
  exact ⟨_, rfl⟩

/-- **C14** A correction written by `matchScan` is inside the window: `-size ≤ d < size` in every component, on
the search grid. Otherwise the caller's pose is untouched. -/
theorem c14_correction_inside_window {mt : Matcher} {g : NdtGrid} (hg : mt.ndt = some g)
    (hl : 0 < mt.linearRes) (ha : 0 < mt.angularRes) (scan : Scan) (hn : scan.points.length < 2 ^ 64)
    (pose : Pose2d) (cov : Mat3F) {r : Matcher.MatchResult} (h : mt.matchScan scan pose cov = .ok r) :
    r.pose = pose ∨
    ((∃ k : ℕ, r.pose.x = -mt.linearSize + k * mt.linearRes) ∧
     (∃ k : ℕ, r.pose.y = -mt.linearSize + k * mt.linearRes) ∧
     (∃ k : ℕ, r.pose.theta = -mt.angularSize + k * mt.angularRes) ∧
     (-mt.linearSize ≤ r.pose.x ∧ r.pose.x < mt.linearSize) ∧
     (-mt.linearSize ≤ r.pose.y ∧ r.pose.y < mt.linearSize) ∧
     (-mt.angularSize ≤ r.pose.theta ∧ r.pose.theta < mt.angularSize)) := by
  obtain ⟨best, -, -, h3⟩ := c13_match_returns_best_candidate hg hl ha scan hn pose cov h
  rcases h3 with ⟨-, e⟩ | ⟨-, ⟨⟨k1, e1, l1⟩, ⟨k2, e2, l2⟩, k3, e3, l3⟩, -⟩
  · exact Or.inl e
  · refine Or.inr ⟨⟨k1, e1⟩, ⟨k2, e2⟩, ⟨k3, e3⟩, ⟨?_, l1⟩, ⟨?_, l2⟩, ?_, l3⟩
    · rw [e1]; have : (0 : ℝ) ≤ k1 * mt.linearRes := by positivity
      linarith
    · rw [e2]; have : (0 : ℝ) ≤ k2 * mt.linearRes := by positivity
      linarith
    · rw [e3]; have : (0 : ℝ) ≤ k3 * mt.angularRes := by positivity
      linarith

/-- **C15** When the window sizes are positive multiples of the resolutions, the score of the match is not worse
than the score of the scan where it is. -/
theorem c15_match_not_worse_than_score {mt : Matcher} {g : NdtGrid} (hg : mt.ndt = some g)
    (hl : 0 < mt.linearRes) (ha : 0 < mt.angularRes) (nl na : ℕ) (hnl : 0 < nl) (hna : 0 < na)
    (hls : mt.linearSize = nl * mt.linearRes) (has : mt.angularSize = na * mt.angularRes)
    (scan : Scan) (hn : scan.points.length < 2 ^ 64)
    (pose : Pose2d) (cov : Mat3F) {r : Matcher.MatchResult} (h : mt.matchScan scan pose cov = .ok r) :
    ∃ sc, mt.scoreScan scan = .ok sc ∧ ¬ (sc < r.score) := by
  obtain ⟨best, e1, h2, h3⟩ := c13_match_returns_best_candidate hg hl ha scan hn pose cov h
  have hnl' : (0 : ℝ) < nl := by exact_mod_cast hnl
  have hna' : (0 : ℝ) < na := by exact_mod_cast hna
  have hz : InWindow mt.linearSize mt.linearRes mt.angularSize mt.angularRes ⟨0, 0, 0⟩ := by
    have hL : OnGrid mt.linearSize mt.linearRes 0 := ⟨nl, by rw [hls]; ring, by rw [hls]; positivity⟩
    have hA : OnGrid mt.angularSize mt.angularRes 0 := ⟨na, by rw [has]; ring, by rw [has]; positivity⟩
    exact ⟨hL, hL, hA⟩
  obtain ⟨v, hv, hvb⟩ := h2 _ hz
  have hoff : offset scan.pose ⟨0, 0, 0⟩ = scan.pose := by simp [offset]
  unfold candidate at hv
  rw [hoff] at hv
  refine ⟨-v / .fin (beamCount mt.laserMaxBeams scan.points.length : ℕ), ?_, ?_⟩
  · unfold Matcher.scoreScan Scan.getPoints Scan.getPose
    rw [scorePoints_eq mt g hg _ hn]
    unfold beamCount at hv
    rw [hv]
    rfl
  · rw [e1]
    have hb : ∃ b, best = .fin b ∨ best = .ninf := by
      rcases h3 with ⟨e, -⟩ | ⟨e, -⟩
      · exact ⟨0, Or.inl e⟩
      · cases hbest : best with
        | nan => rw [hbest] at e; exact absurd e (Fl.nan_lt _)
        | pinf => rw [hbest] at e; exact e.elim
        | ninf => exact ⟨0, Or.inr rfl⟩
        | fin x => exact ⟨x, Or.inl rfl⟩
    generalize beamCount mt.laserMaxBeams scan.points.length = m at *
    intro hcon
    by_cases hm : m = 0
    · subst hm
      have hno : ∀ p ∈ (samples scan.points 0), False := by simp [samples]
      have : samples scan.points 0 = [] := by simp [samples]
      rw [this] at hv
      have hv0 : v = .fin 0 := by
        have : (Except.ok (Fl.fin 0) : Res Fl) = .ok v := hv
        injection this with this
        exact this.symm
      subst hv0
      simp only [Fl.fin_neg, neg_zero, Nat.cast_zero, Fl.zero_div_zero] at hcon
      exact Fl.nan_lt _ hcon
    · have hm' : (0 : ℝ) < m := by exact_mod_cast Nat.pos_of_ne_zero hm
      obtain ⟨b, hb | hb⟩ := hb
      · subst hb
        rw [Fl.fin_div hm'.ne'] at hcon
        generalize hnv : -v = nv at *
        cases nv with
        | nan => rw [Fl.nan_div] at hcon; exact Fl.nan_lt _ hcon
        | pinf =>
          have : (Fl.pinf / Fl.fin (m : ℝ) : Fl) = .pinf := by
            show Fl.div _ _ = _
            simp [Fl.div, hm'.le]
          rw [this] at hcon
          exact hcon.elim
        | ninf => exact hvb trivial
        | fin x =>
          rw [Fl.fin_div hm'.ne'] at hcon
          apply hvb
          have : x / m < b / m := hcon
          show x < b
          rwa [div_lt_div_iff_of_pos_right hm'] at this
      · subst hb
        have : (Fl.ninf / Fl.fin (m : ℝ) : Fl) = .ninf := by
          show Fl.div _ _ = _
          simp [Fl.div, hm'.le]
        rw [this] at hcon
        generalize -v / Fl.fin (m : ℝ) = z at hcon
        cases z <;> exact hcon.elim

/-- The default parameters (0.05 m in steps of 0.005 m, 0.1 rad in steps of 0.0025 rad) meet the hypotheses of
C13-C15, and the zero offset is in the window. -/
example : (0.05 : ℝ) = (10 : ℕ) * 0.005 ∧ (0.1 : ℝ) = (40 : ℕ) * 0.0025 ∧
    InWindow 0.05 0.005 0.1 0.0025 ⟨0, 0, 0⟩ := by
  refine ⟨by norm_num, by norm_num, ⟨10, by norm_num, by norm_num⟩, ⟨10, by norm_num, by norm_num⟩,
    40, by norm_num, by norm_num⟩

/-! ### C17 -/

/-- Whether a matcher holds a map after some calls: the last call decides. -/
def hasMap : List MatcherOp → Bool
  | [] => false
  | ops => match ops.getLast? with
    | some (.addScans _) => true
    | _ => false

/-- **C17** Before `addScans` and after `reset`, whatever was called before, `matchScan` returns 0 and leaves the
caller's pose and covariance alone, and scoring returns 0. -/
theorem c17_matcher_without_map_is_inert (mt mt' : Matcher) (h0 : mt.ndt = none) (ops : List MatcherOp)
    (h : mt.run ops = .ok mt') (hm : hasMap ops = false) (scan : Scan) (pose : Pose2d) (cov : Mat3F)
    (pts : List Point) (at_ : Pose2d) :
    mt'.matchScan scan pose cov = .ok { score := .fin 0, pose := pose, covariance := cov } ∧
    mt'.scoreScan scan = .ok (.fin 0) ∧ mt'.scorePoints pts at_ = .ok (.fin 0) := by
  have hnone : mt'.ndt = none := by
    rcases List.eq_nil_or_concat ops with rfl | ⟨l, op, rfl⟩
    · cases h; exact h0
    · unfold Matcher.run at h
      rw [List.concat_eq_append, List.foldlM_append] at h
      cases hl : l.foldlM Matcher.step mt with
      | error e => rw [hl] at h; cases h
      | ok m1 =>
        rw [hl] at h
        cases op with
        | reset => cases h; rfl
        | addScans s =>
          exfalso
          rw [List.concat_eq_append] at hm
          cases l with
          | nil => simp [hasMap] at hm
          | cons a l =>
            simp only [List.cons_append, hasMap] at hm
            rw [← List.cons_append, List.getLast?_append] at hm
            simp at hm
  refine ⟨?_, ?_, ?_⟩
  · unfold Matcher.matchScan; rw [hnone]
  · unfold Matcher.scoreScan Matcher.scorePoints; rw [hnone]
  · unfold Matcher.scorePoints; rw [hnone]

/-- **C17** Conversely, right after `addScans` there is a map. -/
theorem c17_addScans_makes_map (mt mt' : Matcher) (scans : List Scan) (h : mt.addScans scans = .ok mt') :
    ∃ g, mt'.ndt = some g := by
  obtain ⟨g0, g, -, -, rfl, -⟩ := addScans_ok h
  exact ⟨g, rfl⟩

/-! ### C16, C18: maps on which every candidate is a number -/

/-- A map built by `addScans` from at least one scan, small enough to index, with no far-away point and no square
of five or more identical points. -/
structure GoodMap (mt : Matcher) (scans : List Scan) (mt' : Matcher) (g : NdtGrid) : Prop where
  res : 0 < mt.resolution
  range : 0 ≤ mt.rangeMax
  ne : scans ≠ []
  ok : mt.addScans scans = .ok mt'
  ndt : mt'.ndt = some g
  small : g.sizeX * g.sizeY ≤ 2 ^ 31
  near : ∀ p ∈ mapPoints (scans.map .addScan), Near g.originX g.originY g.cellSize p
  nodeg : NoDegenerateSquare g.originX g.originY g.cellSize (mapPoints (scans.map .addScan))

/-- Every sample is less than 2^32 cells from the map's origin at the pose with offset `o`. -/
def NearAt (mt : Matcher) (g : NdtGrid) (scan : Scan) (o : Pose2d) : Prop :=
  ∀ p ∈ samples scan.points (beamCount mt.laserMaxBeams scan.points.length),
    Near g.originX g.originY g.cellSize (move (offset scan.pose o) p)

theorem GoodMap.params {mt : Matcher} {scans : List Scan} {mt' : Matcher} {g : NdtGrid}
    (h : GoodMap mt scans mt' g) :
    ∃ sx sy, 0 ≤ sx ∧ 0 ≤ sy ∧ 0 < g.cellSize ∧ cols sx g.cellSize * cols sy g.cellSize ≤ 2 ^ 31 ∧
      (NdtGrid.new g.cellSize sx sy g.originX g.originY >>= fun g => g.run (scans.map .addScan ++ [.compute])) =
        .ok g ∧ g.sizeX = cols sx g.cellSize ∧ g.sizeY = cols sy g.cellSize := by
  obtain ⟨g0, g', h0, h1, e, geo⟩ := addScans_ok h.ok
  have : g' = g := by
    have := h.ndt
    rw [e] at this
    simpa using this
  subst this
  obtain ⟨s, hs⟩ := List.exists_mem_of_ne_nil _ h.ne
  obtain ⟨b1, b2, b3, b4⟩ := bbox_bounds mt.rangeMax scans
    { minX := dblMax, maxX := dblMin, minY := dblMax, maxY := dblMin } s hs
  change (Matcher.bbox mt.rangeMax scans).minX ≤ _ at b1
  change _ ≤ (Matcher.bbox mt.rangeMax scans).maxX at b2
  change (Matcher.bbox mt.rangeMax scans).minY ≤ _ at b3
  change _ ≤ (Matcher.bbox mt.rangeMax scans).maxY at b4
  have hR := h.range
  have hw : 0 ≤ (Matcher.bbox mt.rangeMax scans).maxX - (Matcher.bbox mt.rangeMax scans).minX := by linarith
  have hh : 0 ≤ (Matcher.bbox mt.rangeMax scans).maxY - (Matcher.bbox mt.rangeMax scans).minY := by linarith
  obtain ⟨e0, e1, e2, e3, e4⟩ := NdtGrid.new_ok h.res hw hh h0
  have f0 := geo.cellSize.trans e0
  have f1 := geo.originX.trans e1
  have f2 := geo.originY.trans e2
  have f3 := geo.sizeX.trans e3
  have f4 := geo.sizeY.trans e4
  refine ⟨_, _, hw, hh, by rw [f0]; exact h.res, ?_, ?_, by rw [f0]; exact f3, by rw [f0]; exact f4⟩
  · rw [f0, ← f3, ← f4]; exact h.small
  · rw [f0, f1, f2, h0]; exact h1

theorem GoodMap.candidate_number {mt : Matcher} {scans : List Scan} {mt' : Matcher} {g : NdtGrid}
    (h : GoodMap mt scans mt' g) (scan : Scan) (o : Pose2d) (hn : NearAt mt' g scan o) :
    ∃ v : ℝ, candidate mt' g scan o = .ok (.fin v) ∧ 0 ≤ v ∧
      v ≤ beamCount mt'.laserMaxBeams scan.points.length := by
  obtain ⟨sx, sy, hx, hy, hc, hsm, hg, -, -⟩ := h.params
  have hl := (c09_list_likelihood hc hx hy hsm _ h.near h.nodeg hg
    ((samples scan.points (beamCount mt'.laserMaxBeams scan.points.length)).map (move (offset scan.pose o)))
    (by
      intro p hp
      obtain ⟨q, hq, rfl⟩ := List.mem_map.mp hp
      exact hn q hq)).1
  obtain ⟨v, hv, h0, h1⟩ := hl
  refine ⟨v, hv, h0, h1.trans ?_⟩
  classical
  have h2 := (List.countP_le_length (p := fun p => decide (InExtents g.originX g.originY g.cellSize
    (cols sx g.cellSize) (cols sy g.cellSize) p))
    (l := (samples scan.points (beamCount mt'.laserMaxBeams scan.points.length)).map (move (offset scan.pose o))))
  rw [List.length_map, show beamCount mt'.laserMaxBeams scan.points.length =
    min mt'.laserMaxBeams scan.points.length from rfl, (c12_samples_are_points _ _).1] at h2
  exact_mod_cast h2

/-- **C18** On such a map, scores of a scan with at least one beam to use are numbers in [-1, 0]: `scoreScan` ... -/
theorem c18_score_normalised_partial {mt : Matcher} {scans : List Scan} {mt' : Matcher} {g : NdtGrid}
    (h : GoodMap mt scans mt' g) (scan : Scan) (hn : scan.points.length < 2 ^ 64)
    (hb : 0 < beamCount mt'.laserMaxBeams scan.points.length) (hnear : NearAt mt' g scan ⟨0, 0, 0⟩) :
    ∃ v : ℝ, mt'.scoreScan scan = .ok (.fin v) ∧ -1 ≤ v ∧ v ≤ 0 := by
  obtain ⟨v, hv, h0, h1⟩ := h.candidate_number scan ⟨0, 0, 0⟩ hnear
  have hoff : offset scan.pose ⟨0, 0, 0⟩ = scan.pose := by simp [offset]
  unfold candidate at hv
  rw [hoff] at hv
  have hb' : (0 : ℝ) < (beamCount mt'.laserMaxBeams scan.points.length : ℕ) := by exact_mod_cast hb
  refine ⟨-v / (beamCount mt'.laserMaxBeams scan.points.length : ℕ), ?_, ?_, ?_⟩
  · unfold Matcher.scoreScan Scan.getPoints Scan.getPose
    rw [scorePoints_eq mt' g h.ndt _ hn]
    unfold beamCount at hv hb'
    rw [hv]
    simp only [Res.ok_bind, Fl.fin_neg]
    rw [Fl.fin_div hb'.ne']
    rfl
  · rw [le_div_iff₀ hb']; linarith
  · exact div_nonpos_of_nonpos_of_nonneg (by linarith) hb'.le

/-- **C18** ... and `matchScan`. -/
theorem c18_match_normalised_partial {mt : Matcher} {scans : List Scan} {mt' : Matcher} {g : NdtGrid}
    (h : GoodMap mt scans mt' g) (hl : 0 < mt'.linearRes) (ha : 0 < mt'.angularRes) (scan : Scan)
    (hn : scan.points.length < 2 ^ 64) (hb : 0 < beamCount mt'.laserMaxBeams scan.points.length)
    (hnear : ∀ o, InWindow mt'.linearSize mt'.linearRes mt'.angularSize mt'.angularRes o → NearAt mt' g scan o)
    (pose : Pose2d) (cov : Mat3F) :
    ∃ r, mt'.matchScan scan pose cov = .ok r ∧ ∃ v : ℝ, r.score = .fin v ∧ -1 ≤ v ∧ v ≤ 0 := by
  obtain ⟨r, hr⟩ := c13_match_defined h.ndt hl ha scan hn pose cov (fun o ho => by
    obtain ⟨v, hv, -⟩ := h.candidate_number scan o (hnear o ho)
    exact ⟨_, hv⟩)
  refine ⟨r, hr, ?_⟩
  obtain ⟨best, e1, h2, h3⟩ := c13_match_returns_best_candidate h.ndt hl ha scan hn pose cov hr
  have hb' : (0 : ℝ) < (beamCount mt'.laserMaxBeams scan.points.length : ℕ) := by exact_mod_cast hb
  rcases h3 with ⟨e, -⟩ | ⟨-, hw, v, hv, e⟩
  · refine ⟨0, ?_, by norm_num, le_rfl⟩
    rw [e1, e, Fl.fin_div hb'.ne', zero_div]
  · obtain ⟨v', hv', h0, h1⟩ := h.candidate_number scan r.pose (hnear _ hw)
    rw [hv] at hv'
    cases hv'
    refine ⟨-v' / (beamCount mt'.laserMaxBeams scan.points.length : ℕ), ?_, ?_, ?_⟩
    · rw [e1, e, Fl.fin_neg, Fl.fin_div hb'.ne']
    · rw [le_div_iff₀ hb']; linarith
    · exact div_nonpos_of_nonpos_of_nonneg (by linarith) hb'.le

/-- **C18** (refuted) A scan without points scores 0/0 = NaN on every map, for `scoreScan` and `matchScan`. -/
theorem c18_empty_scan_scores_nan {mt : Matcher} {g : NdtGrid} (hg : mt.ndt = some g)
    (hl : 0 < mt.linearRes) (ha : 0 < mt.angularRes) (scan : Scan) (he : scan.points = [])
    (pose : Pose2d) (cov : Mat3F) :
    mt.scoreScan scan = .ok .nan ∧
    ∃ r, mt.matchScan scan pose cov = .ok r ∧ r.score = .nan ∧ r.pose = pose := by
  have hb : beamCount mt.laserMaxBeams scan.points.length = 0 := by simp [beamCount, he]
  have hcand : ∀ o, candidate mt g scan o = .ok (.fin 0) := by
    intro o
    unfold candidate
    rw [hb]
    simp [samples, NdtGrid.likelihoodPoints]
  constructor
  · unfold Matcher.scoreScan Scan.getPoints Scan.getPose
    rw [scorePoints_eq mt g hg _ (by simp [he]), he]
    simp [samples, NdtGrid.likelihoodPoints]
  · obtain ⟨r, hr⟩ := c13_match_defined hg hl ha scan (by simp [he]) pose cov (fun o _ => ⟨_, hcand o⟩)
    refine ⟨r, hr, ?_⟩
    obtain ⟨best, e1, -, h3⟩ := c13_match_returns_best_candidate hg hl ha scan (by simp [he]) pose cov hr
    rcases h3 with ⟨e, e2⟩ | ⟨hlt, -, v, hv, e⟩
    · exact ⟨by rw [e1, e, hb]; simp, e2⟩
    · exfalso
      rw [hcand] at hv
      cases hv
      rw [e] at hlt
      simp at hlt

/-- Sum over the window of a function weighted by the likelihoods. -/
def wsum (l : List Pose2d) (w f : Pose2d → ℝ) : ℝ := (l.map fun o => f o * w o).sum

/-- Component of an offset: x, y, theta. -/
def comp (i : Fin 3) (o : Pose2d) : ℝ := (![o.x, o.y, o.theta] : Fin 3 → ℝ) i

/-- The covariance that `matchScan` writes when every offset has a nonnegative number as likelihood. -/
theorem match_covariance {mt : Matcher} {g : NdtGrid} (hg : mt.ndt = some g) (hl : 0 < mt.linearRes) (ha : 0 < mt.angularRes)
    (scan : Scan) (hn : scan.points.length < 2 ^ 64) (w : Pose2d → ℝ)
    (hw : ∀ o ∈ window mt.linearSize mt.linearRes mt.angularSize mt.angularRes,
      candidate mt g scan o = .ok (.fin (w o)) ∧ 0 ≤ w o)
    (pose : Pose2d) (cov : Mat3F) {r : Matcher.MatchResult} (hr : mt.matchScan scan pose cov = .ok r) :
    let W := window mt.linearSize mt.linearRes mt.angularSize mt.angularRes
    ((W.map w).sum ≠ 0 → ∀ i j, r.covariance i j =
        .fin (wsum W w (fun o => comp i o * comp j o) / (W.map w).sum +
          wsum W w (comp i) / (W.map w).sum * (wsum W w (comp j) / (W.map w).sum))) ∧
      ((W.map w).sum = 0 → ∀ i j, r.covariance i j = .nan) := by
  intro W
  unfold Matcher.matchScan at hr
  rw [hg] at hr
  simp only [Scan.getPoints, Scan.getPose, if_neg (not_endless hl ha)] at hr
  rw [search_eq mt hl ha g _ _ (min_le_right _ _) hn] at hr
  rw [(foldlM_eval _ (candLik g (samples scan.points (min mt.laserMaxBeams scan.points.length)) scan.pose)
    (fun a o v => accUpd a o (-v)) _).1 (fun o => .fin (w o)) (fun o ho => (hw o ho).1)] at hr
  simp only [Res.ok_bind, Res.pure_eq, Fl.fin_neg] at hr
  set a0 : Matcher.SearchAcc :=
    { best := .fin 0, pose := pose, k := fun _ _ => .fin 0, u := fun _ => .fin 0, s := .fin 0 } with ha0
  obtain ⟨hk, hu, hs⟩ := foldl_sums W (fun o => -w o) a0 (fun _ _ => 0) (fun _ => 0) 0
    (fun _ _ => rfl) (fun _ => rfl) rfl
  have negsum : ∀ f : Pose2d → ℝ, (W.map fun o => f o * -w o).sum = -wsum W w f := by
    intro f
    unfold wsum
    generalize W = l
    induction l with
    | nil => simp
    | cons o l ih => simp only [List.map_cons, List.sum_cons, ih]; ring
  have negsum' : (W.map fun o => -w o).sum = -(W.map w).sum := by
    generalize W = l
    induction l with
    | nil => simp
    | cons o l ih => simp only [List.map_cons, List.sum_cons, ih]; ring
  simp only [zero_add] at hk hu hs
  rw [negsum'] at hs
  have hk' : ∀ i j, (List.foldl (fun a o => accUpd a o (Fl.fin (-w o))) a0 W).k i j =
      .fin (-wsum W w (fun o => comp i o * comp j o)) := by
    intro i j
    rw [hk i j, ← negsum]
    rfl
  have hu' : ∀ i, (List.foldl (fun a o => accUpd a o (Fl.fin (-w o))) a0 W).u i = .fin (-wsum W w (comp i)) := by
    intro i
    rw [hu i, ← negsum]
    rfl
  injection hr with hr
  subst hr
  constructor
  · intro hne i j
    have hne' : -(W.map w).sum ≠ 0 := neg_ne_zero.mpr hne
    have hne2 : -(W.map w).sum * -(W.map w).sum ≠ 0 := mul_ne_zero hne' hne'
    simp only
    rw [hk', hu', hu', hs]
    simp only [Fl.fin_mul]
    rw [Fl.fin_div hne', Fl.fin_div hne2]
    simp only [Fl.fin_mul, Fl.fin_add]
    congr 1
    field_simp
  · intro he i j
    simp only
    have hz : ∀ f : Pose2d → ℝ, wsum W w f = 0 := by
      intro f
      have hall := sum_nonneg_eq_zero w W (fun o ho => (hw o ho).2) he
      unfold wsum
      have : (W.map fun o => f o * w o) = W.map fun _ => 0 := by
        apply List.map_congr_left
        intro o ho
        rw [hall o ho, mul_zero]
      rw [this]; simp
    rw [hk', hs, he, hz]
    rw [neg_zero]
    rw [Fl.pos_div_zero one_pos]
    simp

/-- **C16** What the covariance written by `matchScan` is. With `w` the likelihood of each offset and `S` their
sum: if `S ≠ 0` it is the weighted second moment *plus* the product of the weighted means; if `S = 0` every entry
is NaN. -/
theorem c16_match_covariance_formula {mt : Matcher} {scans : List Scan} {mt' : Matcher} {g : NdtGrid}
    (h : GoodMap mt scans mt' g) (hl : 0 < mt'.linearRes) (ha : 0 < mt'.angularRes) (scan : Scan)
    (hn : scan.points.length < 2 ^ 64)
    (hnear : ∀ o, InWindow mt'.linearSize mt'.linearRes mt'.angularSize mt'.angularRes o → NearAt mt' g scan o)
    (pose : Pose2d) (cov : Mat3F) {r : Matcher.MatchResult} (hr : mt'.matchScan scan pose cov = .ok r) :
    let W := window mt'.linearSize mt'.linearRes mt'.angularSize mt'.angularRes
    ∃ w : Pose2d → ℝ, (∀ o ∈ W, candidate mt' g scan o = .ok (.fin (w o)) ∧ 0 ≤ w o) ∧
      ((W.map w).sum ≠ 0 → ∀ i j, r.covariance i j =
        .fin (wsum W w (fun o => comp i o * comp j o) / (W.map w).sum +
          wsum W w (comp i) / (W.map w).sum * (wsum W w (comp j) / (W.map w).sum))) ∧
      ((W.map w).sum = 0 → ∀ i j, r.covariance i j = .nan) := by
  intro W
  classical
  let w : Pose2d → ℝ := fun o => if ho : NearAt mt' g scan o then (h.candidate_number scan o ho).choose else 0
  have hw : ∀ o ∈ W, candidate mt' g scan o = .ok (.fin (w o)) ∧ 0 ≤ w o := by
    intro o ho
    have hN := hnear o ((mem_window _ _ _ _ hl ha o).mp ho)
    simp only [w, dif_pos hN]
    exact ⟨(h.candidate_number scan o hN).choose_spec.1, (h.candidate_number scan o hN).choose_spec.2.1⟩
  exact ⟨w, hw, match_covariance h.ndt hl ha scan hn w hw pose cov hr⟩

/-- **C16** When there is some overlap the covariance is symmetric and positive semi-definite. -/
theorem c16_match_covariance_psd_partial {mt : Matcher} {scans : List Scan} {mt' : Matcher} {g : NdtGrid}
    (h : GoodMap mt scans mt' g) (hl : 0 < mt'.linearRes) (ha : 0 < mt'.angularRes) (scan : Scan)
    (hn : scan.points.length < 2 ^ 64)
    (hnear : ∀ o, InWindow mt'.linearSize mt'.linearRes mt'.angularSize mt'.angularRes o → NearAt mt' g scan o)
    (pose : Pose2d) (cov : Mat3F) {r : Matcher.MatchResult} (hr : mt'.matchScan scan pose cov = .ok r)
    (hover : ∃ o v, InWindow mt'.linearSize mt'.linearRes mt'.angularSize mt'.angularRes o ∧
      candidate mt' g scan o = .ok (.fin v) ∧ v ≠ 0) :
    ∃ m : Fin 3 → Fin 3 → ℝ, (∀ i j, r.covariance i j = .fin (m i j)) ∧ (∀ i j, m i j = m j i) ∧
      ∀ v : Fin 3 → ℝ, 0 ≤ ∑ i, ∑ j, v i * m i j * v j := by
  obtain ⟨w, hw, h1, -⟩ := c16_match_covariance_formula h hl ha scan hn hnear pose cov hr
  set W := window mt'.linearSize mt'.linearRes mt'.angularSize mt'.angularRes with hW
  have hpos : 0 < (W.map w).sum := by
    have hnn : 0 ≤ (W.map w).sum := by
      apply List.sum_nonneg
      intro x hx
      obtain ⟨o, ho, rfl⟩ := List.mem_map.mp hx
      exact (hw o ho).2
    rcases eq_or_lt_of_le hnn with h0 | h0
    · exfalso
      obtain ⟨o, v, ho, hv, hne⟩ := hover
      have hm := (mem_window _ _ _ _ hl ha o).mpr ho
      have := sum_nonneg_eq_zero w W (fun o ho => (hw o ho).2) h0.symm o hm
      rw [(hw o hm).1] at hv
      cases hv
      exact hne this
    · exact h0
  refine ⟨_, fun i j => h1 hpos.ne' i j, ?_, ?_⟩
  · intro i j
    have : (fun o => comp i o * comp j o) = (fun o => comp j o * comp i o) := by
      funext o; ring
    rw [this]; ring
  · intro v
    have key : ∑ i, ∑ j, v i * (wsum W w (fun o => comp i o * comp j o) / (W.map w).sum +
        wsum W w (comp i) / (W.map w).sum * (wsum W w (comp j) / (W.map w).sum)) * v j =
        (W.map fun o => (v 0 * comp 0 o + v 1 * comp 1 o + v 2 * comp 2 o) ^ 2 * w o).sum / (W.map w).sum +
        (v 0 * (wsum W w (comp 0) / (W.map w).sum) + v 1 * (wsum W w (comp 1) / (W.map w).sum) +
          v 2 * (wsum W w (comp 2) / (W.map w).sum)) ^ 2 := by
      have e : (W.map fun o => (v 0 * comp 0 o + v 1 * comp 1 o + v 2 * comp 2 o) ^ 2 * w o).sum =
          ∑ i, ∑ j, v i * v j * wsum W w (fun o => comp i o * comp j o) := by
        simp only [Fin.sum_univ_three]
        unfold wsum
        generalize W = l
        induction l with
        | nil => simp
        | cons o l ih => simp only [List.map_cons, List.sum_cons, ih]; ring
      rw [e]
      simp only [Fin.sum_univ_three]
      field_simp
      ring
    rw [key]
    apply add_nonneg _ (sq_nonneg _)
    apply div_nonneg _ hpos.le
    apply List.sum_nonneg
    intro x hx
    obtain ⟨o, ho, rfl⟩ := List.mem_map.mp hx
    exact mul_nonneg (sq_nonneg _) (hw o ho).2

/-- Covariance of the offsets weighted by `w` (second moment minus product of the means, Olson 2009). -/
def olsonCov (W : List Pose2d) (w : Pose2d → ℝ) (i j : Fin 3) : ℝ :=
  wsum W w (fun o => comp i o * comp j o) / (W.map w).sum -
    wsum W w (comp i) / (W.map w).sum * (wsum W w (comp j) / (W.map w).sum)

/-- `olsonCov` is the mean of the centred products, as a covariance should be. -/
theorem olsonCov_centred (W : List Pose2d) (w : Pose2d → ℝ) (hS : (W.map w).sum ≠ 0) (i j : Fin 3) :
    olsonCov W w i j =
      wsum W w (fun o => (comp i o - wsum W w (comp i) / (W.map w).sum) *
        (comp j o - wsum W w (comp j) / (W.map w).sum)) / (W.map w).sum := by
  have key : ∀ a b : ℝ, wsum W w (fun o => (comp i o - a) * (comp j o - b)) =
      wsum W w (fun o => comp i o * comp j o) - b * wsum W w (comp i) - a * wsum W w (comp j) +
        a * b * (W.map w).sum := by
    intro a b
    unfold wsum
    clear hS
    induction W with
    | nil => simp
    | cons o l ih => simp only [List.map_cons, List.sum_cons, ih]; ring
  unfold olsonCov
  rw [key]
  field_simp
  ring

/-! A concrete map and scan, showing that the hypotheses above can be met, and refuting C16. -/

/-- Search window of a single offset (-1, -1, -1). -/
def demoMatcher : Matcher :=
  { resolution := 10, angularRes := 2, angularSize := 1, linearRes := 2, linearSize := 1,
    laserMaxBeams := 100, rangeMax := 4, ndt := none }

/-- The scan the map is made of. -/
def demoMapScan : Scan := ⟨0, true, ⟨0, 0, 0⟩, Pose2d.zero, samplePts⟩

/-- The scan to match. -/
def demoScan : Scan := ⟨1, true, ⟨1, 1, 1⟩, Pose2d.zero, [⟨0, 0⟩]⟩

theorem demo_bbox : Matcher.bbox 4 [demoMapScan] = ⟨-4, 4, -4, 4⟩ := by
  have h1 : (1 : ℝ) ≤ dblMax := by
    unfold dblMax
    have a1 : (1 : ℝ) ≤ 2 - 2⁻¹ ^ 52 := by norm_num
    have a2 : (1 : ℝ) ≤ 2 ^ 1023 := one_le_pow₀ (by norm_num)
    generalize (2 : ℝ) ^ 1023 = z at *
    generalize (2 : ℝ) - 2⁻¹ ^ 52 = y at *
    nlinarith
  have h2 : dblMin ≤ 1 := pow_le_one₀ (by norm_num) (by norm_num)
  simp only [Matcher.bbox, demoMapScan, List.foldl_cons, List.foldl_nil, Scan.getPose, zero_sub, zero_add]
  rw [min_eq_left (by linarith), max_eq_left (by linarith)]

theorem demo_points : mapPoints ([demoMapScan].map .addScan) = samplePts := by
  simp [mapPoints, demoMapScan, samplePts, move]

theorem demo_cols : cols 8 10 = 1 := by
  have : ⌊(8 : ℝ) / 10⌋ = 0 := by rw [Int.floor_eq_iff]; norm_num
  simp [cols, this]

theorem demo_near : ∀ p ∈ mapPoints ([demoMapScan].map .addScan), Near (-4) (-4) 10 p := by
  rw [demo_points]
  intro p hp
  simp only [samplePts, List.mem_cons, List.not_mem_nil, or_false] at hp
  rcases hp with rfl | rfl | rfl | rfl | rfl <;> unfold Near <;> norm_num

theorem demo_square : ∀ p ∈ samplePts, square (-4) (-4) 10 p = (0, 0) := by
  intro p hp
  simp only [samplePts, List.mem_cons, List.not_mem_nil, or_false] at hp
  rcases hp with rfl | rfl | rfl | rfl | rfl <;>
    simp only [square, Prod.mk.injEq, Int.floor_eq_iff] <;> norm_num

theorem demo_inSquare : inSquare (-4) (-4) 10 (0, 0) samplePts = samplePts := by
  unfold inSquare
  rw [List.filter_eq_self]
  intro p hp
  simp [demo_square p hp]

/-- The concrete map is a good map. -/
theorem demo_goodMap : ∃ mt' g, GoodMap demoMatcher [demoMapScan] mt' g ∧ g.originX = -4 ∧ g.originY = -4 ∧
    g.cellSize = 10 ∧ mt' = { demoMatcher with ndt := some g } := by
  have hsm : cols 8 10 * cols 8 10 ≤ 2 ^ 31 := by rw [demo_cols]; norm_num
  obtain ⟨g0, hg0, hw, e0, e1, e2, e3, e4, -⟩ := NdtGrid.new_wf (c := 10) (sx := 8) (sy := 8) (ox := -4) (oy := -4)
    (by norm_num) (by norm_num) (by norm_num) hsm
  obtain ⟨g, hg, geo, -⟩ := NdtGrid.run_spec ([demoMapScan].map .addScan ++ [.compute]) hw (by
    rw [e0, e1, e2, mapPoints_append]
    simpa [mapPoints] using demo_near)
  have hbox : Matcher.bbox demoMatcher.rangeMax [demoMapScan] = ⟨-4, 4, -4, 4⟩ := demo_bbox
  have hok : demoMatcher.addScans [demoMapScan] = .ok { demoMatcher with ndt := some g } := by
    rw [addScans_eq, hbox]
    simp only
    have h8 : (4 : ℝ) - -4 = 8 := by norm_num
    rw [h8]
    show ((NdtGrid.new 10 8 8 (-4) (-4) >>= _) >>= _) = _
    rw [hg0]
    simp only [Res.ok_bind]
    rw [hg]
    rfl
  refine ⟨_, g, ⟨by norm_num [demoMatcher], by norm_num [demoMatcher], by simp, hok, rfl, ?_, ?_, ?_⟩, ?_, ?_, ?_, rfl⟩
  · rw [geo.sizeX, geo.sizeY]; exact hw.small
  · rw [geo.originX, geo.originY, geo.cellSize, e0, e1, e2]; exact demo_near
  · rw [geo.originX, geo.originY, geo.cellSize, e0, e1, e2, demo_points]
    intro k
    by_cases hk : k = (0, 0)
    · right
      rw [hk, demo_inSquare]
      exact samplePts_not_allSame
    · left
      have : inSquare (-4) (-4) 10 k samplePts = [] := by
        unfold inSquare
        rw [List.filter_eq_nil_iff]
        intro p hp
        simp only [demo_square p hp, decide_eq_true_eq]
        exact fun h => hk h.symm
      rw [this]; simp
  · rw [geo.originX, e1]
  · rw [geo.originY, e2]
  · rw [geo.cellSize, e0]

theorem demo_window : window 1 2 1 2 = [⟨-1, -1, -1⟩] := by
  have : ⌈(2 : ℝ) * 1 / 2⌉₊ = 1 := by norm_num
  have hg : gridVals 1 2 = [-1] := by
    unfold gridVals
    rw [this]
    simp
  simp [window, hg]

/-- **C16** (refuted) On the concrete map, whose window has a single offset (so that the true covariance is 0),
the covariance written is 2 in every entry: the outer product of the mean is added instead of subtracted. -/
theorem c16_covariance_sign_witness :
    ∃ mt' g r, GoodMap demoMatcher [demoMapScan] mt' g ∧
      mt'.matchScan demoScan Pose2d.zero (fun _ _ => .fin 0) = .ok r ∧
      (∀ i j, r.covariance i j = .fin 2) ∧
      ∃ w : Pose2d → ℝ, (∀ o ∈ window 1 2 1 2, candidate mt' g demoScan o = .ok (.fin (w o)) ∧ 0 < w o) ∧
        ∀ i j, olsonCov (window 1 2 1 2) w i j = 0 := by
  obtain ⟨mt', g, hgood, e1, e2, e0, emt⟩ := demo_goodMap
  have hs : samples demoScan.points (beamCount 100 demoScan.points.length) = [⟨0, 0⟩] := by
    simp [samples, demoScan, beamCount, sampleIdx]
  have hmove : move (offset demoScan.pose ⟨-1, -1, -1⟩) ⟨0, 0⟩ = ⟨0, 0⟩ := by
    simp [move, offset, demoScan]
  have hl : (0 : ℝ) < mt'.linearRes := by rw [emt]; norm_num [demoMatcher]
  have ha : (0 : ℝ) < mt'.angularRes := by rw [emt]; norm_num [demoMatcher]
  have hwin : window mt'.linearSize mt'.linearRes mt'.angularSize mt'.angularRes = [⟨-1, -1, -1⟩] := by
    rw [emt]; exact demo_window
  have hbeams : mt'.laserMaxBeams = 100 := by rw [emt]; rfl
  have near0 : Near (-4) (-4) 10 ⟨0, 0⟩ := by unfold Near; norm_num
  have hnear : ∀ o, InWindow mt'.linearSize mt'.linearRes mt'.angularSize mt'.angularRes o →
      NearAt mt' g demoScan o := by
    intro o ho
    have := (mem_window _ _ _ _ hl ha o).mpr ho
    rw [hwin, List.mem_singleton] at this
    subst this
    unfold NearAt
    rw [hbeams, hs, e0, e1, e2]
    intro p hp
    rw [List.mem_singleton] at hp
    subst hp
    rw [hmove]
    exact near0
  have hlen : demoScan.points.length < 2 ^ 64 := by simp [demoScan]
  -- the one candidate has a positive value
  obtain ⟨sx, sy, hx, hy, hc, hsm, hg, hsx, hsy⟩ := hgood.params
  rw [e0, e1, e2] at hg
  rw [e0] at hc hsm hsx hsy
  have hin : InExtents (-4) (-4) 10 (cols sx 10) (cols sy 10) ⟨0, 0⟩ := by
    have h1 : (1 : ℝ) ≤ cols sx 10 := by exact_mod_cast Nat.succ_le_succ (Nat.zero_le _)
    have h2 : (1 : ℝ) ≤ cols sy 10 := by exact_mod_cast Nat.succ_le_succ (Nat.zero_le _)
    refine ⟨by norm_num, ?_, by norm_num, ?_⟩ <;> simp only <;> linarith
  have hsq : square (-4) (-4) 10 ⟨0, 0⟩ = (0, 0) := demo_square ⟨0, 0⟩ (by simp [samplePts])
  have hpos := (c09_point_likelihood_support hc hx hy hsm _ demo_near hg ⟨0, 0⟩ near0 hin).1
  rw [hsq, demo_points, demo_inSquare] at hpos
  obtain ⟨v, hv, hv0, -⟩ := hpos (by simp [samplePts]) samplePts_not_allSame
  have hcand : candidate mt' g demoScan ⟨-1, -1, -1⟩ = .ok (.fin v) := by
    unfold candidate
    rw [hbeams, hs]
    simp only [List.map_cons, List.map_nil, hmove]
    have := likelihoodPoints_sum g (fun _ => v) [⟨0, 0⟩] (fun p hp => by
      rw [List.mem_singleton] at hp; subst hp; exact hv)
    simpa using this
  obtain ⟨r, hr⟩ := c13_match_defined hgood.ndt hl ha demoScan hlen Pose2d.zero (fun _ _ => .fin 0)
    (fun o ho => by
      have := (mem_window _ _ _ _ hl ha o).mpr ho
      rw [hwin, List.mem_singleton] at this
      subst this
      exact ⟨_, hcand⟩)
  obtain ⟨w, hw, h1, -⟩ := c16_match_covariance_formula hgood hl ha demoScan hlen hnear _ _ hr
  rw [hwin] at hw h1
  have hwv : w ⟨-1, -1, -1⟩ = v := by
    have := (hw ⟨-1, -1, -1⟩ (by simp)).1
    rw [hcand] at this
    cases this
    rfl
  have hcomp : ∀ i, comp i ⟨-1, -1, -1⟩ = -1 := by
    intro i; fin_cases i <;> rfl
  refine ⟨mt', g, r, hgood, hr, ?_, fun _ => v, ?_, ?_⟩
  · intro i j
    rw [h1 (by simp [hwv, hv0.ne'])]
    simp only [wsum, List.map_cons, List.map_nil, List.sum_cons, List.sum_nil, hwv, hcomp, add_zero]
    congr 1
    field_simp
    norm_num
  · intro o ho
    rw [demo_window, List.mem_singleton] at ho
    subst ho
    exact ⟨hcand, hv0⟩
  · intro i j
    rw [demo_window]
    simp only [olsonCov, wsum, List.map_cons, List.map_nil, List.sum_cons, List.sum_nil, hcomp, add_zero]
    field_simp
    norm_num

/-- **C16** Exactly by how much the covariance is off: twice the product of the mean offsets. It agrees with the
score-weighted covariance only where the mean offset vanishes. -/
theorem c16_covariance_error {mt : Matcher} {scans : List Scan} {mt' : Matcher} {g : NdtGrid}
    (h : GoodMap mt scans mt' g) (hl : 0 < mt'.linearRes) (ha : 0 < mt'.angularRes) (scan : Scan)
    (hn : scan.points.length < 2 ^ 64)
    (hnear : ∀ o, InWindow mt'.linearSize mt'.linearRes mt'.angularSize mt'.angularRes o → NearAt mt' g scan o)
    (pose : Pose2d) (cov : Mat3F) {r : Matcher.MatchResult} (hr : mt'.matchScan scan pose cov = .ok r) :
    let W := window mt'.linearSize mt'.linearRes mt'.angularSize mt'.angularRes
    ∃ w : Pose2d → ℝ, (∀ o ∈ W, candidate mt' g scan o = .ok (.fin (w o)) ∧ 0 ≤ w o) ∧
      ((W.map w).sum ≠ 0 → ∀ i j, r.covariance i j =
        .fin (olsonCov W w i j + 2 * (wsum W w (comp i) / (W.map w).sum) * (wsum W w (comp j) / (W.map w).sum))) := by
  intro W
  obtain ⟨w, hw, h1, -⟩ := c16_match_covariance_formula h hl ha scan hn hnear pose cov hr
  refine ⟨w, hw, fun hne i j => ?_⟩
  rw [h1 hne i j]
  congr 1
  unfold olsonCov
  ring

/-- The hypotheses of C11 and C18 are met by the concrete map. -/
example : ∃ mt' g, demoMatcher.addScans [demoMapScan] = .ok mt' ∧ mt'.ndt = some g ∧
    g.sizeX * g.sizeY ≤ 2 ^ 31 ∧ demoMapScan ∈ [demoMapScan] ∧
    0 < beamCount mt'.laserMaxBeams demoScan.points.length ∧ NearAt mt' g demoScan ⟨0, 0, 0⟩ := by
  obtain ⟨mt', g, h, e1, e2, e0, emt⟩ := demo_goodMap
  refine ⟨mt', g, h.ok, h.ndt, h.small, by simp, by rw [emt]; simp [beamCount, demoMatcher, demoScan], ?_⟩
  intro p hp
  have hs : samples demoScan.points (beamCount 100 demoScan.points.length) = [⟨0, 0⟩] := by
    simp [samples, demoScan, beamCount, sampleIdx]
  rw [show mt'.laserMaxBeams = 100 by rw [emt]; rfl, hs, List.mem_singleton] at hp
  subst hp
  rw [e0, e1, e2]
  unfold Near
  simp [move, offset, demoScan]
  norm_num

end

end Ndt
