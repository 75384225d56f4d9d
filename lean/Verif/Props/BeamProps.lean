import Verif.Props.SymmetryProps
import Verif.Props.LaserProps

/-! # C102-C103: beams that are too short, and beams of a laser that is not in the middle of the robot -/

namespace Ndt

noncomputable section

open Spec Laser

/-! ### C102 -/

/-- **C102** (the part that holds) If no range is a number below `range_min`, every point is that of a
measurement. -/
theorem c102_points_are_measurements_partial (msg : LaserMsg) (lo limit : ℝ) (lt a b : Pose2d)
    (hn : ∀ r ∈ msg.ranges, r ≠ .ninf) (hlo : ∀ x, Fl.fin x ∈ msg.ranges → lo ≤ x) :
    ∃ ps, points msg (.fin limit) false lt a b = .ok ps ∧
      ∀ p ∈ ps, ∃ i r, msg.ranges[i]? = some r ∧ Measured lo limit r ∧
        p = forwardPoint msg lt (translation a b) i r := by
  refine ⟨_, c47_forward_beams_partial msg limit lt a b hn, ?_⟩
  intro p hp
  obtain ⟨⟨i, x⟩, hq, rfl⟩ := List.mem_map.mp hp
  unfold validBeams at hq
  obtain ⟨⟨r, j⟩, hr, hv⟩ := List.mem_filterMap.mp hq
  have hmem := List.mk_mem_zipIdx_iff_getElem?.mp hr
  cases r with
  | fin y =>
    simp only at hv
    split at hv
    · rename_i hy
      simp only [Option.some.injEq, Prod.mk.injEq] at hv
      obtain ⟨rfl, rfl⟩ := hv
      exact ⟨j, .fin y, hmem, ⟨y, hlo y (List.mem_of_getElem? hmem), hy, rfl⟩, rfl⟩
    · cases hv
  | nan => cases hv
  | pinf => cases hv
  | ninf => cases hv

/-- **C102** (violated) `range_min` is not looked at: a range of zero, with which drivers mark a beam without an
answer, becomes a point at the place of the laser. -/
theorem c102_zero_range_is_a_point (msg : LaserMsg) (limit : ℝ) (hl : 0 ≤ limit) (lt a : Pose2d) (n : ℕ)
    (hr : msg.ranges = List.replicate n (.fin 0)) :
    (∃ ps, points msg (.fin limit) false lt a a = .ok ps ∧ ps.length = n ∧ ∀ p ∈ ps, IsPoint p ⟨lt.x, lt.y⟩) ∧
      ∀ lo, 0 < lo → ∀ r ∈ msg.ranges, ¬ Measured lo limit r := by
  have hmem : ∀ r ∈ msg.ranges, r = .fin 0 := by
    rw [hr]; exact fun r h => (List.mem_replicate.mp h).2
  constructor
  · refine ⟨_, c47_forward_beams_partial msg limit lt a a (fun r h => by rw [hmem r h]; simp), ?_, ?_⟩
    · rw [List.length_map, hr]
      unfold validBeams
      have : ∀ (n k : ℕ), (((List.replicate n (Fl.fin 0)).zipIdx k).filterMap (validBeam limit)).length = n := by
        intro n
        induction n with
        | zero => intro k; rfl
        | succ n ih =>
          intro k
          rw [List.replicate_succ, List.zipIdx_cons, List.filterMap_cons]
          simp only [validBeam, if_pos hl, List.length_cons]
          rw [ih]
      exact this n 0
    · intro p hp
      obtain ⟨⟨i, x⟩, hq, rfl⟩ := List.mem_map.mp hp
      have hx : x = 0 := by
        unfold validBeams at hq
        obtain ⟨⟨r, j⟩, hrj, hv⟩ := List.mem_filterMap.mp hq
        have h0 := hmem r (List.mem_of_getElem? (List.mk_mem_zipIdx_iff_getElem?.mp hrj))
        subst h0
        simp only [if_pos hl, Option.some.injEq, Prod.mk.injEq] at hv
        exact hv.2.symm
      subst hx
      have := c48_projection_at_rest msg lt a i 0
      simpa [polar, move] using this
  · rintro lo hlo r h ⟨x, h1, -, h3⟩
    rw [hmem r h] at h3
    cases h3
    linarith

/-- A square that holds five or more copies of one point and nothing else answers NaN. -/
theorem MadeOf.likelihood_nan {g : NdtGrid} {pts : List Point} (h : MadeOf g pts) {p : Point}
    (hp : InExtents g.originX g.originY g.cellSize g.sizeX g.sizeY p)
    (h5 : 5 ≤ (inSquare g.originX g.originY g.cellSize (square g.originX g.originY g.cellSize p) pts).length)
    (hs : AllSame (inSquare g.originX g.originY g.cellSize (square g.originX g.originY g.cellSize p) pts)) :
    g.likelihood p = .ok .nan := by
  have hne : ∃ q ∈ pts, InExtents g.originX g.originY g.cellSize g.sizeX g.sizeY q := by
    cases pts with
    | nil => simp [inSquare] at h5
    | cons q l => exact ⟨q, by simp, h.inside q (by simp)⟩
  have pos : ∀ {c o x : ℝ} {n : ℕ}, o ≤ x → x < o + n * c → 0 < n := by
    intro c o x n h1 h2
    by_contra h0
    have : n = 0 := by omega
    subst this
    simp at h2
    linarith
  have hpx := pos hp.1 hp.2.1
  have hpy := pos hp.2.2.1 hp.2.2.2
  obtain ⟨x, y, hsq, hx, hy, hi⟩ := NdtGrid.getIndex_inside h.wf
    (near_of_inExtents h.wf.cellPos h.wf.small hpx hpy hp) hp
  rw [hsq] at h5 hs
  obtain ⟨c, hc, hcell⟩ := h.cells x y hx hy
  have hcell' : g.cells[y * g.sizeX + x]? = some c.compute := hcell
  unfold NdtGrid.likelihood
  rw [hi]
  simp only [Res.ok_bind]
  rw [if_pos (Int.natCast_nonneg _), Int.toNat_natCast, hcell']
  have hd := Cell.Inv.run_new ((inSquare g.originX g.originY g.cellSize ((x : ℤ), (y : ℤ)) pts).map .addPoint)
  rw [pointsOf_map_addPoint] at hd
  rw [hc.compute_eq hd (List.Perm.refl _)]
  have := (c05_cell_score_nan_iff_all_same
    ((inSquare g.originX g.originY g.cellSize ((x : ℤ), (y : ℤ)) pts).map .addPoint)
    (by rw [pointsOf_map_addPoint]; exact h5) p).mpr (by rw [pointsOf_map_addPoint]; exact hs)
  rw [Cell.run_append] at this
  exact congrArg Except.ok this

/-- Inside the map every point has some likelihood. -/
theorem MadeOf.likelihood_ok {g : NdtGrid} {pts : List Point} (h : MadeOf g pts) {p : Point}
    (hp : InExtents g.originX g.originY g.cellSize g.sizeX g.sizeY p) : ∃ v, g.likelihood p = .ok v := by
  have pos : ∀ {c o x : ℝ} {n : ℕ}, o ≤ x → x < o + n * c → 0 < n := by
    intro c o x n h1 h2
    by_contra h0
    have : n = 0 := by omega
    subst this
    simp at h2
    linarith
  have hpx := pos hp.1 hp.2.1
  have hpy := pos hp.2.2.1 hp.2.2.2
  obtain ⟨x, y, hsq, hx, hy, hi⟩ := NdtGrid.getIndex_inside h.wf
    (near_of_inExtents h.wf.cellPos h.wf.small hpx hpy hp) hp
  obtain ⟨c, hc, hcell⟩ := h.cells x y hx hy
  have hcell' : g.cells[y * g.sizeX + x]? = some c.compute := hcell
  unfold NdtGrid.likelihood
  rw [hi]
  simp only [Res.ok_bind]
  rw [if_pos (Int.natCast_nonneg _), Int.toNat_natCast, hcell']
  exact ⟨_, rfl⟩

/-- One NaN makes the sum a NaN. -/
theorem likelihoodPoints_nan {g : NdtGrid} {ps : List Point} (hok : ∀ p ∈ ps, ∃ v, g.likelihood p = .ok v)
    (hn : ∃ p ∈ ps, g.likelihood p = .ok .nan) : g.likelihoodPoints ps = .ok .nan := by
  unfold NdtGrid.likelihoodPoints
  have stay : ∀ l : List Point, (∀ p ∈ l, ∃ v, g.likelihood p = .ok v) →
      l.foldlM (fun score p => do pure (score + (← g.likelihood p))) Fl.nan = (.ok .nan : Res Fl) := by
    intro l
    induction l with
    | nil => intro _; rfl
    | cons p l ih =>
      intro h
      obtain ⟨v, hv⟩ := h p (by simp)
      rw [List.foldlM_cons, hv]
      simp only [Res.ok_bind, Res.pure_eq, Fl.nan_add]
      exact ih fun q hq => h q (by simp [hq])
  have : ∀ (l : List Point) (a : Fl), (∀ p ∈ l, ∃ v, g.likelihood p = .ok v) →
      (∃ p ∈ l, g.likelihood p = .ok .nan) →
      l.foldlM (fun score p => do pure (score + (← g.likelihood p))) a = (.ok .nan : Res Fl) := by
    intro l
    induction l with
    | nil => rintro a - ⟨p, hp, -⟩; simp at hp
    | cons p l ih =>
      rintro a h ⟨q, hq, e⟩
      obtain ⟨v, hv⟩ := h p (by simp)
      rw [List.foldlM_cons, hv]
      simp only [Res.ok_bind, Res.pure_eq]
      rcases List.mem_cons.mp hq with rfl | hq
      · rw [hv] at e
        cases e
        rw [Fl.add_nan]
        exact stay l fun q hq => h q (by simp [hq])
      · exact ih _ (fun q hq => h q (by simp [hq])) ⟨q, hq, e⟩
  exact this ps _ hok hn

/-- **C102** (what it does) If a square of the map holds the laser's own place from five or more beams without an
answer, and nothing else, then a scan that has a point in this square at every candidate pose is not matched: the
result is the pose given, whatever the scan. -/
theorem c102_unanswered_beams_switch_matching_off {mt mt' : Matcher} {scans : List Scan} {g : NdtGrid}
    (hres : 0 < mt.resolution) (hR : 0 ≤ mt.rangeMax) (hne : scans ≠ [])
    (hin : ∀ s ∈ scans, WithinRange mt.rangeMax s)
    (h : mt.addScans scans = .ok mt') (hg : mt'.ndt = some g) (hsmall : g.sizeX * g.sizeY ≤ 2 ^ 31)
    (hl : 0 < mt.linearRes) (ha : 0 < mt.angularRes) (k : ℤ × ℤ)
    (h5 : 5 ≤ (inSquare g.originX g.originY g.cellSize k (pointsInMap scans)).length)
    (hsame : AllSame (inSquare g.originX g.originY g.cellSize k (pointsInMap scans)))
    (scan : Scan) (hn : scan.points.length < 2 ^ 64)
    (hcand : ∀ o, InWindow mt.linearSize mt.linearRes mt.angularSize mt.angularRes o →
      (∀ p ∈ samples scan.points (beamCount mt.laserMaxBeams scan.points.length),
        InExtents g.originX g.originY g.cellSize g.sizeX g.sizeY (move (offset scan.pose o) p)) ∧
      ∃ p ∈ samples scan.points (beamCount mt.laserMaxBeams scan.points.length),
        square g.originX g.originY g.cellSize (move (offset scan.pose o) p) = k)
    (hbeams : 0 < beamCount mt.laserMaxBeams scan.points.length) (pose : Pose2d) (cov : Mat3F) :
    ∃ r, mt'.matchScan scan pose cov = .ok r ∧ r.pose = pose ∧ r.score = .fin 0 := by
  have hsm := small_of_ok hres hR hne h hg hsmall
  obtain ⟨g1, h1, m1, -⟩ := addScans_madeOf hres hR hne hin hsm
  rw [h1] at h
  cases h
  simp only [Option.some.injEq] at hg
  subst hg
  have hnan : ∀ o, InWindow mt.linearSize mt.linearRes mt.angularSize mt.angularRes o →
      candidate { mt with ndt := some g1 } g1 scan o = .ok .nan := by
    intro o ho
    obtain ⟨c1, q, hq, hqs⟩ := hcand o ho
    unfold candidate
    apply likelihoodPoints_nan
    · intro p hp
      obtain ⟨p0, hp0, rfl⟩ := List.mem_map.mp hp
      exact m1.likelihood_ok (c1 p0 hp0)
    · refine ⟨_, List.mem_map.mpr ⟨q, hq, rfl⟩, m1.likelihood_nan (c1 q hq) ?_ ?_⟩
      · rw [hqs]; exact h5
      · rw [hqs]; exact hsame
  obtain ⟨r, hr⟩ := c13_match_defined (mt := { mt with ndt := some g1 }) rfl hl ha scan hn pose cov
    fun o ho => ⟨_, hnan o ho⟩
  refine ⟨r, hr, ?_⟩
  obtain ⟨best, e1, -, e3⟩ := c13_match_returns_best_candidate (mt := { mt with ndt := some g1 }) rfl hl ha scan hn
    pose cov hr
  rcases e3 with ⟨hb, hp⟩ | ⟨hb, hw, v, hv, e⟩
  · refine ⟨hp, ?_⟩
    rw [e1, hb, Fl.fin_div (by exact_mod_cast hbeams.ne'), zero_div]
  · rw [hnan _ hw] at hv
    cases hv
    rw [e] at hb
    simp at hb

/-! ### C103 -/

/-- **C103** (the part that holds) A beam of a resting robot lands in the map if its range and the distance of the
laser from the middle of the robot are together at most `range_max`. -/
theorem c103_beams_land_in_the_map_partial {mt mt' : Matcher} {scans : List Scan} {g : NdtGrid}
    (hres : 0 < mt.resolution) (hR : 0 ≤ mt.rangeMax) (h : mt.addScans scans = .ok mt')
    (hg : mt'.ndt = some g) (hsmall : g.sizeX * g.sizeY ≤ 2 ^ 31) (s : Scan) (hs : s ∈ scans)
    (lt : Pose2d) (angle r : ℝ) (hr : |r| + Spec.dist ⟨lt.x, lt.y⟩ ⟨0, 0⟩ ≤ mt.rangeMax) :
    ∃ i : ℤ, g.getIndex (move s.pose (move lt (polar angle r))) = .ok i ∧ 0 ≤ i ∧ i.toNat < g.cells.length := by
  apply c11_in_range_points_land_in_the_map hres hR h hg hsmall s hs
  have hd : Spec.dist ⟨lt.x, lt.y⟩ ⟨0, 0⟩ = Real.sqrt (lt.x ^ 2 + lt.y ^ 2) := by simp [Spec.dist]
  rw [hd] at hr
  set m := Real.sqrt (lt.x ^ 2 + lt.y ^ 2) with hm
  have hm0 : 0 ≤ m := Real.sqrt_nonneg _
  have hm2 : m ^ 2 = lt.x ^ 2 + lt.y ^ 2 := Real.sq_sqrt (by positivity)
  have hr0 := abs_nonneg r
  have hr2 : |r| ^ 2 = r ^ 2 := sq_abs r
  have c1 := Real.sin_sq_add_cos_sq lt.theta
  have c2 := Real.sin_sq_add_cos_sq angle
  simp only [move, polar]
  set u := Real.cos lt.theta * (r * Real.cos angle) - Real.sin lt.theta * (r * Real.sin angle) with hu
  set v := Real.sin lt.theta * (r * Real.cos angle) + Real.cos lt.theta * (r * Real.sin angle) with hv
  have huv : u ^ 2 + v ^ 2 = r ^ 2 := by
    rw [hu, hv]
    linear_combination r ^ 2 * (Real.sin angle ^ 2 + Real.cos angle ^ 2) * c1 + r ^ 2 * c2
  have hcs : lt.x * u + lt.y * v ≤ m * |r| := by
    have : (lt.x * u + lt.y * v) ^ 2 ≤ (m * |r|) ^ 2 := by
      rw [mul_pow, hm2, hr2, ← huv]
      nlinarith [sq_nonneg (lt.x * v - lt.y * u)]
    exact abs_le_of_sq_le_sq' this (mul_nonneg hm0 hr0) |>.2
  have e : (lt.x + Real.cos lt.theta * (r * Real.cos angle) - Real.sin lt.theta * (r * Real.sin angle)) ^ 2 +
      (lt.y + Real.sin lt.theta * (r * Real.cos angle) + Real.cos lt.theta * (r * Real.sin angle)) ^ 2 =
      m ^ 2 + 2 * (lt.x * u + lt.y * v) + |r| ^ 2 := by
    rw [hm2, hr2, ← huv, hu, hv]; ring
  rw [e]
  nlinarith

/-- **C103** (violated) A laser mounted at least one cell ahead of the middle of the robot: a beam straight ahead
of the full `range_max` is kept by the callback and then lost by the map of its own scan. -/
theorem c103_full_range_beam_is_lost {mt mt' : Matcher} {g : NdtGrid} (d : ℝ) (hres : 0 < mt.resolution)
    (hd : mt.resolution ≤ d) (hd2 : d ≤ mt.rangeMax) (hR : dblMin ≤ mt.rangeMax) (hR2 : mt.rangeMax ≤ dblMax)
    (s : Scan) (hp : s.pose = ⟨0, 0, 0⟩) (h : mt.addScans [s] = .ok mt') (hg : mt'.ndt = some g)
    (hsmall : g.sizeX * g.sizeY ≤ 2 ^ 31) (a : Pose2d) :
    points ⟨0, 0, .fin mt.rangeMax, [.fin mt.rangeMax]⟩ (.fin mt.rangeMax) false ⟨d, 0, 0⟩ a a =
      .ok [(.fin (mt.rangeMax + d), .fin 0)] ∧
    g.getIndex (move s.pose ⟨mt.rangeMax + d, 0⟩) = .ok (-1) := by
  have hR0 : 0 ≤ mt.rangeMax := by linarith
  constructor
  · rw [c47_forward_beams_partial _ _ _ _ _ (by simp)]
    have e : validBeams mt.rangeMax [Fl.fin mt.rangeMax] = [(0, mt.rangeMax)] := by simp [validBeams]
    rw [e]
    have := c48_projection_at_rest ⟨0, 0, .fin mt.rangeMax, [.fin mt.rangeMax]⟩ ⟨d, 0, 0⟩ a 0 mt.rangeMax
    simp only [IsPoint, polar, move] at this
    simp only [List.map_cons, List.map_nil]
    rw [this]
    simp [add_comm]
  · obtain ⟨e3, e4⟩ := c101_size_is_what_is_needed_partial (l := s) (r := s) (d := s) (u := s) hres hR0
      (by
        intro t ht
        rw [List.mem_singleton.mp ht, hp]
        have : (0 : ℝ) ≤ dblMax := by linarith
        exact ⟨this, this⟩)
      (by simp) (by simp) (by simp) (by simp)
      (by intro t ht; rw [List.mem_singleton.mp ht]) (by intro t ht; rw [List.mem_singleton.mp ht])
      (by intro t ht; rw [List.mem_singleton.mp ht]) (by intro t ht; rw [List.mem_singleton.mp ht])
      (by rw [hp]; simpa using hR) (by rw [hp]; simpa using hR) h hg
    have hbox : Matcher.bbox mt.rangeMax [s] = ⟨-mt.rangeMax, mt.rangeMax, -mt.rangeMax, mt.rangeMax⟩ := by
      simp only [Matcher.bbox, List.foldl_cons, List.foldl_nil, Scan.getPose, hp, zero_sub, zero_add]
      rw [min_eq_left (by linarith), max_eq_left (by linarith)]
    obtain ⟨g0, g', h0, -, rfl, geo⟩ := addScans_ok h
    simp only [Option.some.injEq] at hg
    subst hg
    rw [hbox] at h0
    obtain ⟨f0, f1, f2, f3, f4⟩ := NdtGrid.new_ok hres (by simp only; linarith) (by simp only; linarith) h0
    have hc : g'.cellSize = mt.resolution := geo.cellSize.trans f0
    have hox : g'.originX = -mt.rangeMax := geo.originX.trans f1
    have hoy : g'.originY = -mt.rangeMax := geo.originY.trans f2
    have hfl : ((⌊(2 * mt.rangeMax) / mt.resolution⌋.toNat : ℕ) : ℝ) ≤ 2 * mt.rangeMax / mt.resolution := by
      have h1 := Int.floor_le (2 * mt.rangeMax / mt.resolution)
      have h2 : 0 ≤ ⌊2 * mt.rangeMax / mt.resolution⌋ := Int.floor_nonneg.mpr (by positivity)
      have h3 : ((⌊(2 * mt.rangeMax) / mt.resolution⌋.toNat : ℕ) : ℝ) = (⌊2 * mt.rangeMax / mt.resolution⌋ : ℤ) := by
        exact_mod_cast congrArg (Int.cast (R := ℝ)) (Int.toNat_of_nonneg h2)
      rw [h3]; exact h1
    rw [hp, sub_self, zero_add] at e3 e4
    have hsx : (g'.sizeX : ℝ) * mt.resolution ≤ 2 * mt.rangeMax + mt.resolution := by
      rw [e3]
      unfold cols
      push_cast
      have := mul_le_mul_of_nonneg_right hfl hres.le
      rw [div_mul_cancel₀ _ hres.ne'] at this
      linarith
    have hlow : 2 * mt.rangeMax < (g'.sizeX : ℝ) * mt.resolution := by
      rw [e3]
      unfold cols
      push_cast
      have h1 := Int.lt_floor_add_one (2 * mt.rangeMax / mt.resolution)
      have h2 : ((⌊2 * mt.rangeMax / mt.resolution⌋ : ℤ) : ℝ) ≤ ((⌊2 * mt.rangeMax / mt.resolution⌋.toNat : ℕ) : ℝ) := by
        exact_mod_cast Int.self_le_toNat _
      have h3 : 2 * mt.rangeMax / mt.resolution < ((⌊2 * mt.rangeMax / mt.resolution⌋.toNat : ℕ) : ℝ) + 1 := by linarith
      have := mul_lt_mul_of_pos_right h3 hres
      rwa [div_mul_cancel₀ _ hres.ne'] at this
    have hsxn : (g'.sizeX : ℝ) ≤ 2 ^ 31 := by
      have : 0 < g'.sizeY := by rw [e4]; simp [cols]
      exact_mod_cast le_trans (Nat.le_mul_of_pos_right _ this) hsmall
    have hbig := mul_le_mul_of_nonneg_right hsxn hres.le
    apply NdtGrid.getIndex_outside (by rw [hc]; exact hres)
    · rw [hox, hoy, hc, hp]
      simp only [move, Near, Real.cos_zero, Real.sin_zero]
      constructor <;> nlinarith
    · rintro ⟨-, h2, -⟩
      rw [hox, hc, hp] at h2
      simp only [move, Real.cos_zero, Real.sin_zero] at h2
      linarith

/-! ### Concrete cases -/

/-- A message with two measurements and a beam without an answer marked by NaN: two points. -/
example : ∃ ps, points ⟨0, 1, .fin 10, [.fin 3, .nan, .fin 4]⟩ (.fin 10) false ⟨0, 0, 0⟩ ⟨0, 0, 0⟩ ⟨0, 0, 0⟩ = .ok ps ∧
    ∀ p ∈ ps, ∃ i r, ([.fin 3, .nan, .fin 4] : List Fl)[i]? = some r ∧ Measured (1 / 10) 10 r ∧
      p = forwardPoint ⟨0, 1, .fin 10, [.fin 3, .nan, .fin 4]⟩ ⟨0, 0, 0⟩ (translation ⟨0, 0, 0⟩ ⟨0, 0, 0⟩) i r :=
  c102_points_are_measurements_partial _ (1 / 10) 10 _ _ _ (by simp) (by
    intro x hx
    simp only [List.mem_cons, List.not_mem_nil, or_false, Fl.fin.injEq, reduceCtorEq, false_or] at hx
    rcases hx with rfl | rfl <;> norm_num)

/-- The scan of five beams without an answer. -/
def blindScan : Scan := ⟨0, true, ⟨0, 0, 0⟩, Pose2d.zero, List.replicate 5 ⟨0, 0⟩⟩

theorem blind_bbox : Matcher.bbox 4 [blindScan] = ⟨-4, 4, -4, 4⟩ := demo_bbox

/-- Its map, on which the demonstration scan is not matched: the pose given comes back. -/
example : ∃ m g, demoMatcher.addScans [blindScan] = .ok m ∧ m.ndt = some g ∧
    ∀ pose cov, ∃ r, m.matchScan demoScan pose cov = .ok r ∧ r.pose = pose ∧ r.score = .fin 0 := by
  have h8 : (4 : ℝ) - -4 = 8 := by norm_num
  have hin : ∀ s ∈ [blindScan], WithinRange demoMatcher.rangeMax s := by
    intro s hs
    rw [List.mem_singleton.mp hs]
    intro p hp
    rw [(List.mem_replicate.mp hp).2]
    norm_num [demoMatcher]
  obtain ⟨g, h1, m1, e0, e1, e2, e3, e4⟩ := addScans_madeOf (mt := demoMatcher) (scans := [blindScan])
    (by norm_num [demoMatcher]) (by norm_num [demoMatcher]) (by simp) hin (by
      show cols ((Matcher.bbox 4 [blindScan]).maxX - (Matcher.bbox 4 [blindScan]).minX) 10 *
        cols ((Matcher.bbox 4 [blindScan]).maxY - (Matcher.bbox 4 [blindScan]).minY) 10 ≤ 2 ^ 31
      rw [blind_bbox, h8, demo_cols]; norm_num)
  have e1' : g.originX = -4 := e1.trans (congrArg BBox.minX blind_bbox)
  have e2' : g.originY = -4 := e2.trans (congrArg BBox.minY blind_bbox)
  have e0' : g.cellSize = 10 := e0
  have e3' : g.sizeX = 1 := by
    rw [e3]
    show cols ((Matcher.bbox 4 [blindScan]).maxX - (Matcher.bbox 4 [blindScan]).minX) 10 = 1
    rw [blind_bbox, h8, demo_cols]
  have e4' : g.sizeY = 1 := by
    rw [e4]
    show cols ((Matcher.bbox 4 [blindScan]).maxY - (Matcher.bbox 4 [blindScan]).minY) 10 = 1
    rw [blind_bbox, h8, demo_cols]
  have hsq : square (-4) (-4) 10 ⟨0, 0⟩ = (0, 0) := by
    simp only [square, Prod.mk.injEq, Int.floor_eq_iff]; norm_num
  have hpts : pointsInMap [blindScan] = List.replicate 5 ⟨0, 0⟩ := by
    simp [pointsInMap, blindScan, move]
  have hsquare : inSquare g.originX g.originY g.cellSize (0, 0) (pointsInMap [blindScan]) =
      List.replicate 5 ⟨0, 0⟩ := by
    rw [e0', e1', e2', hpts]
    unfold inSquare
    rw [List.filter_eq_self]
    intro p hp
    rw [(List.mem_replicate.mp hp).2]
    simp [hsq]
  refine ⟨_, g, h1, rfl, fun pose cov => ?_⟩
  refine c102_unanswered_beams_switch_matching_off (by norm_num [demoMatcher]) (by norm_num [demoMatcher]) (by simp) hin
    h1 rfl (by rw [e3', e4']; norm_num) (by norm_num [demoMatcher]) (by norm_num [demoMatcher]) (0, 0)
    (by rw [hsquare]; simp) (by rw [hsquare]; exact ⟨⟨0, 0⟩, fun p hp => (List.mem_replicate.mp hp).2⟩) demoScan
    (by norm_num [demoScan]) ?_ (by norm_num [beamCount, demoMatcher, demoScan]) pose cov
  rintro o ⟨⟨k, hk, hk'⟩, ⟨l, hl, hl'⟩, -⟩
  have b1 : -1 ≤ o.x ∧ o.x < 1 := ⟨by rw [hk]; simp only [demoMatcher]; linarith [(Nat.cast_nonneg k : (0 : ℝ) ≤ k)], hk'⟩
  have b2 : -1 ≤ o.y ∧ o.y < 1 := ⟨by rw [hl]; simp only [demoMatcher]; linarith [(Nat.cast_nonneg l : (0 : ℝ) ≤ l)], hl'⟩
  have hs : samples demoScan.points (beamCount demoMatcher.laserMaxBeams demoScan.points.length) = [⟨0, 0⟩] := by
    simp [samples, beamCount, demoMatcher, demoScan, sampleIdx]
  rw [hs, e0', e1', e2', e3', e4']
  have hm : move (offset demoScan.pose o) ⟨0, 0⟩ = ⟨1 + o.x, 1 + o.y⟩ := by simp [move, offset, demoScan]
  constructor
  · intro p hp
    rw [List.mem_singleton.mp hp, hm]
    refine ⟨?_, ?_, ?_, ?_⟩ <;> norm_num <;> linarith [b1.1, b1.2, b2.1, b2.2]
  · refine ⟨⟨0, 0⟩, by simp, ?_⟩
    rw [hm]
    simp only [square, Prod.mk.injEq, Int.floor_eq_iff]
    norm_num
    refine ⟨⟨?_, ?_⟩, ?_, ?_⟩ <;> linarith [b1.1, b1.2, b2.1, b2.2]

/-- A range of 10 m, cells of 25 cm and a laser 30 cm ahead: the beam of 10 m is kept and then lost. -/
example : ∃ m g, ({ demoMatcher with resolution := 1 / 4, rangeMax := 10 } : Matcher).addScans
      [⟨0, true, ⟨0, 0, 0⟩, Pose2d.zero, []⟩] = .ok m ∧ m.ndt = some g ∧
    points ⟨0, 0, .fin 10, [.fin 10]⟩ (.fin 10) false ⟨3 / 10, 0, 0⟩ ⟨0, 0, 0⟩ ⟨0, 0, 0⟩ =
      .ok [(.fin (10 + 3 / 10), .fin 0)] ∧
    g.getIndex (move ⟨0, 0, 0⟩ ⟨10 + 3 / 10, 0⟩) = .ok (-1) := by
  have hd := thousand_le_dblMax
  have hdm : dblMin ≤ 1 := pow_le_one₀ (by norm_num) (by norm_num)
  have hbox : Matcher.bbox 10 [⟨0, true, ⟨0, 0, 0⟩, Pose2d.zero, []⟩] = ⟨-10, 10, -10, 10⟩ := by
    simp only [Matcher.bbox, List.foldl_cons, List.foldl_nil, Scan.getPose, zero_sub, zero_add]
    rw [min_eq_left (by linarith), max_eq_left (by linarith)]
  have hcols : cols (10 - -10) (1 / 4) = 81 := by
    have : ⌊((10 : ℝ) - -10) / (1 / 4)⌋ = 80 := by rw [Int.floor_eq_iff]; norm_num
    simp only [cols, this]; rfl
  obtain ⟨g, h1, -, -, -, -, e3, e4⟩ := addScans_madeOf
    (mt := { demoMatcher with resolution := 1 / 4, rangeMax := 10 })
    (scans := [⟨0, true, ⟨0, 0, 0⟩, Pose2d.zero, []⟩]) (by norm_num) (by norm_num) (by simp)
    (by intro s hs; rw [List.mem_singleton.mp hs]; intro p hp; simp at hp)
    (by simp only [hbox, hcols]; norm_num)
  simp only [hbox, hcols] at e3 e4
  have := c103_full_range_beam_is_lost (mt := { demoMatcher with resolution := 1 / 4, rangeMax := 10 }) (3 / 10)
    (by norm_num) (by norm_num) (by norm_num) (by simp only; linarith) (by simp only; linarith)
    ⟨0, true, ⟨0, 0, 0⟩, Pose2d.zero, []⟩ rfl h1 rfl (by rw [e3, e4]; norm_num) ⟨0, 0, 0⟩
  exact ⟨_, g, h1, rfl, this.1, this.2⟩

end

end Ndt
