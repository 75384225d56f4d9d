import Verif.Proof.Symmetry
import Verif.Props.MatcherProps

/-! # C99-C101: the map depends neither on the order of the scans nor on where the robot started; its size does -/

namespace Ndt

noncomputable section

open Spec

/-- What a successful `addScans` with few cells says about the box. -/
theorem small_of_ok {mt mt' : Matcher} {scans : List Scan} {g : NdtGrid} (hres : 0 < mt.resolution)
    (hR : 0 ≤ mt.rangeMax) (hne : scans ≠ []) (h : mt.addScans scans = .ok mt') (hg : mt'.ndt = some g)
    (hsmall : g.sizeX * g.sizeY ≤ 2 ^ 31) :
    cols ((Matcher.bbox mt.rangeMax scans).maxX - (Matcher.bbox mt.rangeMax scans).minX) mt.resolution *
      cols ((Matcher.bbox mt.rangeMax scans).maxY - (Matcher.bbox mt.rangeMax scans).minY) mt.resolution ≤ 2 ^ 31 := by
  obtain ⟨g0, g', h0, -, rfl, geo⟩ := addScans_ok h
  simp only [Option.some.injEq] at hg
  subst hg
  obtain ⟨s, hs⟩ := List.exists_mem_of_ne_nil _ hne
  have b : (Matcher.bbox mt.rangeMax scans).minX ≤ s.pose.x - mt.rangeMax ∧
      s.pose.x + mt.rangeMax ≤ (Matcher.bbox mt.rangeMax scans).maxX ∧
      (Matcher.bbox mt.rangeMax scans).minY ≤ s.pose.y - mt.rangeMax ∧
      s.pose.y + mt.rangeMax ≤ (Matcher.bbox mt.rangeMax scans).maxY :=
    bbox_bounds mt.rangeMax scans { minX := dblMax, maxX := dblMin, minY := dblMax, maxY := dblMin } s hs
  obtain ⟨-, -, -, e3, e4⟩ := NdtGrid.new_ok hres (by linarith [b.1, b.2.1]) (by linarith [b.2.2.1, b.2.2.2]) h0
  rw [← e3, ← e4, ← geo.sizeX, ← geo.sizeY]
  exact hsmall

/-! ### C99 -/

/-- **C99** Scans whose points are in range make, cell by cell, the same map in whatever order they are added:
it depends only on the positions and on the points in the map frame, each with how often it occurs. -/
theorem c99_map_is_what_the_scans_are {mt mt' : Matcher} {scans scans' : List Scan} {g : NdtGrid}
    (hres : 0 < mt.resolution) (hR : 0 ≤ mt.rangeMax) (hne : scans ≠ [])
    (hin : ∀ s ∈ scans, WithinRange mt.rangeMax s) (hin' : ∀ s ∈ scans', WithinRange mt.rangeMax s)
    (hplace : (scans.map place).Perm (scans'.map place))
    (hpts : (pointsInMap scans).Perm (pointsInMap scans'))
    (h : mt.addScans scans = .ok mt') (hg : mt'.ndt = some g) (hsmall : g.sizeX * g.sizeY ≤ 2 ^ 31) :
    mt.addScans scans' = .ok mt' := by
  have hsm := small_of_ok hres hR hne h hg hsmall
  have hne' : scans' ≠ [] := by
    rintro rfl
    exact hne (List.map_eq_nil_iff.mp (List.perm_nil.mp hplace))
  have hbox := bbox_perm (r := mt.rangeMax) hplace
  obtain ⟨g1, h1, m1, a0, a1, a2, a3, a4⟩ := addScans_madeOf hres hR hne hin hsm
  rw [hbox] at hsm
  obtain ⟨g2, h2, m2, b0, b1, b2, b3, b4⟩ := addScans_madeOf hres hR hne' hin' hsm
  rw [hbox] at a1 a2 a3 a4
  have e0 := b0.trans a0.symm
  have e1 := b1.trans a1.symm
  have e2 := b2.trans a2.symm
  have e3 := b3.trans a3.symm
  have e4 := b4.trans a4.symm
  have hcells : g2.cells = g1.cells := by
    apply List.ext_getElem?
    intro i
    by_cases hi : i < g1.sizeX * g1.sizeY
    · have hpos : 0 < g1.sizeX := Nat.pos_of_ne_zero (by rintro h0; rw [h0, zero_mul] at hi; omega)
      obtain ⟨x, y, rfl, hx, hy⟩ : ∃ x y, i = y * g1.sizeX + x ∧ x < g1.sizeX ∧ y < g1.sizeY :=
        ⟨i % g1.sizeX, i / g1.sizeX, by rw [Nat.div_add_mod'], Nat.mod_lt _ hpos,
          Nat.div_lt_of_lt_mul hi⟩
      obtain ⟨c, hc, ec⟩ := m1.cells x y hx hy
      obtain ⟨d, hd, ed⟩ := m2.cells x y (by rw [e3]; exact hx) (by rw [e4]; exact hy)
      unfold NdtGrid.cellAt at ec ed
      rw [e3] at ed
      rw [ec, ed]
      rw [e0, e1, e2] at hd
      rw [hc.compute_eq hd (hpts.filter _)]
    · rw [List.getElem?_eq_none (by rw [m2.wf.len, e3, e4]; omega),
        List.getElem?_eq_none (by rw [m1.wf.len]; omega)]
  have : g2 = g1 := by
    ext1
    · exact e0
    · exact e3
    · exact e4
    · exact e1
    · exact e2
    · exact hcells
  rw [h2, this, ← h1, h]

/-- **C99** In particular the order of the scans does not matter. -/
theorem c99_order_of_scans {mt mt' : Matcher} {scans scans' : List Scan} {g : NdtGrid}
    (hres : 0 < mt.resolution) (hR : 0 ≤ mt.rangeMax) (hne : scans ≠ [])
    (hin : ∀ s ∈ scans, WithinRange mt.rangeMax s) (hperm : scans.Perm scans')
    (h : mt.addScans scans = .ok mt') (hg : mt'.ndt = some g) (hsmall : g.sizeX * g.sizeY ≤ 2 ^ 31) :
    mt.addScans scans' = .ok mt' :=
  c99_map_is_what_the_scans_are hres hR hne hin (fun s hs => hin s (hperm.mem_iff.mpr hs)) (hperm.map _)
    (hperm.flatMap_right _) h hg hsmall

/-! ### C100 -/

/-- **C100** All scans taken elsewhere: the search over the map finds the same offset with the same score and
covariance, and the same score is given to a scan, as long as both maps have at most 2^31 cells. The headings may
have any number of full turns more. -/
theorem c100_matching_is_the_same_elsewhere {mt m1 m2 : Matcher} {scans : List Scan} {g1 g2 : NdtGrid} (t : Point)
    (n : Scan → ℤ) (hres : 0 < mt.resolution) (hR : 0 ≤ mt.rangeMax) (hne : scans ≠ [])
    (hin : ∀ s ∈ scans, WithinRange mt.rangeMax s)
    (hb : ∀ s ∈ scans, s.pose.x ≤ dblMax ∧ s.pose.y ≤ dblMax)
    (hb' : ∀ s ∈ scans, s.pose.x + t.x ≤ dblMax ∧ s.pose.y + t.y ≤ dblMax)
    (h1 : mt.addScans scans = .ok m1) (hg1 : m1.ndt = some g1) (hs1 : g1.sizeX * g1.sizeY ≤ 2 ^ 31)
    (h2 : mt.addScans (scans.map fun s => elsewhere t (n s) s) = .ok m2) (hg2 : m2.ndt = some g2)
    (hs2 : g2.sizeX * g2.sizeY ≤ 2 ^ 31) :
    (∀ p, g2.likelihood (movedBy t p) = g1.likelihood p) ∧
    (∀ (s : Scan) (k : ℤ), m2.scoreScan (elsewhere t k s) = m1.scoreScan s) ∧
    (∀ (s : Scan) (k : ℤ) (pose : Pose2d) (cov : Mat3F),
      m2.matchScan (elsewhere t k s) pose cov = m1.matchScan s pose cov) := by
  have hsm1 := small_of_ok hres hR hne h1 hg1 hs1
  have hne2 : (scans.map fun s => elsewhere t (n s) s) ≠ [] := by simpa using hne
  have hsm2 := small_of_ok hres hR hne2 h2 hg2 hs2
  have hin2 : ∀ s ∈ scans.map (fun s => elsewhere t (n s) s), WithinRange mt.rangeMax s := by
    intro s hs
    obtain ⟨s0, hs0, rfl⟩ := List.mem_map.mp hs
    exact hin s0 hs0
  obtain ⟨a, k1, ma, a0, a1, a2, -, -⟩ := addScans_madeOf hres hR hne hin hsm1
  obtain ⟨b, k2, mb, b0, b1, b2, -, -⟩ := addScans_madeOf hres hR hne2 hin2 hsm2
  obtain ⟨ex, ey⟩ := bbox_shift hR t (scans := scans) (scans' := scans.map fun s => elsewhere t (n s) s) hne
    (by rw [List.map_map, List.map_map]; exact List.Perm.refl _) hb (by
      intro s hs
      obtain ⟨s0, hs0, rfl⟩ := List.mem_map.mp hs
      exact hb' s0 hs0)
  have tw : Twin t a b (pointsInMap scans) (pointsInMap (scans.map fun s => elsewhere t (n s) s)) :=
    { made := ma, made' := mb, cell := b0.trans a0.symm
      ox := by rw [b1, a1]; exact ex
      oy := by rw [b2, a2]; exact ey
      perm := by rw [pointsInMap_elsewhere] }
  rw [k1] at h1
  rw [k2] at h2
  cases h1
  cases h2
  simp only [Option.some.injEq] at hg1 hg2
  subst hg1 hg2
  exact ⟨tw.likelihood, tw.scoreScan mt, tw.matchScan mt⟩

/-! ### C101 -/

/-- **C101** (the part that holds) If the scans reach to the right of and above the map's origin, the map has just
the cells that cover every scan's range. -/
theorem c101_size_is_what_is_needed_partial {mt mt' : Matcher} {scans : List Scan} {g : NdtGrid}
    (hres : 0 < mt.resolution) (hR : 0 ≤ mt.rangeMax)
    (hb : ∀ s ∈ scans, s.pose.x ≤ dblMax ∧ s.pose.y ≤ dblMax)
    {l r d u : Scan} (hl : l ∈ scans) (hr : r ∈ scans) (hd : d ∈ scans) (hu : u ∈ scans)
    (hleft : ∀ s ∈ scans, l.pose.x ≤ s.pose.x) (hright : ∀ s ∈ scans, s.pose.x ≤ r.pose.x)
    (hdown : ∀ s ∈ scans, d.pose.y ≤ s.pose.y) (hup : ∀ s ∈ scans, s.pose.y ≤ u.pose.y)
    (hx : dblMin ≤ r.pose.x + mt.rangeMax) (hy : dblMin ≤ u.pose.y + mt.rangeMax)
    (h : mt.addScans scans = .ok mt') (hg : mt'.ndt = some g) :
    g.sizeX = cols (r.pose.x - l.pose.x + 2 * mt.rangeMax) mt.resolution ∧
      g.sizeY = cols (u.pose.y - d.pose.y + 2 * mt.rangeMax) mt.resolution := by
  have hbb : ∀ s ∈ scans, (Matcher.bbox mt.rangeMax scans).minX ≤ s.pose.x - mt.rangeMax ∧
      s.pose.x + mt.rangeMax ≤ (Matcher.bbox mt.rangeMax scans).maxX ∧
      (Matcher.bbox mt.rangeMax scans).minY ≤ s.pose.y - mt.rangeMax ∧
      s.pose.y + mt.rangeMax ≤ (Matcher.bbox mt.rangeMax scans).maxY :=
    fun s hs => bbox_bounds mt.rangeMax scans
      { minX := dblMax, maxX := dblMin, minY := dblMax, maxY := dblMin } s hs
  have attained : ∀ (sc : List Scan) (b : BBox), (∀ s ∈ sc, l.pose.x ≤ s.pose.x ∧ s.pose.x ≤ r.pose.x ∧
      d.pose.y ≤ s.pose.y ∧ s.pose.y ≤ u.pose.y) →
      l.pose.x - mt.rangeMax ≤ b.minX → b.maxX ≤ r.pose.x + mt.rangeMax →
      d.pose.y - mt.rangeMax ≤ b.minY → b.maxY ≤ u.pose.y + mt.rangeMax →
      l.pose.x - mt.rangeMax ≤ ((sc.map place).foldl (boxStep mt.rangeMax) b).minX ∧
      ((sc.map place).foldl (boxStep mt.rangeMax) b).maxX ≤ r.pose.x + mt.rangeMax ∧
      d.pose.y - mt.rangeMax ≤ ((sc.map place).foldl (boxStep mt.rangeMax) b).minY ∧
      ((sc.map place).foldl (boxStep mt.rangeMax) b).maxY ≤ u.pose.y + mt.rangeMax := by
    intro sc
    induction sc with
    | nil => intro b _ h1 h2 h3 h4; exact ⟨h1, h2, h3, h4⟩
    | cons s sc ih =>
      intro b hs h1 h2 h3 h4
      obtain ⟨s1, s2, s3, s4⟩ := hs s (by simp)
      rw [List.map_cons, List.foldl_cons]
      apply ih _ (fun s hs' => hs s (by simp [hs']))
      · exact le_min (by simp only [place]; linarith) h1
      · exact max_le (by simp only [place]; linarith) h2
      · exact le_min (by simp only [place]; linarith) h3
      · exact max_le (by simp only [place]; linarith) h4
  obtain ⟨p1, p2, p3, p4⟩ := attained scans { minX := dblMax, maxX := dblMin, minY := dblMax, maxY := dblMin }
    (fun s hs => ⟨hleft s hs, hright s hs, hdown s hs, hup s hs⟩) (by linarith [(hb l hl).1]) hx
    (by linarith [(hb d hd).2]) hy
  rw [← bbox_places] at p1 p2 p3 p4
  obtain ⟨g0, g', h0, -, rfl, geo⟩ := addScans_ok h
  simp only [Option.some.injEq] at hg
  subst hg
  obtain ⟨q1, -, -, -⟩ := hbb l hl
  obtain ⟨-, q2, -, -⟩ := hbb r hr
  obtain ⟨-, -, q3, -⟩ := hbb d hd
  obtain ⟨-, -, -, q4⟩ := hbb u hu
  have hlr := hleft r hr
  have hdu := hdown u hu
  obtain ⟨-, -, -, e3, e4⟩ := NdtGrid.new_ok hres (by linarith) (by linarith) h0
  rw [geo.sizeX, geo.sizeY, e3, e4, le_antisymm q1 p1, le_antisymm q3 p3, le_antisymm p2 q2, le_antisymm p4 q4]
  constructor <;> congr 1 <;> ring

/-- **C101** (why not always) The box starts from `std::numeric_limits<double>::min()`, a small *positive* number.
The map of a scan taken to the left of and below the origin therefore reaches up to the origin: its size grows with
the distance from the origin without limit. -/
theorem c101_map_reaches_to_the_origin {mt mt' : Matcher} {s : Scan} {g : NdtGrid} (hres : 0 < mt.resolution)
    (hR : 0 ≤ mt.rangeMax) (hx : s.pose.x + mt.rangeMax ≤ 0) (hy : s.pose.y + mt.rangeMax ≤ 0)
    (h : mt.addScans [s] = .ok mt') (hg : mt'.ndt = some g) :
    (mt.rangeMax - s.pose.x) / mt.resolution < g.sizeX ∧ (mt.rangeMax - s.pose.y) / mt.resolution < g.sizeY := by
  have hmin : (0 : ℝ) < dblMin := by unfold dblMin; positivity
  have hmax : (0 : ℝ) ≤ dblMax := by
    unfold dblMax
    have a1 : (1 : ℝ) ≤ 2 - 2⁻¹ ^ 52 := by norm_num
    have a2 : (0 : ℝ) ≤ 2 ^ 1023 := by positivity
    generalize (2 : ℝ) ^ 1023 = z at *
    generalize (2 : ℝ) - 2⁻¹ ^ 52 = y at *
    exact mul_nonneg (by linarith) a2
  have hbox : Matcher.bbox mt.rangeMax [s] =
      ⟨s.pose.x - mt.rangeMax, dblMin, s.pose.y - mt.rangeMax, dblMin⟩ := by
    simp only [Matcher.bbox, List.foldl_cons, List.foldl_nil, Scan.getPose]
    rw [min_eq_left (by linarith), min_eq_left (by linarith), max_eq_right (by linarith), max_eq_right (by linarith)]
  obtain ⟨g0, g', h0, -, rfl, geo⟩ := addScans_ok h
  simp only [Option.some.injEq] at hg
  subst hg
  rw [hbox] at h0
  obtain ⟨-, -, -, e3, e4⟩ := NdtGrid.new_ok hres (by simp only; linarith) (by simp only; linarith) h0
  have key : ∀ v : ℝ, v + mt.rangeMax ≤ 0 →
      (mt.rangeMax - v) / mt.resolution < (cols (dblMin - (v - mt.rangeMax)) mt.resolution : ℝ) := by
    intro v hv
    have f1 := Int.lt_floor_add_one ((dblMin - (v - mt.rangeMax)) / mt.resolution)
    have f2 : (mt.rangeMax - v) / mt.resolution ≤ (dblMin - (v - mt.rangeMax)) / mt.resolution :=
      div_le_div_of_nonneg_right (by linarith) hres.le
    have f3 : ((⌊(dblMin - (v - mt.rangeMax)) / mt.resolution⌋ : ℤ) : ℝ) ≤
        ((⌊(dblMin - (v - mt.rangeMax)) / mt.resolution⌋.toNat : ℕ) : ℝ) := by
      exact_mod_cast Int.self_le_toNat _
    unfold cols
    push_cast
    linarith
  rw [geo.sizeX, geo.sizeY, e3, e4]
  exact ⟨key _ hx, key _ hy⟩

/-! ### Concrete cases -/

theorem thousand_le_dblMax : (10 : ℝ) ^ 3 ≤ dblMax := by
  unfold dblMax
  have a1 : (1 : ℝ) ≤ 2 - 2⁻¹ ^ 52 := by norm_num
  have a2 : (2 : ℝ) ^ 10 ≤ 2 ^ 1023 := pow_le_pow_right₀ (by norm_num) (by norm_num)
  have a3 : (10 : ℝ) ^ 3 ≤ 2 ^ 10 := by norm_num
  have a4 := a3.trans a2
  clear a2 a3
  generalize (2 : ℝ) ^ 1023 = z at *
  generalize (2 : ℝ) - 2⁻¹ ^ 52 = y at *
  nlinarith

theorem demo_within (t : Point) (n : ℤ) : WithinRange demoMatcher.rangeMax (elsewhere t n demoMapScan) := by
  intro p hp
  simp only [elsewhere, demoMapScan, samplePts, List.mem_cons, List.not_mem_nil, or_false] at hp
  simp only [demoMatcher]
  rcases hp with rfl | rfl | rfl | rfl | rfl <;> norm_num

/-- The map of two scans, of which the second is taken at `(x, y)`, for numbers that are not too large. -/
theorem demo_two_small (a b : Scan) (ha : |a.pose.x| ≤ 100 ∧ |a.pose.y| ≤ 100)
    (hb : |b.pose.x| ≤ 100 ∧ |b.pose.y| ≤ 100) :
    cols ((Matcher.bbox 4 [a, b]).maxX - (Matcher.bbox 4 [a, b]).minX) 10 *
      cols ((Matcher.bbox 4 [a, b]).maxY - (Matcher.bbox 4 [a, b]).minY) 10 ≤ 2 ^ 31 := by
  have h1 := thousand_le_dblMax
  have h2 : dblMin ≤ 1 := pow_le_one₀ (by norm_num) (by norm_num)
  obtain ⟨⟨a1, a2⟩, a3, a4⟩ := And.imp abs_le.mp abs_le.mp ha
  obtain ⟨⟨b1, b2⟩, b3, b4⟩ := And.imp abs_le.mp abs_le.mp hb
  have key : ∀ u v : ℝ, u - v ≤ 1000 → cols (u - v) 10 ≤ 101 := by
    intro u v h
    unfold cols
    have f : ⌊(u - v) / 10⌋ ≤ 100 := by
      have : (u - v) / 10 ≤ 100 := by linarith
      exact_mod_cast (Int.floor_le _).trans this
    omega
  have kx := key (Matcher.bbox 4 [a, b]).maxX (Matcher.bbox 4 [a, b]).minX (by
    simp only [Matcher.bbox, List.foldl_cons, List.foldl_nil, Scan.getPose]
    have p : max (b.pose.x + 4) (max (a.pose.x + 4) dblMin) ≤ 200 :=
      max_le (by linarith) (max_le (by linarith) (by linarith))
    have q : -200 ≤ min (b.pose.x - 4) (min (a.pose.x - 4) dblMax) :=
      le_min (by linarith) (le_min (by linarith) (by linarith))
    linarith)
  have ky := key (Matcher.bbox 4 [a, b]).maxY (Matcher.bbox 4 [a, b]).minY (by
    simp only [Matcher.bbox, List.foldl_cons, List.foldl_nil, Scan.getPose]
    have p : max (b.pose.y + 4) (max (a.pose.y + 4) dblMin) ≤ 200 :=
      max_le (by linarith) (max_le (by linarith) (by linarith))
    have q : -200 ≤ min (b.pose.y - 4) (min (a.pose.y - 4) dblMax) :=
      le_min (by linarith) (le_min (by linarith) (by linarith))
    linarith)
  exact (Nat.mul_le_mul kx ky).trans (by norm_num)

/-- Two different scans of five points each; the hypotheses of C99 are met and the two orders give one map. -/
example : ∃ m g, demoMatcher.addScans [demoMapScan, elsewhere ⟨3, -2⟩ 1 demoMapScan] = .ok m ∧ m.ndt = some g ∧
    g.sizeX * g.sizeY ≤ 2 ^ 31 ∧ demoMatcher.addScans [elsewhere ⟨3, -2⟩ 1 demoMapScan, demoMapScan] = .ok m := by
  have hin : ∀ s ∈ [demoMapScan, elsewhere ⟨3, -2⟩ 1 demoMapScan], WithinRange demoMatcher.rangeMax s := by
    intro s hs
    simp only [List.mem_cons, List.not_mem_nil, or_false] at hs
    rcases hs with rfl | rfl
    · simpa [elsewhere, demoMapScan] using demo_within ⟨0, 0⟩ 0
    · exact demo_within _ _
  have hsm := demo_two_small demoMapScan (elsewhere ⟨3, -2⟩ 1 demoMapScan)
    (by norm_num [demoMapScan]) (by norm_num [demoMapScan, elsewhere, abs_le])
  obtain ⟨g, h1, m1, -, -, -, e3, e4⟩ := addScans_madeOf (mt := demoMatcher) (by norm_num [demoMatcher])
    (by norm_num [demoMatcher]) (by simp) hin hsm
  have hs : g.sizeX * g.sizeY ≤ 2 ^ 31 := by rw [e3, e4]; exact hsm
  exact ⟨_, g, h1, rfl, hs, c99_order_of_scans (by norm_num [demoMatcher]) (by norm_num [demoMatcher]) (by simp) hin
    (List.Perm.swap _ _ _) h1 rfl hs⟩

/-- The same two scans taken at a place that is off by `(50, -60)`: both maps exist and are small. -/
example : ∃ m1 m2 g1 g2,
    demoMatcher.addScans [demoMapScan, elsewhere ⟨3, -2⟩ 1 demoMapScan] = .ok m1 ∧ m1.ndt = some g1 ∧
    demoMatcher.addScans ([demoMapScan, elsewhere ⟨3, -2⟩ 1 demoMapScan].map fun s => elsewhere ⟨50, -60⟩ 7 s) =
      .ok m2 ∧ m2.ndt = some g2 ∧ g1.sizeX * g1.sizeY ≤ 2 ^ 31 ∧ g2.sizeX * g2.sizeY ≤ 2 ^ 31 ∧
    (∀ p, g2.likelihood (movedBy ⟨50, -60⟩ p) = g1.likelihood p) ∧
    ∀ pose cov, m2.matchScan (elsewhere ⟨50, -60⟩ 3 demoScan) pose cov = m1.matchScan demoScan pose cov := by
  have hin : ∀ s ∈ [demoMapScan, elsewhere ⟨3, -2⟩ 1 demoMapScan], WithinRange demoMatcher.rangeMax s := by
    intro s hs
    simp only [List.mem_cons, List.not_mem_nil, or_false] at hs
    rcases hs with rfl | rfl
    · simpa [elsewhere, demoMapScan] using demo_within ⟨0, 0⟩ 0
    · exact demo_within _ _
  have hin2 : ∀ s ∈ [demoMapScan, elsewhere ⟨3, -2⟩ 1 demoMapScan].map (fun s => elsewhere ⟨50, -60⟩ 7 s),
      WithinRange demoMatcher.rangeMax s := by
    intro s hs
    obtain ⟨s0, hs0, rfl⟩ := List.mem_map.mp hs
    exact hin s0 hs0
  have hsm := demo_two_small demoMapScan (elsewhere ⟨3, -2⟩ 1 demoMapScan)
    (by norm_num [demoMapScan]) (by norm_num [demoMapScan, elsewhere, abs_le])
  have hsm2 := demo_two_small (elsewhere ⟨50, -60⟩ 7 demoMapScan)
    (elsewhere ⟨50, -60⟩ 7 (elsewhere ⟨3, -2⟩ 1 demoMapScan))
    (by norm_num [demoMapScan, elsewhere, abs_le]) (by norm_num [demoMapScan, elsewhere, abs_le])
  obtain ⟨g, h1, -, -, -, -, e3, e4⟩ := addScans_madeOf (mt := demoMatcher) (by norm_num [demoMatcher])
    (by norm_num [demoMatcher]) (by simp) hin hsm
  obtain ⟨g', h2, -, -, -, -, f3, f4⟩ := addScans_madeOf (mt := demoMatcher) (by norm_num [demoMatcher])
    (by norm_num [demoMatcher]) (by simp) hin2 hsm2
  have hs : g.sizeX * g.sizeY ≤ 2 ^ 31 := by rw [e3, e4]; exact hsm
  have hs2 : g'.sizeX * g'.sizeY ≤ 2 ^ 31 := by rw [f3, f4]; exact hsm2
  have hd := thousand_le_dblMax
  have hsame := c100_matching_is_the_same_elsewhere ⟨50, -60⟩ (fun _ => 7) (by norm_num [demoMatcher])
    (by norm_num [demoMatcher]) (by simp) hin
    (by
      intro s hs
      simp only [List.mem_cons, List.not_mem_nil, or_false] at hs
      rcases hs with rfl | rfl <;> simp only [demoMapScan, elsewhere] <;> constructor <;> linarith)
    (by
      intro s hs
      simp only [List.mem_cons, List.not_mem_nil, or_false] at hs
      rcases hs with rfl | rfl <;> simp only [demoMapScan, elsewhere] <;> constructor <;> linarith)
    h1 rfl hs h2 rfl hs2
  exact ⟨_, _, g, g', h1, rfl, h2, rfl, hs, hs2, hsame.1, fun pose cov => hsame.2.2 demoScan 3 pose cov⟩

/-- A scan of five points with a range of 4 m, taken at (-96, -96): the map has more than 10 times 10 cells of 10 m
where one cell is enough for the same scan taken at (4, 4). -/
example : ∃ m g m' g', demoMatcher.addScans [elsewhere ⟨-96, -96⟩ 0 demoMapScan] = .ok m ∧ m.ndt = some g ∧
    10 < g.sizeX ∧ 10 < g.sizeY ∧
    demoMatcher.addScans [elsewhere ⟨4, 4⟩ 0 demoMapScan] = .ok m' ∧ m'.ndt = some g' ∧
    g'.sizeX = 1 ∧ g'.sizeY = 1 := by
  have hd := thousand_le_dblMax
  have hdm : dblMin ≤ 1 := pow_le_one₀ (by norm_num) (by norm_num)
  have hp : (0 : ℝ) < dblMin := by unfold dblMin; positivity
  have single : ∀ t : Point, |t.x| ≤ 100 → |t.y| ≤ 100 →
      ∃ m g, demoMatcher.addScans [elsewhere t 0 demoMapScan] = .ok m ∧ m.ndt = some g := by
    intro t hx hy
    obtain ⟨x1, x2⟩ := abs_le.mp hx
    obtain ⟨y1, y2⟩ := abs_le.mp hy
    have key : ∀ u v : ℝ, u - v ≤ 1000 → cols (u - v) 10 ≤ 101 := by
      intro u v h
      unfold cols
      have f : ⌊(u - v) / 10⌋ ≤ 100 := by
        have : (u - v) / 10 ≤ 100 := by linarith
        exact_mod_cast (Int.floor_le _).trans this
      omega
    have kx := key (Matcher.bbox 4 [elsewhere t 0 demoMapScan]).maxX (Matcher.bbox 4 [elsewhere t 0 demoMapScan]).minX (by
      simp only [Matcher.bbox, List.foldl_cons, List.foldl_nil, Scan.getPose, elsewhere, demoMapScan]
      have p : max (0 + t.x + 4) dblMin ≤ 200 := max_le (by linarith) (by linarith)
      have q : -200 ≤ min (0 + t.x - 4) dblMax := le_min (by linarith) (by linarith)
      linarith)
    have ky := key (Matcher.bbox 4 [elsewhere t 0 demoMapScan]).maxY (Matcher.bbox 4 [elsewhere t 0 demoMapScan]).minY (by
      simp only [Matcher.bbox, List.foldl_cons, List.foldl_nil, Scan.getPose, elsewhere, demoMapScan]
      have p : max (0 + t.y + 4) dblMin ≤ 200 := max_le (by linarith) (by linarith)
      have q : -200 ≤ min (0 + t.y - 4) dblMax := le_min (by linarith) (by linarith)
      linarith)
    obtain ⟨g, h1, -⟩ := addScans_madeOf (mt := demoMatcher) (scans := [elsewhere t 0 demoMapScan])
      (by norm_num [demoMatcher]) (by norm_num [demoMatcher]) (by simp)
      (by intro s hs; rw [List.mem_singleton.mp hs]; exact demo_within _ _)
      ((Nat.mul_le_mul kx ky).trans (by norm_num))
    exact ⟨_, g, h1, rfl⟩
  obtain ⟨m, g, h, hg⟩ := single ⟨-96, -96⟩ (by norm_num [abs_le]) (by norm_num [abs_le])
  obtain ⟨m', g', h', hg'⟩ := single ⟨4, 4⟩ (by norm_num [abs_le]) (by norm_num [abs_le])
  refine ⟨m, g, m', g', h, hg, ?_, ?_, h', hg', ?_⟩
  · have := (c101_map_reaches_to_the_origin (by norm_num [demoMatcher]) (by norm_num [demoMatcher])
      (by norm_num [demoMatcher, elsewhere, demoMapScan]) (by norm_num [demoMatcher, elsewhere, demoMapScan]) h hg).1
    simp only [demoMatcher, elsewhere, demoMapScan] at this
    norm_num at this
    exact this
  · have := (c101_map_reaches_to_the_origin (by norm_num [demoMatcher]) (by norm_num [demoMatcher])
      (by norm_num [demoMatcher, elsewhere, demoMapScan]) (by norm_num [demoMatcher, elsewhere, demoMapScan]) h hg).2
    simp only [demoMatcher, elsewhere, demoMapScan] at this
    norm_num at this
    exact this
  · have hmem : elsewhere ⟨4, 4⟩ 0 demoMapScan ∈ [elsewhere ⟨4, 4⟩ 0 demoMapScan] := by simp
    have := c101_size_is_what_is_needed_partial (by norm_num [demoMatcher]) (by norm_num [demoMatcher])
      (by
        intro s hs
        rw [List.mem_singleton.mp hs]
        simp only [elsewhere, demoMapScan]
        constructor <;> linarith) hmem hmem hmem hmem
      (by intro s hs; rw [List.mem_singleton.mp hs]) (by intro s hs; rw [List.mem_singleton.mp hs])
      (by intro s hs; rw [List.mem_singleton.mp hs]) (by intro s hs; rw [List.mem_singleton.mp hs])
      (by simp only [elsewhere, demoMapScan, demoMatcher]; linarith)
      (by simp only [elsewhere, demoMapScan, demoMatcher]; linarith) h' hg'
    have e : (4 : ℝ) + 4 = 8 := by norm_num
    simpa [elsewhere, demoMapScan, demoMatcher, demo_cols, show (2 : ℝ) * 4 = 8 by norm_num] using this

end

end Ndt
