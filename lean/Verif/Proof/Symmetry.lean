import Verif.Spec.Symmetry
import Verif.Proof.Matcher
import Verif.Props.NdtProps

/-! # Lemmas for C99-C101: maps of the same scans in another order or elsewhere -/

namespace Ndt

noncomputable section

open Spec

/-! ### The bounding box -/

/-- One step of the bounding box loop, on a position. -/
def boxStep (r : ℝ) (b : BBox) (p : Point) : BBox :=
  { minX := min (p.x - r) b.minX, maxX := max (p.x + r) b.maxX,
    minY := min (p.y - r) b.minY, maxY := max (p.y + r) b.maxY }

theorem bbox_places (r : ℝ) (scans : List Scan) :
    Matcher.bbox r scans =
      (scans.map place).foldl (boxStep r) { minX := dblMax, maxX := dblMin, minY := dblMax, maxY := dblMin } := by
  unfold Matcher.bbox
  rw [List.foldl_map]
  rfl

theorem bbox_perm {r : ℝ} {scans scans' : List Scan} (h : (scans.map place).Perm (scans'.map place)) :
    Matcher.bbox r scans = Matcher.bbox r scans' := by
  rw [bbox_places, bbox_places]
  refine List.Perm.foldl_eq' h ?_ _
  intro p _ q _ b
  simp only [boxStep, BBox.mk.injEq]
  refine ⟨min_left_comm _ _ _, max_left_comm _ _ _, min_left_comm _ _ _, max_left_comm _ _ _⟩

theorem boxStep_shift (r : ℝ) (t : Point) (ps : List Point) (b b' : BBox) (hx : b'.minX = b.minX + t.x)
    (hy : b'.minY = b.minY + t.y) :
    ((ps.map (movedBy t)).foldl (boxStep r) b').minX = (ps.foldl (boxStep r) b).minX + t.x ∧
      ((ps.map (movedBy t)).foldl (boxStep r) b').minY = (ps.foldl (boxStep r) b).minY + t.y := by
  induction ps generalizing b b' with
  | nil => exact ⟨hx, hy⟩
  | cons p ps ih =>
    rw [List.map_cons, List.foldl_cons, List.foldl_cons]
    apply ih
    · simp only [boxStep, movedBy, hx]
      rw [← min_add_add_right]
      congr 1; ring
    · simp only [boxStep, movedBy, hy]
      rw [← min_add_add_right]
      congr 1; ring

/-- The lower corner of the box moves with the positions (which are numbers a double can hold). -/
theorem bbox_shift {r : ℝ} (hr : 0 ≤ r) (t : Point) {scans scans' : List Scan} (hne : scans ≠ [])
    (h : ((scans.map place).map (movedBy t)).Perm (scans'.map place))
    (hb : ∀ s ∈ scans, s.pose.x ≤ dblMax ∧ s.pose.y ≤ dblMax)
    (hb' : ∀ s ∈ scans', s.pose.x ≤ dblMax ∧ s.pose.y ≤ dblMax) :
    (Matcher.bbox r scans').minX = (Matcher.bbox r scans).minX + t.x ∧
      (Matcher.bbox r scans').minY = (Matcher.bbox r scans).minY + t.y := by
  have e : Matcher.bbox r scans' = ((scans.map place).map (movedBy t)).foldl (boxStep r)
      { minX := dblMax, maxX := dblMin, minY := dblMax, maxY := dblMin } := by
    rw [bbox_places]
    refine (List.Perm.foldl_eq' h ?_ _).symm
    intro p _ q _ b
    simp only [boxStep, BBox.mk.injEq]
    refine ⟨min_left_comm _ _ _, max_left_comm _ _ _, min_left_comm _ _ _, max_left_comm _ _ _⟩
  have hq : ∀ q ∈ (scans.map place).map (movedBy t), q.x ≤ dblMax ∧ q.y ≤ dblMax := by
    intro q hq
    obtain ⟨s, hs, rfl⟩ := List.mem_map.mp (h.mem_iff.mp hq)
    exact hb' s hs
  rw [e, bbox_places]
  obtain ⟨s, scans, rfl⟩ := List.exists_cons_of_ne_nil hne
  simp only [List.map_cons, List.foldl_cons] at hq ⊢
  have h1 := hb s (by simp)
  have h2 := hq (movedBy t (place s)) (by simp)
  simp only [movedBy, place] at h2
  apply boxStep_shift
  · simp only [boxStep, movedBy, place]
    rw [min_eq_left (by linarith [h2.1]), min_eq_left (by linarith [h1.1])]
    ring
  · simp only [boxStep, movedBy, place]
    rw [min_eq_left (by linarith [h2.2]), min_eq_left (by linarith [h1.2])]
    ring

/-! ### The cells of a map -/

theorem pointsInMap_eq (scans : List Scan) : mapPoints (scans.map .addScan) = pointsInMap scans := by
  induction scans with
  | nil => rfl
  | cons s scans ih => simp [mapPoints, pointsInMap, ih]

/-- The map `g` is made of `pts`, counted in squares of side `c` from the corner `(ox, oy)`. -/
structure MadeOf (g : NdtGrid) (pts : List Point) : Prop where
  wf : g.WF
  inside : ∀ p ∈ pts, InExtents g.originX g.originY g.cellSize g.sizeX g.sizeY p
  cells : ∀ x y : ℕ, x < g.sizeX → y < g.sizeY → ∃ c0 : Cell,
    c0.Inv (inSquare g.originX g.originY g.cellSize ((x : ℤ), (y : ℤ)) pts) ∧ g.cellAt x y = some c0.compute

/-- What `addScans` makes of scans whose points are in range, if the map has at most 2^31 cells. -/
theorem addScans_madeOf {mt : Matcher} {scans : List Scan} (hres : 0 < mt.resolution) (hR : 0 ≤ mt.rangeMax)
    (hne : scans ≠ []) (hin : ∀ s ∈ scans, WithinRange mt.rangeMax s)
    (hsm : cols ((Matcher.bbox mt.rangeMax scans).maxX - (Matcher.bbox mt.rangeMax scans).minX) mt.resolution *
      cols ((Matcher.bbox mt.rangeMax scans).maxY - (Matcher.bbox mt.rangeMax scans).minY) mt.resolution ≤ 2 ^ 31) :
    ∃ g, mt.addScans scans = .ok { mt with ndt := some g } ∧ MadeOf g (pointsInMap scans) ∧
      g.cellSize = mt.resolution ∧ g.originX = (Matcher.bbox mt.rangeMax scans).minX ∧
      g.originY = (Matcher.bbox mt.rangeMax scans).minY ∧
      g.sizeX = cols ((Matcher.bbox mt.rangeMax scans).maxX - (Matcher.bbox mt.rangeMax scans).minX) mt.resolution ∧
      g.sizeY = cols ((Matcher.bbox mt.rangeMax scans).maxY - (Matcher.bbox mt.rangeMax scans).minY) mt.resolution := by
  have hbb : ∀ s ∈ scans, (Matcher.bbox mt.rangeMax scans).minX ≤ s.pose.x - mt.rangeMax ∧
      s.pose.x + mt.rangeMax ≤ (Matcher.bbox mt.rangeMax scans).maxX ∧
      (Matcher.bbox mt.rangeMax scans).minY ≤ s.pose.y - mt.rangeMax ∧
      s.pose.y + mt.rangeMax ≤ (Matcher.bbox mt.rangeMax scans).maxY :=
    fun s hs => bbox_bounds mt.rangeMax scans
      { minX := dblMax, maxX := dblMin, minY := dblMax, maxY := dblMin } s hs
  obtain ⟨s0, hs0⟩ := List.exists_mem_of_ne_nil _ hne
  obtain ⟨b1, b2, b3, b4⟩ := hbb s0 hs0
  have hw : 0 ≤ (Matcher.bbox mt.rangeMax scans).maxX - (Matcher.bbox mt.rangeMax scans).minX := by linarith
  have hh : 0 ≤ (Matcher.bbox mt.rangeMax scans).maxY - (Matcher.bbox mt.rangeMax scans).minY := by linarith
  obtain ⟨g0, h0, hcs, hcov⟩ := c06_constructor_covers (ox := (Matcher.bbox mt.rangeMax scans).minX)
    (oy := (Matcher.bbox mt.rangeMax scans).minY) hres hw hh hsm
  obtain ⟨g0', h0', hwf, f0, f1, f2, f3, f4, hnew⟩ := NdtGrid.new_wf (ox := (Matcher.bbox mt.rangeMax scans).minX)
    (oy := (Matcher.bbox mt.rangeMax scans).minY) hres hw hh hsm
  rw [h0] at h0'
  cases h0'
  have hins : ∀ p ∈ pointsInMap scans, InExtents g0.originX g0.originY g0.cellSize g0.sizeX g0.sizeY p := by
    intro p hp
    obtain ⟨s, hs, hp⟩ := List.mem_flatMap.mp hp
    obtain ⟨q, hq, rfl⟩ := List.mem_map.mp hp
    have hq := hin s hs q hq
    obtain ⟨b1, b2, b3, b4⟩ := hbb s hs
    have hdisp : ∀ a b : ℝ, a ^ 2 + b ^ 2 = 1 → |a * q.x + b * q.y| ≤ mt.rangeMax := by
      intro a b hab
      apply abs_le_of_sq_le_sq _ hR
      nlinarith [sq_nonneg (a * q.y - b * q.x), mul_comm a b]
    have d1 := abs_le.mp (hdisp (Real.cos s.pose.theta) (-Real.sin s.pose.theta)
      (by rw [neg_sq]; exact Real.cos_sq_add_sin_sq _))
    have d2 := abs_le.mp (hdisp (Real.sin s.pose.theta) (Real.cos s.pose.theta) (Real.sin_sq_add_cos_sq _))
    rw [f0, f1, f2]
    exact hcov (move s.pose q)
      (by simp only [move]; linarith [d1.1]) (by simp only [move]; linarith [d1.2])
      (by simp only [move]; linarith [d2.1]) (by simp only [move]; linarith [d2.2])
  have hpx : 0 < g0.sizeX := by rw [f3]; simp [cols]
  have hpy : 0 < g0.sizeY := by rw [f4]; simp [cols]
  have hmp : mapPoints (scans.map .addScan ++ [.compute]) = pointsInMap scans := by
    rw [mapPoints_append, pointsInMap_eq]; simp [mapPoints]
  obtain ⟨g, hg, geo, hcell⟩ := NdtGrid.run_spec (scans.map .addScan ++ [.compute]) hwf (by
    rw [hmp]
    exact fun p hp => near_of_inExtents hwf.cellPos hwf.small hpx hpy (hins p hp))
  refine ⟨g, ?_, ⟨geo.wf hwf, ?_, ?_⟩, geo.cellSize.trans f0, geo.originX.trans f1, geo.originY.trans f2,
    geo.sizeX.trans f3, geo.sizeY.trans f4⟩
  · rw [addScans_eq, h0]
    simp only [Res.ok_bind]
    rw [hg]; rfl
  · rw [geo.originX, geo.originY, geo.cellSize, geo.sizeX, geo.sizeY]; exact hins
  · intro x y hx hy
    rw [geo.sizeX] at hx
    rw [geo.sizeY] at hy
    rw [geo.originX, geo.originY, geo.cellSize]
    refine ⟨Cell.new.run (cellOps g0.originX g0.originY g0.cellSize ((x : ℤ), (y : ℤ)) (scans.map .addScan)), ?_, ?_⟩
    · have := Cell.Inv.run_new (cellOps g0.originX g0.originY g0.cellSize ((x : ℤ), (y : ℤ)) (scans.map .addScan))
      rwa [pointsOf_cellOps, pointsInMap_eq] at this
    · rw [hcell x y hx hy, hnew x y hx hy, cellOps_append]
      simp only [Option.map_some, cellOps, Cell.run_append]
      rfl

/-! ### A cell of moved points -/

theorem avg_movedBy_x (t : Point) {ps : List Point} (h : ps ≠ []) :
    avg (·.x) (ps.map (movedBy t)) = avg (·.x) ps + t.x ∧ avg (·.y) (ps.map (movedBy t)) = avg (·.y) ps + t.y := by
  have hl : (ps.length : ℝ) ≠ 0 := by simpa using h
  constructor <;>
  · simp only [avg, List.map_map, List.length_map, Function.comp_def, movedBy, List.sum_map_add]
    simp only [List.map_const', List.sum_replicate, nsmul_eq_mul]
    field_simp

theorem avg_movedBy_sq (f g : Point → ℝ) (a b : ℝ) (t : Point) {ps : List Point} (h : ps ≠ [])
    (hf : ∀ p, f (movedBy t p) = f p + a) (hg : ∀ p, g (movedBy t p) = g p + b) :
    avg (fun p => f p * g p) (ps.map (movedBy t)) =
      avg (fun p => f p * g p) ps + b * avg f ps + a * avg g ps + a * b := by
  have hl : (ps.length : ℝ) ≠ 0 := by simpa using h
  have e : ∀ p, f (movedBy t p) * g (movedBy t p) = f p * g p + b * f p + a * g p + a * b := by
    intro p; rw [hf, hg]; ring
  simp only [avg, List.map_map, List.length_map, Function.comp_def, e, List.sum_map_add, List.sum_map_mul_left]
  simp only [List.map_const', List.sum_replicate, nsmul_eq_mul]
  field_simp

/-- The score of a point in a cell does not depend on the order of the cell's points, nor on where they are. -/
theorem Cell.Inv.score_movedBy {c d : Cell} {ps qs : List Point} (t : Point) (hc : c.Inv ps) (hd : d.Inv qs)
    (h : (ps.map (movedBy t)).Perm qs) (p : Point) : d.compute.score (movedBy t p) = c.compute.score p := by
  have hd' := Cell.Inv.run_new ((ps.map (movedBy t)).map .addPoint)
  rw [pointsOf_map_addPoint] at hd'
  rw [← hd'.compute_eq hd h]
  generalize Cell.new.run _ = e at hd'
  clear hd h
  have hc' := hc.compute
  have he' := hd'.compute
  have vc : 3 ≤ ps.length → c.compute.valid = true := by
    intro h3
    unfold Cell.compute Cell.computeWith
    split
    · rename_i hv
      rcases hv with hv | hv
      · exact hv
      · rw [hc.n] at hv
        have : ps.length < 3 := by exact_mod_cast hv
        omega
    · rfl
  have ve : 3 ≤ ps.length → e.compute.valid = true := by
    intro h3
    unfold Cell.compute Cell.computeWith
    split
    · rename_i hv
      rcases hv with hv | hv
      · exact hv
      · rw [hd'.n, List.length_map] at hv
        have : ps.length < 3 := by exact_mod_cast hv
        omega
    · rfl
  unfold Cell.score
  by_cases h5 : (ps.length : ℝ) < 5
  · rw [if_pos (by rw [he'.n, List.length_map]; exact h5), if_pos (by rw [hc'.n]; exact h5)]
  rw [if_neg (by rw [he'.n, List.length_map]; exact h5), if_neg (by rw [hc'.n]; exact h5)]
  have h5' : 5 ≤ ps.length := by
    push Not at h5; exact_mod_cast h5
  have hne : ps ≠ [] := by rintro rfl; simp at h5'
  obtain ⟨mx, my⟩ := avg_movedBy_x t hne
  have hcov : e.compute.covarianceOf = c.compute.covarianceOf := by
    have hxx := avg_movedBy_sq (·.x) (·.x) t.x t.x t hne (fun _ => rfl) (fun _ => rfl)
    have hxy := avg_movedBy_sq (·.x) (·.y) t.x t.y t hne (fun _ => rfl) (fun _ => rfl)
    have hyy := avg_movedBy_sq (·.y) (·.y) t.y t.y t hne (fun _ => rfl) (fun _ => rfl)
    simp only [Cell.covarianceOf, he'.n, hc'.n, he'.mean, hc'.mean, he'.corr, hc'.corr, List.length_map, mx, my,
      hxx, hxy, hyy, Mat2.mk.injEq]
    refine ⟨?_, ?_, ?_, ?_⟩ <;> congr 1 <;> ring
  have i1 := (hc'.cached (vc (by omega))).2.1
  have i2 := (he'.cached (ve (by omega))).2.1
  rw [hcov] at i2
  rw [i1, i2, he'.mean, hc'.mean]
  simp only [mx, my, movedBy]
  rw [show p.x + t.x - (avg (fun p => p.x) ps + t.x) = p.x - avg (fun p => p.x) ps by ring,
    show p.y + t.y - (avg (fun p => p.y) ps + t.y) = p.y - avg (fun p => p.y) ps by ring]

/-! ### Two maps -/

theorem square_movedBy (ox oy c : ℝ) (t p : Point) :
    square (ox + t.x) (oy + t.y) c (movedBy t p) = square ox oy c p := by
  unfold square movedBy
  simp only
  rw [show p.x + t.x - (ox + t.x) = p.x - ox by ring, show p.y + t.y - (oy + t.y) = p.y - oy by ring]

theorem inSquare_movedBy (ox oy c : ℝ) (k : ℤ × ℤ) (t : Point) (ps : List Point) :
    inSquare (ox + t.x) (oy + t.y) c k (ps.map (movedBy t)) = (inSquare ox oy c k ps).map (movedBy t) := by
  unfold inSquare
  rw [List.filter_map]
  congr 1
  apply List.filter_congr
  intro p _
  simp only [Function.comp, square_movedBy]

/-- Two maps made of the same points, up to order and a common displacement `t`. -/
structure Twin (t : Point) (g g' : NdtGrid) (pts pts' : List Point) : Prop where
  made : MadeOf g pts
  made' : MadeOf g' pts'
  cell : g'.cellSize = g.cellSize
  ox : g'.originX = g.originX + t.x
  oy : g'.originY = g.originY + t.y
  perm : (pts.map (movedBy t)).Perm pts'

theorem score_empty {c : Cell} (h : c.Inv []) (p : Point) : c.compute.score p = .fin 0 := by
  unfold Cell.score
  rw [if_pos (by rw [h.compute.n]; norm_num)]

/-- A square that is not one of the map's holds no point. -/
theorem MadeOf.empty {g : NdtGrid} {pts : List Point} (h : MadeOf g pts) {x y : ℕ}
    (hout : g.sizeX ≤ x ∨ g.sizeY ≤ y) :
    inSquare g.originX g.originY g.cellSize ((x : ℤ), (y : ℤ)) pts = [] := by
  unfold inSquare
  rw [List.filter_eq_nil_iff]
  intro p hp hsq
  obtain ⟨⟨-, b⟩, -, d⟩ := (inExtents_iff h.wf.cellPos _ _ _).mp (h.inside p hp)
  have hsq : square g.originX g.originY g.cellSize p = ((x : ℤ), (y : ℤ)) := by simpa using hsq
  rw [hsq] at b d
  rcases hout with hx | hy
  · have : (x : ℤ) < g.sizeX := b
    omega
  · have : (y : ℤ) < g.sizeY := d
    omega

theorem Twin.likelihood {t : Point} {g g' : NdtGrid} {pts pts' : List Point} (h : Twin t g g' pts pts') (p : Point) :
    g'.likelihood (movedBy t p) = g.likelihood p := by
  have hsq : ∀ x y : ℕ, ((inSquare g.originX g.originY g.cellSize ((x : ℤ), (y : ℤ)) pts).map (movedBy t)).Perm
      (inSquare g'.originX g'.originY g'.cellSize ((x : ℤ), (y : ℤ)) pts') := by
    intro x y
    rw [← inSquare_movedBy, h.ox, h.oy, h.cell]
    exact h.perm.filter _
  have key : ∀ (k : NdtGrid) (qs : List Point), MadeOf k qs → ∀ (q : Point) (x y : ℕ),
      ∃ c : Cell, c.Inv (inSquare k.originX k.originY k.cellSize ((x : ℤ), (y : ℤ)) qs) ∧
        ((if (x : ℕ) ≥ k.sizeX ∨ y ≥ k.sizeY then (pure (-1) : Res ℤ)
          else pure (wrapI32 ((y * k.sizeX + x) % 2 ^ 64))) >>= fun index =>
          if 0 ≤ index then
            match k.cells[index.toNat]? with
            | some c => pure (c.score q)
            | none => .error .outOfBounds
          else pure (.fin 0)) = (.ok (c.compute.score q) : Res Fl) := by
    intro k qs hk q x y
    by_cases hout : k.sizeX ≤ x ∨ k.sizeY ≤ y
    · refine ⟨Cell.new, ?_, ?_⟩
      · rw [hk.empty hout]; exact Cell.Inv.new
      · rw [if_pos hout, score_empty Cell.Inv.new]
        rfl
    · have ho := hout
      push Not at ho
      obtain ⟨c0, hc0, hcell⟩ := hk.cells x y ho.1 ho.2
      refine ⟨c0, hc0, ?_⟩
      have hlt := index_lt ho.1 ho.2
      have : y * k.sizeX + x < 2 ^ 31 := lt_of_lt_of_le hlt hk.wf.small
      rw [if_neg hout, Nat.mod_eq_of_lt (by omega), wrapI32_of_lt this]
      simp only [Res.pure_eq, Res.ok_bind]
      rw [if_pos (Int.natCast_nonneg _), Int.toNat_natCast]
      have hcell' : k.cells[y * k.sizeX + x]? = some c0.compute := hcell
      rw [hcell']
  unfold NdtGrid.likelihood NdtGrid.getIndex NdtGrid.getIndexF
  have hx : (Fl.fin (movedBy t p).x < Fl.fin g'.originX) = (Fl.fin p.x < Fl.fin g.originX) := by
    rw [h.ox]; simp [movedBy]
  have hy : (Fl.fin (movedBy t p).y < Fl.fin g'.originY) = (Fl.fin p.y < Fl.fin g.originY) := by
    rw [h.oy]; simp [movedBy]
  have dx : Fl.fin (movedBy t p).x - Fl.fin g'.originX = Fl.fin p.x - Fl.fin g.originX := by
    rw [h.ox, Fl.fin_sub, Fl.fin_sub]; simp only [movedBy]; congr 1; ring
  have dy : Fl.fin (movedBy t p).y - Fl.fin g'.originY = Fl.fin p.y - Fl.fin g.originY := by
    rw [h.oy, Fl.fin_sub, Fl.fin_sub]; simp only [movedBy]; congr 1; ring
  simp only [hx, hy, dx, dy, h.cell]
  split
  · rfl
  · cases toU32F ((Fl.fin p.x - Fl.fin g.originX) / Fl.fin g.cellSize) with
    | error e => rfl
    | ok x =>
      cases toU32F ((Fl.fin p.y - Fl.fin g.originY) / Fl.fin g.cellSize) with
      | error e => rfl
      | ok y =>
        simp only [Res.ok_bind]
        obtain ⟨c, hc, e1⟩ := key g pts h.made p x y
        obtain ⟨d, hd, e2⟩ := key g' pts' h.made' (movedBy t p) x y
        refine Eq.trans e2 (Eq.trans ?_ e1.symm)
        rw [hc.score_movedBy t hd (hsq x y)]

theorem Twin.likelihoodPoints {t : Point} {g g' : NdtGrid} {pts pts' : List Point} (h : Twin t g g' pts pts')
    (ps : List Point) : g'.likelihoodPoints (ps.map (movedBy t)) = g.likelihoodPoints ps := by
  unfold NdtGrid.likelihoodPoints
  rw [List.foldlM_map]
  simp only [h.likelihood]

/-! ### Matching against two maps -/

theorem move_elsewhere (t : Point) (n : ℤ) (s : Scan) (p : Point) :
    move (elsewhere t n s).pose p = movedBy t (move s.pose p) := by
  simp only [move, elsewhere, movedBy, Real.cos_add_int_mul_two_pi, Real.sin_add_int_mul_two_pi, Point.mk.injEq]
  constructor <;> ring

theorem pointsInMap_elsewhere (t : Point) (n : Scan → ℤ) (scans : List Scan) :
    pointsInMap (scans.map fun s => elsewhere t (n s) s) = (pointsInMap scans).map (movedBy t) := by
  unfold pointsInMap
  rw [List.flatMap_map, List.map_flatMap]
  congr 1
  funext s
  rw [List.map_map]
  apply List.map_congr_left
  intro p _
  exact move_elsewhere t (n s) s p

theorem mapM_movedBy (t : Point) (f f' : ℕ → Res Point) (h : ∀ i, f' i = f i >>= fun p => .ok (movedBy t p))
    (l : List ℕ) : l.mapM f' = l.mapM f >>= fun ps => .ok (ps.map (movedBy t)) := by
  induction l with
  | nil => rfl
  | cons i l ih =>
    rw [List.mapM_cons, List.mapM_cons, ih, h i]
    cases f i with
    | error e => rfl
    | ok p =>
      simp only [Res.ok_bind]
      cases l.mapM f with
      | error e => rfl
      | ok ps => rfl

theorem outerPoints_elsewhere (points : List Point) (m : ℕ) (s : Scan) (t : Point) (n : ℤ) (dth : ℝ) :
    Matcher.outerPoints points m (elsewhere t n s).pose dth =
      Matcher.outerPoints points m s.pose dth >>= fun ps => .ok (ps.map (movedBy t)) := by
  unfold Matcher.outerPoints
  apply mapM_movedBy
  intro i
  cases Matcher.beam points m i with
  | error e => rfl
  | ok p =>
    simp only [Res.ok_bind, Res.pure_eq, elsewhere, movedBy, Except.ok.injEq, Point.mk.injEq]
    rw [show s.pose.theta + n * (2 * Real.pi) + dth = s.pose.theta + dth + n * (2 * Real.pi) by ring,
      Real.cos_add_int_mul_two_pi, Real.sin_add_int_mul_two_pi]
    constructor <;> ring

theorem Twin.search {t : Point} {g g' : NdtGrid} {pts pts' : List Point} (h : Twin t g g' pts pts')
    {mt mt' : Matcher} (e1 : mt'.angularSize = mt.angularSize) (e2 : mt'.angularRes = mt.angularRes)
    (e3 : mt'.linearSize = mt.linearSize) (e4 : mt'.linearRes = mt.linearRes) (points : List Point) (m : ℕ)
    (s : Scan) (n : ℤ) (a : Matcher.SearchAcc) :
    mt'.search g' points m (elsewhere t n s).pose a = mt.search g points m s.pose a := by
  have hb : ∀ (outer : List Point) (dth dx dy : ℝ) (a : Matcher.SearchAcc),
      Matcher.searchBody g' (outer.map (movedBy t)) dth dx dy a = Matcher.searchBody g outer dth dx dy a := by
    intro outer dth dx dy a
    unfold Matcher.searchBody
    have : List.map (fun p : Point => ({ x := p.x + dx, y := p.y + dy } : Point)) (outer.map (movedBy t)) =
        (outer.map fun p : Point => ({ x := p.x + dx, y := p.y + dy } : Point)).map (movedBy t) := by
      rw [List.map_map, List.map_map]
      apply List.map_congr_left
      intro p _
      simp only [Function.comp, movedBy, Point.mk.injEq]
      constructor <;> ring
    rw [this]
    simp only [h.likelihoodPoints]
  unfold Matcher.search
  rw [e1, e2, e3, e4]
  congr 1
  funext a dth
  rw [outerPoints_elsewhere]
  cases Matcher.outerPoints points m s.pose dth with
  | error e => rfl
  | ok outer =>
    simp only [Res.ok_bind, hb]

theorem Twin.matchScan {t : Point} {g g' : NdtGrid} {pts pts' : List Point} (h : Twin t g g' pts pts')
    (mt : Matcher) (s : Scan) (n : ℤ) (pose : Pose2d) (cov : Mat3F) :
    ({ mt with ndt := some g' } : Matcher).matchScan (elsewhere t n s) pose cov =
      ({ mt with ndt := some g } : Matcher).matchScan s pose cov := by
  unfold Matcher.matchScan
  simp only [Scan.getPoints, Scan.getPose]
  rw [h.search (mt := { mt with ndt := some g }) (mt' := { mt with ndt := some g' }) rfl rfl rfl rfl]
  rfl

theorem Twin.scoreScan {t : Point} {g g' : NdtGrid} {pts pts' : List Point} (h : Twin t g g' pts pts')
    (mt : Matcher) (s : Scan) (n : ℤ) :
    ({ mt with ndt := some g' } : Matcher).scoreScan (elsewhere t n s) =
      ({ mt with ndt := some g } : Matcher).scoreScan s := by
  unfold Matcher.scoreScan Matcher.scorePoints
  simp only [Scan.getPoints, Scan.getPose, apply_eq_move, move_elsewhere, h.likelihood]
  rfl

end

end Ndt
