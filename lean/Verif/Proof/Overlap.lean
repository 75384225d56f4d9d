import Verif.Proof.Scores
import Verif.Proof.Matcher
import Verif.Proof.Mapper
import Verif.Props.CellProps
import Verif.Spec.Overlap

/-! # Scores count points that have a place in the map -/

namespace Ndt

noncomputable section

open Spec

theorem toU32F_lt {x : ℝ} {n : ℕ} (h0 : 0 ≤ x) (h : toU32F (.fin x) = .ok n) : x < 2 ^ 32 := by
  change toU32 x = .ok n at h
  unfold toU32 truncZ at h
  simp only [if_pos h0] at h
  split at h
  · rename_i h1
    exact_mod_cast Int.floor_lt.mp h1.2
  · cases h

/-- A point outside has no cell. -/
theorem NdtGrid.getIndex_beyond {g : NdtGrid} {p : Point} {i : ℤ} (hc : 0 < g.cellSize)
    (h : ¬ InExtents g.originX g.originY g.cellSize g.sizeX g.sizeY p) (hi : g.getIndex p = .ok i) : i = -1 := by
  by_cases hn : Near g.originX g.originY g.cellSize p
  · rw [getIndex_outside hc hn h] at hi
    cases hi
    rfl
  · unfold getIndex getIndexF at hi
    split at hi
    · cases hi; rfl
    · rename_i h0
      simp only [Fl.fin_lt, not_or, not_lt] at h0
      exfalso
      obtain ⟨gx, h1, hi⟩ := Mapper.bind_ok hi
      obtain ⟨gy, h2, hi⟩ := Mapper.bind_ok hi
      apply hn
      rw [Fl.fin_sub, Fl.fin_div hc.ne'] at h1 h2
      refine ⟨?_, ?_⟩
      · have := toU32F_lt (div_nonneg (by linarith [h0.1]) hc.le) h1
        rwa [div_lt_iff₀ hc] at this
      · have := toU32F_lt (div_nonneg (by linarith [h0.2]) hc.le) h2
        rwa [div_lt_iff₀ hc] at this

theorem NdtGrid.near_inside {g : NdtGrid} (hw : g.WF) {p : Point}
    (h : InExtents g.originX g.originY g.cellSize g.sizeX g.sizeY p) : Near g.originX g.originY g.cellSize p := by
  obtain ⟨⟨a, b⟩, c, d⟩ := (inExtents_iff hw.cellPos _ _ _).mp h
  exact near_of_inExtents hw.cellPos hw.small (by omega) (by omega) h

/-- As `addMapPoint_spec`, for any point that could be added. -/
theorem NdtGrid.addMapPoint_done {g g' : NdtGrid} (hw : g.WF) {p : Point} (h : g.addMapPoint p = .ok g') :
    g.SameGeom g' ∧ ∀ x y : ℕ, x < g.sizeX → y < g.sizeY →
        g'.cellAt x y = (g.cellAt x y).map fun c =>
          if square g.originX g.originY g.cellSize p = ((x : ℤ), (y : ℤ)) then c.addPoint p else c := by
  by_cases hin : InExtents g.originX g.originY g.cellSize g.sizeX g.sizeY p
  · obtain ⟨g1, h1, h2, h3⟩ := addMapPoint_spec hw (near_inside hw hin)
    rw [h] at h1
    cases h1
    exact ⟨h2, h3⟩
  · unfold addMapPoint at h
    obtain ⟨i, hi, h⟩ := Mapper.bind_ok h
    have := getIndex_beyond hw.cellPos hin hi
    subst this
    rw [if_neg (by norm_num)] at h
    cases h
    refine ⟨SameGeom.refl g, ?_⟩
    intro x y hx hy
    have : ¬ square g.originX g.originY g.cellSize p = ((x : ℤ), (y : ℤ)) := by
      intro he
      apply hin
      rw [inExtents_iff hw.cellPos, he]
      simp only
      omega
    simp only [if_neg this]
    cases g.cellAt x y <;> rfl

theorem NdtGrid.addPoints_done (f : Point → Point) (ps : List Point) {g g' : NdtGrid} (hw : g.WF)
    (h : ps.foldlM (fun g p => g.addMapPoint (f p)) g = .ok g') :
    g.SameGeom g' ∧ ∀ x y : ℕ, x < g.sizeX → y < g.sizeY →
        g'.cellAt x y = (g.cellAt x y).map fun c =>
          ((ps.map f).filter (fun p => square g.originX g.originY g.cellSize p = ((x : ℤ), (y : ℤ)))).foldl
            Cell.addPoint c := by
  induction ps generalizing g with
  | nil =>
    cases h
    exact ⟨SameGeom.refl _, fun x y _ _ => by simp⟩
  | cons p ps ih =>
    rw [List.foldlM_cons] at h
    obtain ⟨g1, h1, h2⟩ := Mapper.bind_ok h
    obtain ⟨s1, c1⟩ := addMapPoint_done hw h1
    obtain ⟨s2, c2⟩ := ih (s1.wf hw) h2
    refine ⟨s1.trans s2, ?_⟩
    intro x y hx hy
    rw [c2 x y (by rw [s1.sizeX]; exact hx) (by rw [s1.sizeY]; exact hy), c1 x y hx hy,
      s1.originX, s1.originY, s1.cellSize]
    cases g.cellAt x y with
    | none => rfl
    | some c =>
      simp only [Option.map_some, List.map_cons, List.filter_cons]
      by_cases hs : square g.originX g.originY g.cellSize (f p) = ((x : ℤ), (y : ℤ)) <;> simp [hs]

theorem NdtGrid.run_done (ops : List NdtOp) {g g' : NdtGrid} (hw : g.WF) (h : g.run ops = .ok g') :
    g.SameGeom g' ∧ ∀ x y : ℕ, x < g.sizeX → y < g.sizeY →
        g'.cellAt x y = (g.cellAt x y).map fun c =>
          c.run (cellOps g.originX g.originY g.cellSize ((x : ℤ), (y : ℤ)) ops) := by
  induction ops generalizing g with
  | nil =>
    cases h
    refine ⟨SameGeom.refl _, fun x y _ _ => ?_⟩
    cases NdtGrid.cellAt _ x y <;> rfl
  | cons op ops ih =>
    have h' : (g.step op >>= fun g => g.run ops) = .ok g' := by rw [← h]; simp [NdtGrid.run]
    obtain ⟨g1, h1, h2⟩ := Mapper.bind_ok h'
    cases op with
    | compute =>
      have e1 : g1 = g.compute := by cases h1; rfl
      subst e1
      have s1 : g.SameGeom g.compute := ⟨rfl, rfl, rfl, rfl, rfl, by simp [compute]⟩
      obtain ⟨s2, c2⟩ := ih (s1.wf hw) h2
      refine ⟨s1.trans s2, ?_⟩
      intro x y hx hy
      rw [c2 x y hx hy]
      have : g.compute.cellAt x y = (g.cellAt x y).map Cell.compute := by
        simp [cellAt, compute]
      rw [this, Option.map_map]
      rfl
    | addScan s =>
      obtain ⟨s1, c1⟩ := addPoints_done (mapPoint s.pose) s.points hw h1
      obtain ⟨s2, c2⟩ := ih (s1.wf hw) h2
      refine ⟨s1.trans s2, ?_⟩
      intro x y hx hy
      rw [c2 x y (by rw [s1.sizeX]; exact hx) (by rw [s1.sizeY]; exact hy), c1 x y hx hy,
        s1.originX, s1.originY, s1.cellSize]
      have e : s.points.map (mapPoint s.pose) = s.points.map (move s.pose) :=
        List.map_congr_left fun p _ => mapPoint_eq_move _ _
      rw [e, Option.map_map]
      congr 1
      funext c
      simp only [Function.comp, cellOps, cell_foldl_run, Cell.run_append]

theorem mapPoints_scans (scans : List Scan) : mapPoints (scans.map .addScan ++ [.compute]) = pointsInMap scans := by
  rw [mapPoints_append]
  simp only [mapPoints, List.append_nil]
  induction scans with
  | nil => rfl
  | cons s scans ih => simp [mapPoints, pointsInMap, ih] 

/-- Two points of one square are nearer than its side in both coordinates. -/
theorem near_of_square {ox oy c : ℝ} (hc : 0 < c) {p q : Point} (h : square ox oy c q = square ox oy c p) :
    |q.x - p.x| < c ∧ |q.y - p.y| < c := by
  have key : ∀ a b o : ℝ, ⌊(a - o) / c⌋ = ⌊(b - o) / c⌋ → |a - b| < c := by
    intro a b o h
    have := Int.abs_sub_lt_one_of_floor_eq_floor h
    rw [← sub_div, abs_div, abs_of_pos hc, div_lt_one hc] at this
    rwa [show a - o - (b - o) = a - b by ring] at this
  simp only [square, Prod.mk.injEq] at h
  exact ⟨key _ _ _ h.1, key _ _ _ h.2⟩

/-- A point without a place in the map scores nothing. -/
theorem likelihood_lonely {mt mt' : Matcher} {scans : List Scan} {g : NdtGrid} (hres : 0 < mt.resolution)
    (h : mt.addScans scans = .ok mt') (hg : mt'.ndt = some g) (hsmall : g.sizeX * g.sizeY ≤ 2 ^ 31) {p : Point} {v : Fl}
    (hv : g.likelihood p = .ok v) (hp : ¬ Placed mt.resolution (pointsInMap scans) p) : v = .fin 0 := by
  obtain ⟨g0, g', h0, h1, rfl, geo⟩ := addScans_ok h
  simp only [Option.some.injEq] at hg
  subst hg
  have hs0 : g0.sizeX * g0.sizeY ≤ 2 ^ 31 := by rw [← geo.sizeX, ← geo.sizeY]; exact hsmall
  have hnew : g0.cellSize = mt.resolution ∧ ∃ k, g0.cells = List.replicate (g0.sizeX * g0.sizeY % 2 ^ 64) k ∧ k = Cell.new := by
    unfold NdtGrid.new at h0
    obtain ⟨a, -, h0⟩ := Mapper.bind_ok h0
    obtain ⟨b, -, h0⟩ := Mapper.bind_ok h0
    cases h0
    exact ⟨rfl, _, rfl, rfl⟩
  obtain ⟨hcs, k, hcells, rfl⟩ := hnew
  have hmod : g0.sizeX * g0.sizeY % 2 ^ 64 = g0.sizeX * g0.sizeY := Nat.mod_eq_of_lt (by omega)
  rw [hmod] at hcells
  have hw : g0.WF := ⟨by rw [hcs]; exact hres, by rw [hcells]; simp, hs0⟩
  obtain ⟨-, hc⟩ := NdtGrid.run_done _ hw h1
  have hwg := geo.wf hw
  unfold NdtGrid.likelihood at hv
  obtain ⟨i, hi, hv⟩ := Mapper.bind_ok hv
  by_cases hin : InExtents g'.originX g'.originY g'.cellSize g'.sizeX g'.sizeY p
  · obtain ⟨x, y, hsq, hx, hy, hi'⟩ := NdtGrid.getIndex_inside hwg (NdtGrid.near_inside hwg hin) hin
    rw [hi] at hi'
    cases hi'
    rw [if_pos (Int.natCast_nonneg _), Int.toNat_natCast] at hv
    have hx0 : x < g0.sizeX := by rw [← geo.sizeX]; exact hx
    have hy0 : y < g0.sizeY := by rw [← geo.sizeY]; exact hy
    have hcell := hc x y hx0 hy0
    have hcell0 : g0.cellAt x y = some Cell.new := by
      simp only [NdtGrid.cellAt]
      rw [hcells, List.getElem?_replicate, if_pos (index_lt hx0 hy0)]
    rw [hcell0, Option.map_some] at hcell
    have hcell' : g'.cells[y * g'.sizeX + x]? = _ := hcell
    rw [hcell'] at hv
    simp only [Res.pure_eq, Except.ok.injEq] at hv
    rw [← hv]
    unfold Cell.score
    rw [if_pos]
    rw [(c02_cell_statistics_are_batch _).1, pointsOf_cellOps, mapPoints_scans]
    have hlt : (nearby mt.resolution (pointsInMap scans) p).length < 5 := not_le.mp hp
    have hle : (inSquare g0.originX g0.originY g0.cellSize ((x : ℤ), (y : ℤ)) (pointsInMap scans)).length ≤
        (nearby mt.resolution (pointsInMap scans) p).length := by
      unfold inSquare nearby
      apply List.Sublist.length_le
      apply List.monotone_filter_right
      intro q hq
      simp only [decide_eq_true_eq] at hq ⊢
      rw [geo.originX, geo.originY, geo.cellSize] at hsq
      have := near_of_square hw.cellPos (hq.trans hsq.symm)
      rwa [hcs] at this
    have : (inSquare g0.originX g0.originY g0.cellSize ((x : ℤ), (y : ℤ)) (pointsInMap scans)).length < 5 := by omega
    exact_mod_cast this
  · have := NdtGrid.getIndex_beyond hwg.cellPos hin hi
    subst this
    rw [if_neg (by norm_num)] at hv
    cases hv
    rfl

/-- The sum of the likelihoods is at most the number of points that have a place. -/
theorem likelihoodPoints_le_placed {mt mt' : Matcher} {scans : List Scan} {g : NdtGrid} (hres : 0 < mt.resolution)
    (h : mt.addScans scans = .ok mt') (hg : mt'.ndt = some g) (hsmall : g.sizeX * g.sizeY ≤ 2 ^ 31) (ps : List Point)
    {v : ℝ} (hv : g.likelihoodPoints ps = .ok (.fin v)) : v ≤ (placed mt.resolution scans ps).length := by
  obtain ⟨g1, e, hcomp⟩ := addScans_computed h
  have e1 : g1 = g := by rw [e] at hg; simpa using hg
  subst e1
  have key : ∀ (ps : List Point) (a v : Fl) (m : ℝ), a.UpTo m →
      ps.foldlM (fun score p => do let v ← g1.likelihood p; (pure (score + v) : Res Fl)) a = .ok v →
      v.UpTo (m + (placed mt.resolution scans ps).length) := by
    intro ps
    induction ps with
    | nil => intro a v m ha h; cases h; simpa [placed] using ha
    | cons p ps ih =>
      intro a v m ha h'
      rw [List.foldlM_cons] at h'
      cases h1 : g1.likelihood p with
      | error e => rw [h1] at h'; cases h'
      | ok w =>
        rw [h1, Res.ok_bind, Res.pure_eq, Res.ok_bind] at h'
        by_cases hp : Placed mt.resolution (pointsInMap scans) p
        · have := ih _ _ _ (upTo_add ha (likelihood_upTo hcomp h1)) h'
          rw [show placed mt.resolution scans (p :: ps) = p :: placed mt.resolution scans ps by simp [placed, hp],
            List.length_cons]
          push_cast
          rwa [show m + (((placed mt.resolution scans ps).length : ℝ) + 1) =
            m + 1 + (placed mt.resolution scans ps).length by ring]
        · have hw := likelihood_lonely hres h hg hsmall h1 hp
          rw [show placed mt.resolution scans (p :: ps) = placed mt.resolution scans ps by simp [placed, hp]]
          refine ih _ _ _ ?_ h'
          have := upTo_add ha (show w.UpTo 0 from Or.inr ⟨0, hw, le_rfl, le_rfl⟩)
          rwa [add_zero] at this
  have := key ps (.fin 0) _ 0 (Or.inr ⟨0, rfl, le_rfl, le_rfl⟩) hv
  rcases this with e | ⟨r, e, -, h2⟩
  · cases e
  · cases e
    linarith

end

end Ndt
