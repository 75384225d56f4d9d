import Verif.Spec.NdtGrid
import Verif.Proof.Cell
import Mathlib.Data.List.Count

/-! # Lemmas for C06-C09 -/

namespace Ndt

noncomputable section

open Spec

/-- The geometry assumptions under which the grid is exact. -/
structure NdtGrid.WF (g : NdtGrid) : Prop where
  cellPos : 0 < g.cellSize
  len : g.cells.length = g.sizeX * g.sizeY
  small : g.sizeX * g.sizeY ≤ 2 ^ 31

theorem toU32F_nonneg {x o c : ℝ} (hc : 0 < c) (h0 : o ≤ x) (h : x - o < 2 ^ 32 * c) :
    toU32F ((Fl.fin x - Fl.fin o) / Fl.fin c) = .ok ⌊(x - o) / c⌋.toNat := by
  rw [Fl.fin_sub, Fl.fin_div hc.ne']
  apply toU32_of_nonneg
  · exact div_nonneg (by linarith) hc.le
  · rw [div_lt_iff₀ hc]; exact h

theorem floor_lt_iff {x o c : ℝ} (hc : 0 < c) (n : ℕ) : ⌊(x - o) / c⌋ < n ↔ x < o + n * c := by
  rw [Int.floor_lt, div_lt_iff₀ hc]
  push_cast
  constructor <;> intro h <;> linarith

theorem floor_nonneg_iff {x o c : ℝ} (hc : 0 < c) : 0 ≤ ⌊(x - o) / c⌋ ↔ o ≤ x := by
  rw [Int.floor_nonneg, le_div_iff₀ hc]
  constructor <;> intro h <;> linarith

/-- `InExtents` in terms of the square. -/
theorem inExtents_iff {ox oy c : ℝ} (hc : 0 < c) (nx ny : ℕ) (p : Point) :
    InExtents ox oy c nx ny p ↔
      (0 ≤ (square ox oy c p).1 ∧ (square ox oy c p).1 < nx) ∧
      (0 ≤ (square ox oy c p).2 ∧ (square ox oy c p).2 < ny) := by
  simp only [InExtents, square, floor_lt_iff hc, floor_nonneg_iff hc]
  tauto

theorem index_lt {sx sy x y : ℕ} (hx : x < sx) (hy : y < sy) : y * sx + x < sx * sy := by
  calc y * sx + x < y * sx + sx := by omega
    _ = (y + 1) * sx := by ring
    _ ≤ sy * sx := Nat.mul_le_mul_right _ (by omega)
    _ = sx * sy := by ring

theorem index_inj {sx x y x' y' : ℕ} (hx : x < sx) (hx' : x' < sx)
    (h : y * sx + x = y' * sx + x') : x = x' ∧ y = y' := by
  have h1 : (x + sx * y) % sx = x := by rw [Nat.add_mul_mod_self_left]; exact Nat.mod_eq_of_lt hx
  have h2 : (x' + sx * y') % sx = x' := by rw [Nat.add_mul_mod_self_left]; exact Nat.mod_eq_of_lt hx'
  have e : x + sx * y = x' + sx * y' := by rw [Nat.mul_comm sx, Nat.mul_comm sx]; omega
  have hxx : x = x' := by rw [← h1, ← h2, e]
  refine ⟨hxx, ?_⟩
  have : sx * y = sx * y' := by omega
  exact Nat.eq_of_mul_eq_mul_left (by omega) this

/-- `getIndex` on a point inside. -/
theorem NdtGrid.getIndex_inside {g : NdtGrid} (hw : g.WF) {p : Point}
    (hn : Near g.originX g.originY g.cellSize p)
    (h : InExtents g.originX g.originY g.cellSize g.sizeX g.sizeY p) :
    ∃ x y : ℕ, square g.originX g.originY g.cellSize p = ((x : ℤ), (y : ℤ)) ∧
      x < g.sizeX ∧ y < g.sizeY ∧ g.getIndex p = .ok ((y * g.sizeX + x : ℕ) : ℤ) := by
  have hc := hw.cellPos
  obtain ⟨⟨a, b⟩, c, d⟩ := (inExtents_iff hc _ _ _).mp h
  obtain ⟨x, hx⟩ := Int.eq_ofNat_of_zero_le a
  obtain ⟨y, hy⟩ := Int.eq_ofNat_of_zero_le c
  have hx' : x < g.sizeX := by rw [hx] at b; exact_mod_cast b
  have hy' : y < g.sizeY := by rw [hy] at d; exact_mod_cast d
  refine ⟨x, y, Prod.ext hx hy, hx', hy', ?_⟩
  unfold getIndex getIndexF
  obtain ⟨h1, -, h2, -⟩ := h
  rw [if_neg (by simp [not_or, h1, h2]), toU32F_nonneg hc h1 hn.1, toU32F_nonneg hc h2 hn.2]
  simp only [square] at hx hy
  simp only [Res.ok_bind, hx, hy]
  have hlt := index_lt hx' hy'
  have : y * g.sizeX + x < 2 ^ 31 := lt_of_lt_of_le hlt hw.small
  have e3 : (y * g.sizeX + x) % 2 ^ 64 = y * g.sizeX + x := Nat.mod_eq_of_lt (by omega)
  rw [Int.toNat_natCast, Int.toNat_natCast, if_neg (by omega), e3, wrapI32_of_lt this]
  rfl

/-- `getIndex` on a point outside. -/
theorem NdtGrid.getIndex_outside {g : NdtGrid} (hc : 0 < g.cellSize) {p : Point}
    (hn : Near g.originX g.originY g.cellSize p)
    (h : ¬ InExtents g.originX g.originY g.cellSize g.sizeX g.sizeY p) :
    g.getIndex p = .ok (-1) := by
  unfold getIndex getIndexF
  split
  · rfl
  · rename_i h0
    simp only [Fl.fin_lt, not_or, not_lt] at h0
    rw [toU32F_nonneg hc h0.1 hn.1, toU32F_nonneg hc h0.2 hn.2]
    simp only [Res.ok_bind]
    rw [if_pos]
    · rfl
    · by_contra hcon
      push Not at hcon
      apply h
      rw [inExtents_iff hc]
      have hx := (floor_nonneg_iff hc).mpr h0.1
      have hy := (floor_nonneg_iff hc).mpr h0.2
      simp only [square]
      refine ⟨⟨hx, ?_⟩, hy, ?_⟩
      · omega
      · omega

/-- A point is far away exactly if its square's number does not fit 32 bits. -/
theorem mapPoint_eq_move (pose : Pose2d) (p : Point) : NdtGrid.mapPoint pose p = move pose p := by
  ext <;> simp only [NdtGrid.mapPoint, move] <;> ring

theorem apply_eq_move (pose : Pose2d) (p : Point) : (toEigen pose).apply p = move pose p := by
  ext <;> simp only [toEigen, Iso.apply, move] <;> ring

/-- Two grids that differ only in their cells. -/
structure NdtGrid.SameGeom (g g' : NdtGrid) : Prop where
  cellSize : g'.cellSize = g.cellSize
  sizeX : g'.sizeX = g.sizeX
  sizeY : g'.sizeY = g.sizeY
  originX : g'.originX = g.originX
  originY : g'.originY = g.originY
  len : g'.cells.length = g.cells.length

theorem NdtGrid.SameGeom.refl (g : NdtGrid) : g.SameGeom g := ⟨rfl, rfl, rfl, rfl, rfl, rfl⟩

theorem NdtGrid.SameGeom.trans {a b c : NdtGrid} (h : a.SameGeom b) (k : b.SameGeom c) : a.SameGeom c :=
  ⟨k.1.trans h.1, k.2.trans h.2, k.3.trans h.3, k.4.trans h.4, k.5.trans h.5, k.6.trans h.6⟩

theorem NdtGrid.SameGeom.wf {g g' : NdtGrid} (h : g.SameGeom g') (w : g.WF) : g'.WF :=
  ⟨by rw [h.cellSize]; exact w.1, by rw [h.len, h.sizeX, h.sizeY]; exact w.2,
   by rw [h.sizeX, h.sizeY]; exact w.3⟩

/-- The cell of square `(x, y)`. -/
def NdtGrid.cellAt (g : NdtGrid) (x y : ℕ) : Option Cell := g.cells[y * g.sizeX + x]?

theorem NdtGrid.addMapPoint_spec {g : NdtGrid} (hw : g.WF) {p : Point}
    (hn : Near g.originX g.originY g.cellSize p) :
    ∃ g', g.addMapPoint p = .ok g' ∧ g.SameGeom g' ∧
      ∀ x y : ℕ, x < g.sizeX → y < g.sizeY →
        g'.cellAt x y = (g.cellAt x y).map fun c =>
          if square g.originX g.originY g.cellSize p = ((x : ℤ), (y : ℤ)) then c.addPoint p else c := by
  by_cases hin : InExtents g.originX g.originY g.cellSize g.sizeX g.sizeY p
  · obtain ⟨x0, y0, hsq, hx0, hy0, hidx⟩ := getIndex_inside hw hn hin
    have hlt := index_lt hx0 hy0
    refine ⟨{ g with cells := g.cells.modify (y0 * g.sizeX + x0) (·.addPoint p) }, ?_, ?_, ?_⟩
    · unfold addMapPoint
      rw [hidx]
      simp only [Res.ok_bind]
      rw [if_pos (Int.natCast_nonneg _), Int.toNat_natCast, if_pos (by rw [hw.len]; exact hlt)]
      rfl
    · exact ⟨rfl, rfl, rfl, rfl, rfl, by simp⟩
    · intro x y hx hy
      simp only [cellAt, List.getElem?_modify, hsq, Prod.mk.injEq, Int.natCast_inj]
      by_cases he : y0 * g.sizeX + x0 = y * g.sizeX + x
      · obtain ⟨e1, e2⟩ := index_inj hx0 hx he
        subst e1 e2
        cases g.cells[y0 * g.sizeX + x0]? <;> simp
      · have : ¬ (x0 = x ∧ y0 = y) := by
          rintro ⟨rfl, rfl⟩; exact he rfl
        simp only [if_neg he, if_neg this]
        cases g.cells[y * g.sizeX + x]? <;> simp
  · refine ⟨g, ?_, SameGeom.refl g, ?_⟩
    · unfold addMapPoint
      rw [getIndex_outside hw.cellPos hn hin]
      rfl
    · intro x y hx hy
      have : ¬ square g.originX g.originY g.cellSize p = ((x : ℤ), (y : ℤ)) := by
        intro he
        apply hin
        rw [inExtents_iff hw.cellPos, he]
        simp only
        omega
      simp only [if_neg this]
      cases g.cellAt x y <;> rfl

theorem NdtGrid.addPoints_spec (f : Point → Point) (ps : List Point) {g : NdtGrid} (hw : g.WF)
    (hn : ∀ p ∈ ps, Near g.originX g.originY g.cellSize (f p)) :
    ∃ g', ps.foldlM (fun g p => g.addMapPoint (f p)) g = .ok g' ∧ g.SameGeom g' ∧
      ∀ x y : ℕ, x < g.sizeX → y < g.sizeY →
        g'.cellAt x y = (g.cellAt x y).map fun c =>
          ((ps.map f).filter (fun p => square g.originX g.originY g.cellSize p = ((x : ℤ), (y : ℤ)))).foldl
            Cell.addPoint c := by
  induction ps generalizing g with
  | nil => exact ⟨g, rfl, SameGeom.refl g, fun x y _ _ => by simp⟩
  | cons p ps ih =>
    obtain ⟨g1, h1, s1, c1⟩ := addMapPoint_spec hw (hn p (by simp))
    obtain ⟨g2, h2, s2, c2⟩ := ih (s1.wf hw) (by
      intro q hq; rw [s1.originX, s1.originY, s1.cellSize]; exact hn q (by simp [hq]))
    refine ⟨g2, ?_, s1.trans s2, ?_⟩
    · rw [List.foldlM_cons, h1]; exact h2
    · intro x y hx hy
      rw [c2 x y (by rw [s1.sizeX]; exact hx) (by rw [s1.sizeY]; exact hy), c1 x y hx hy,
        s1.originX, s1.originY, s1.cellSize]
      cases g.cellAt x y with
      | none => rfl
      | some c =>
        simp only [Option.map_some, List.map_cons, List.filter_cons]
        by_cases hs : square g.originX g.originY g.cellSize (f p) = ((x : ℤ), (y : ℤ)) <;> simp [hs]

theorem cell_foldl_run (ps : List Point) (c : Cell) :
    ps.foldl Cell.addPoint c = c.run (ps.map .addPoint) := by
  simp [Cell.run, List.foldl_map, Cell.step]

theorem Cell.run_append (c : Cell) (a b : List CellOp) : c.run (a ++ b) = (c.run a).run b := by
  simp [Cell.run]

theorem NdtGrid.run_spec (ops : List NdtOp) {g : NdtGrid} (hw : g.WF)
    (hn : ∀ p ∈ mapPoints ops, Near g.originX g.originY g.cellSize p) :
    ∃ g', g.run ops = .ok g' ∧ g.SameGeom g' ∧
      ∀ x y : ℕ, x < g.sizeX → y < g.sizeY →
        g'.cellAt x y = (g.cellAt x y).map fun c =>
          c.run (cellOps g.originX g.originY g.cellSize ((x : ℤ), (y : ℤ)) ops) := by
  induction ops generalizing g with
  | nil =>
    refine ⟨g, rfl, SameGeom.refl g, fun x y _ _ => ?_⟩
    cases g.cellAt x y <;> rfl
  | cons op ops ih =>
    cases op with
    | compute =>
      have s1 : g.SameGeom g.compute := ⟨rfl, rfl, rfl, rfl, rfl, by simp [compute]⟩
      obtain ⟨g2, h2, s2, c2⟩ := ih (s1.wf hw) hn
      refine ⟨g2, ?_, s1.trans s2, ?_⟩
      · show List.foldlM _ _ _ = _
        rw [List.foldlM_cons]; exact h2
      · intro x y hx hy
        rw [c2 x y hx hy]
        have : g.compute.cellAt x y = (g.cellAt x y).map Cell.compute := by
          simp [cellAt, compute]
        rw [this, Option.map_map]
        rfl
    | addScan s =>
      obtain ⟨g1, h1, s1, c1⟩ := addPoints_spec (mapPoint s.pose) s.points hw (by
        intro p hp
        rw [mapPoint_eq_move]
        apply hn
        simp only [mapPoints, List.mem_append, List.mem_map]
        exact Or.inl ⟨p, hp, rfl⟩)
      obtain ⟨g2, h2, s2, c2⟩ := ih (s1.wf hw) (by
        intro q hq
        rw [s1.originX, s1.originY, s1.cellSize]
        apply hn
        simp only [mapPoints, List.mem_append]
        exact Or.inr hq)
      refine ⟨g2, ?_, s1.trans s2, ?_⟩
      · show List.foldlM _ _ _ = _
        rw [List.foldlM_cons]
        have : g.step (.addScan s) = .ok g1 := h1
        rw [this]; exact h2
      · intro x y hx hy
        rw [c2 x y (by rw [s1.sizeX]; exact hx) (by rw [s1.sizeY]; exact hy), c1 x y hx hy,
          s1.originX, s1.originY, s1.cellSize]
        have e : s.points.map (mapPoint s.pose) = s.points.map (move s.pose) :=
          List.map_congr_left fun p _ => mapPoint_eq_move _ _
        rw [e, Option.map_map]
        congr 1
        funext c
        simp only [Function.comp, cellOps, cell_foldl_run, Cell.run_append]

/-- A freshly constructed grid. -/
theorem NdtGrid.new_spec {c sx sy ox oy : ℝ} (hc : 0 < c) (hx : 0 ≤ sx) (hy : 0 ≤ sy)
    (hsmall : cols sx c * cols sy c ≤ 2 ^ 31) :
    NdtGrid.new c sx sy ox oy = .ok
      { cellSize := c, sizeX := cols sx c, sizeY := cols sy c, originX := ox, originY := oy,
        cells := List.replicate (cols sx c * cols sy c) Cell.new } := by
  have key : ∀ s : ℝ, 0 ≤ s → cols s c ≤ 2 ^ 31 →
      toU64F (Fl.fin s / Fl.fin c + Fl.fin 1) = .ok (cols s c) := by
    intro s hs hle
    unfold cols at *
    have h0 : 0 ≤ s / c := div_nonneg hs hc.le
    have hf : 0 ≤ ⌊s / c⌋ := Int.floor_nonneg.mpr h0
    rw [Fl.fin_div hc.ne', Fl.fin_add]
    have hlt : s / c + 1 < 2 ^ 64 := by
      have h1 := Int.lt_floor_add_one (s / c)
      have h2 : ((⌊s / c⌋ : ℤ) : ℝ) ≤ 2 ^ 31 := by
        have : ⌊s / c⌋ ≤ 2 ^ 31 := by omega
        exact_mod_cast this
      have : (2 : ℝ) ^ 31 + 1 + 1 < 2 ^ 64 := by norm_num
      linarith
    show toU64 _ = _
    rw [toU64_of_nonneg (by linarith) hlt, Int.floor_add_one]
    congr 1
    omega
  have hb : ∀ a b : ℕ, (a + 1) * (b + 1) ≤ 2 ^ 31 → a + 1 ≤ 2 ^ 31 ∧ b + 1 ≤ 2 ^ 31 := by
    intro a b h
    constructor
    · exact le_trans (Nat.le_mul_of_pos_right _ (by omega)) h
    · exact le_trans (Nat.le_mul_of_pos_left _ (by omega)) h
  obtain ⟨b1, b2⟩ := hb _ _ hsmall
  unfold NdtGrid.new
  rw [key sx hx b1, key sy hy b2]
  simp only [Res.ok_bind, Res.pure_eq]
  rw [Nat.mod_eq_of_lt (by omega)]

theorem pointsOf_append (a b : List CellOp) : pointsOf (a ++ b) = pointsOf a ++ pointsOf b := by
  induction a with
  | nil => rfl
  | cons op a ih => cases op <;> simp [pointsOf, ih]

theorem pointsOf_map_addPoint (ps : List Point) : pointsOf (ps.map .addPoint) = ps := by
  induction ps with
  | nil => rfl
  | cons p ps ih => simp [pointsOf, ih]

theorem pointsOf_cellOps (ox oy c : ℝ) (k : ℤ × ℤ) (ops : List NdtOp) :
    pointsOf (cellOps ox oy c k ops) = inSquare ox oy c k (mapPoints ops) := by
  induction ops with
  | nil => rfl
  | cons op ops ih =>
    cases op with
    | compute => simpa [cellOps, pointsOf, mapPoints] using ih
    | addScan s =>
      simp only [cellOps, mapPoints, pointsOf_append, pointsOf_map_addPoint, ih, inSquare, List.filter_append]

theorem cellOps_append (ox oy c : ℝ) (k : ℤ × ℤ) (a b : List NdtOp) :
    cellOps ox oy c k (a ++ b) = cellOps ox oy c k a ++ cellOps ox oy c k b := by
  induction a with
  | nil => rfl
  | cons op a ih => cases op <;> simp [cellOps, ih]

theorem mapPoints_append (a b : List NdtOp) : mapPoints (a ++ b) = mapPoints a ++ mapPoints b := by
  induction a with
  | nil => rfl
  | cons op a ih => cases op <;> simp [mapPoints, ih]

theorem mapPoints_perm {a b : List NdtOp} (h : a.Perm b) : (mapPoints a).Perm (mapPoints b) := by
  induction h with
  | nil => exact List.Perm.refl _
  | cons x _ ih =>
    cases x with
    | addScan s => exact ih.append_left _
    | compute => exact ih
  | swap x y l =>
    cases x <;> cases y <;> simp only [mapPoints] <;> try exact List.Perm.refl _
    rw [← List.append_assoc, ← List.append_assoc]
    exact List.perm_append_comm.append_right _
  | trans _ _ ih1 ih2 => exact ih1.trans ih2

theorem sum_modify (cs : List Cell) (i : ℕ) (p : Point) (h : i < cs.length) :
    ((cs.modify i (·.addPoint p)).map (·.n)).sum = (cs.map (·.n)).sum + 1 := by
  induction cs generalizing i with
  | nil => simp at h
  | cons c cs ih =>
    cases i with
    | zero => simp [Cell.addPoint]; ring
    | succ i =>
      simp only [List.modify_succ_cons, List.map_cons, List.sum_cons]
      rw [ih i (by simpa using h)]; ring

theorem NdtGrid.addMapPoint_total {g g' : NdtGrid} (hw : g.WF) {p : Point}
    (hn : Near g.originX g.originY g.cellSize p) (h : g.addMapPoint p = .ok g') :
    (g'.cells.map (·.n)).sum = (g.cells.map (·.n)).sum +
      (open Classical in if InExtents g.originX g.originY g.cellSize g.sizeX g.sizeY p then 1 else 0) := by
  by_cases hin : InExtents g.originX g.originY g.cellSize g.sizeX g.sizeY p
  · obtain ⟨x0, y0, hsq, hx0, hy0, hidx⟩ := getIndex_inside hw hn hin
    have hlt := index_lt hx0 hy0
    unfold addMapPoint at h
    rw [hidx] at h
    simp only [Res.ok_bind] at h
    rw [if_pos (Int.natCast_nonneg _), Int.toNat_natCast, if_pos (by rw [hw.len]; exact hlt)] at h
    cases h
    rw [if_pos hin]
    exact sum_modify _ _ _ (by rw [hw.len]; exact hlt)
  · unfold addMapPoint at h
    rw [getIndex_outside hw.cellPos hn hin] at h
    cases h
    rw [if_neg hin]; simp

theorem NdtGrid.addPoints_total (f : Point → Point) (ps : List Point) {g g' : NdtGrid} (hw : g.WF)
    (hn : ∀ p ∈ ps, Near g.originX g.originY g.cellSize (f p))
    (h : ps.foldlM (fun g p => g.addMapPoint (f p)) g = .ok g') :
    (g'.cells.map (·.n)).sum = (g.cells.map (·.n)).sum +
      (open Classical in (ps.map f).countP
        fun p => InExtents g.originX g.originY g.cellSize g.sizeX g.sizeY p) := by
  induction ps generalizing g with
  | nil => cases h; simp
  | cons p ps ih =>
    obtain ⟨g1, h1, s1, -⟩ := addMapPoint_spec hw (hn p (by simp))
    rw [List.foldlM_cons, h1] at h
    have t1 := addMapPoint_total hw (hn p (by simp)) h1
    have t2 := ih (s1.wf hw) (by
      intro q hq; rw [s1.originX, s1.originY, s1.cellSize]; exact hn q (by simp [hq])) h
    rw [t2, t1, s1.originX, s1.originY, s1.cellSize, s1.sizeX, s1.sizeY]
    simp only [List.map_cons, List.countP_cons]
    push_cast
    split <;> simp_all <;> ring

theorem NdtGrid.run_total (ops : List NdtOp) {g g' : NdtGrid} (hw : g.WF)
    (hn : ∀ p ∈ mapPoints ops, Near g.originX g.originY g.cellSize p) (h : g.run ops = .ok g') :
    (g'.cells.map (·.n)).sum = (g.cells.map (·.n)).sum +
      (open Classical in (mapPoints ops).countP
        fun p => InExtents g.originX g.originY g.cellSize g.sizeX g.sizeY p) := by
  induction ops generalizing g with
  | nil => cases h; simp [mapPoints]
  | cons op ops ih =>
    cases op with
    | compute =>
      have s1 : g.SameGeom g.compute := ⟨rfl, rfl, rfl, rfl, rfl, by simp [compute]⟩
      have t := ih (g := g.compute) (s1.wf hw) hn h
      rw [t]
      have : g.compute.cells.map (·.n) = g.cells.map (·.n) := by
        simp only [compute, List.map_map]
        apply List.map_congr_left
        intro c _
        simp only [Function.comp, Cell.compute, Cell.computeWith]
        split <;> rfl
      rw [this]
      rfl
    | addScan s =>
      have hn1 : ∀ p ∈ s.points, Near g.originX g.originY g.cellSize (mapPoint s.pose p) := by
        intro p hp
        rw [mapPoint_eq_move]
        apply hn
        simp only [mapPoints, List.mem_append, List.mem_map]
        exact Or.inl ⟨p, hp, rfl⟩
      obtain ⟨g1, h1, s1, -⟩ := addPoints_spec (mapPoint s.pose) s.points hw hn1
      have t1 := addPoints_total (mapPoint s.pose) s.points hw hn1 h1
      have h' : g1.run ops = .ok g' := by
        have e : g.step (.addScan s) = .ok g1 := h1
        unfold run at h
        rw [List.foldlM_cons, e] at h
        exact h
      have t2 := ih (s1.wf hw) (by
        intro q hq
        rw [s1.originX, s1.originY, s1.cellSize]
        apply hn
        simp only [mapPoints, List.mem_append]
        exact Or.inr hq) h'
      have e : s.points.map (mapPoint s.pose) = s.points.map (move s.pose) :=
        List.map_congr_left fun p _ => mapPoint_eq_move _ _
      rw [t2, t1, s1.originX, s1.originY, s1.cellSize, s1.sizeX, s1.sizeY, e]
      simp only [mapPoints, List.countP_append]
      push_cast
      ring

theorem NdtGrid.new_wf {c sx sy ox oy : ℝ} (hc : 0 < c) (hx : 0 ≤ sx) (hy : 0 ≤ sy)
    (hsmall : cols sx c * cols sy c ≤ 2 ^ 31) :
    ∃ g, NdtGrid.new c sx sy ox oy = .ok g ∧ g.WF ∧ g.cellSize = c ∧ g.originX = ox ∧ g.originY = oy ∧
      g.sizeX = cols sx c ∧ g.sizeY = cols sy c ∧
      ∀ x y : ℕ, x < g.sizeX → y < g.sizeY → g.cellAt x y = some Cell.new := by
  refine ⟨_, new_spec hc hx hy hsmall, ⟨hc, by simp, hsmall⟩, rfl, rfl, rfl, rfl, rfl, ?_⟩
  intro x y hx hy
  simp only [cellAt]
  rw [List.getElem?_replicate, if_pos (index_lt hx hy)]

end

end Ndt
