import Verif.Proof.NdtGrid
import Verif.Props.CellProps

/-! # C06-C09: the NDT grid -/

namespace Ndt

noncomputable section

open Spec

/-! ### C06 -/

/-- **C06** The constructor makes `⌊size/cell⌋ + 1` columns and rows, so that the grid covers the closed
rectangle it was asked for, and one cell per square. -/
theorem c06_constructor_covers {c sx sy ox oy : ℝ} (hc : 0 < c) (hx : 0 ≤ sx) (hy : 0 ≤ sy)
    (hsmall : cols sx c * cols sy c ≤ 2 ^ 31) :
    ∃ g, NdtGrid.new c sx sy ox oy = .ok g ∧ g.cells.length = g.sizeX * g.sizeY ∧
      ∀ p : Point, ox ≤ p.x → p.x ≤ ox + sx → oy ≤ p.y → p.y ≤ oy + sy →
        InExtents ox oy c g.sizeX g.sizeY p := by
  obtain ⟨g, hg, hw, -, -, -, e1, e2, -⟩ := NdtGrid.new_wf (ox := ox) (oy := oy) hc hx hy hsmall
  refine ⟨g, hg, hw.len, ?_⟩
  intro p h1 h2 h3 h4
  have key : ∀ s : ℝ, 0 ≤ s → s < cols s c * c := by
    intro s hs
    have hf := Int.lt_floor_add_one (s / c)
    have h0 : 0 ≤ ⌊s / c⌋ := Int.floor_nonneg.mpr (div_nonneg hs hc.le)
    have e : ((⌊s / c⌋.toNat : ℕ) : ℝ) = (⌊s / c⌋ : ℝ) := by
      have := Int.toNat_of_nonneg h0
      exact_mod_cast this
    rw [div_lt_iff₀ hc] at hf
    unfold cols
    push_cast
    rw [e]; exact hf
  have k1 := key sx hx
  have k2 := key sy hy
  rw [e1, e2]
  exact ⟨h1, by linarith, h3, by linarith⟩

/-- **C06** In a grid of at most 2^31 cells every point less than 2^32 cells from the origin has a
well-defined index: a cell of the grid if the point lies in the extents, -1 otherwise. -/
theorem c06_index_exact_partial {c sx sy ox oy : ℝ} (hc : 0 < c) (hx : 0 ≤ sx) (hy : 0 ≤ sy)
    (hsmall : cols sx c * cols sy c ≤ 2 ^ 31) {g : NdtGrid} (hg : NdtGrid.new c sx sy ox oy = .ok g)
    (p : Point) (hn : Near ox oy c p) :
    ∃ i : ℤ, g.getIndex p = .ok i ∧
      (InExtents ox oy c (cols sx c) (cols sy c) p → 0 ≤ i ∧ i.toNat < g.cells.length) ∧
      (¬ InExtents ox oy c (cols sx c) (cols sy c) p → i = -1) := by
  obtain ⟨g', hg', hw, e0, e1, e2, e3, e4, -⟩ := NdtGrid.new_wf (ox := ox) (oy := oy) hc hx hy hsmall
  rw [hg] at hg'
  cases hg'
  rw [← e0, ← e1, ← e2] at hn
  by_cases hin : InExtents ox oy c (cols sx c) (cols sy c) p
  · have hin' := hin
    rw [← e0, ← e1, ← e2] at hin'
    simp only [e0, ← e3, ← e4] at hin'
    obtain ⟨x, y, -, hx', hy', hi⟩ := NdtGrid.getIndex_inside hw hn (by rw [e0, e1, e2]; rw [e1, e2] at hin'; exact hin')
    refine ⟨_, hi, fun _ => ⟨Int.natCast_nonneg _, ?_⟩, fun h => absurd hin h⟩
    rw [Int.toNat_natCast, hw.len]
    exact index_lt hx' hy'
  · refine ⟨-1, ?_, fun h => absurd h hin, fun _ => rfl⟩
    apply NdtGrid.getIndex_outside hw.cellPos hn
    rw [e0, e1, e2, e3, e4]; exact hin

/-- **C06** Two points inside the extents share a cell exactly if they lie in the same square. -/
theorem c06_same_cell_iff_same_square_partial {c sx sy ox oy : ℝ} (hc : 0 < c) (hx : 0 ≤ sx) (hy : 0 ≤ sy)
    (hsmall : cols sx c * cols sy c ≤ 2 ^ 31) {g : NdtGrid} (hg : NdtGrid.new c sx sy ox oy = .ok g)
    (p q : Point) (hp : InExtents ox oy c (cols sx c) (cols sy c) p)
    (hq : InExtents ox oy c (cols sx c) (cols sy c) q) :
    g.getIndex p = g.getIndex q ↔ square ox oy c p = square ox oy c q := by
  obtain ⟨g', hg', hw, e0, e1, e2, e3, e4, -⟩ := NdtGrid.new_wf (ox := ox) (oy := oy) hc hx hy hsmall
  rw [hg] at hg'
  cases hg'
  subst e0 e1 e2
  rw [← e3, ← e4] at hp hq
  have hb : g.sizeX ≤ 2 ^ 31 ∧ g.sizeY ≤ 2 ^ 31 := by
    have h1 : 0 < g.sizeX := by rw [e3]; simp [cols]
    have h2 : 0 < g.sizeY := by rw [e4]; simp [cols]
    exact ⟨le_trans (Nat.le_mul_of_pos_right _ h2) hw.small, le_trans (Nat.le_mul_of_pos_left _ h1) hw.small⟩
  have near : ∀ r, InExtents g.originX g.originY g.cellSize g.sizeX g.sizeY r →
      Near g.originX g.originY g.cellSize r := by
    rintro r ⟨-, h1, -, h2⟩
    have b1 : (g.sizeX : ℝ) ≤ 2 ^ 31 := by exact_mod_cast hb.1
    have b2 : (g.sizeY : ℝ) ≤ 2 ^ 31 := by exact_mod_cast hb.2
    have c1 := mul_le_mul_of_nonneg_right b1 hc.le
    have c2 := mul_le_mul_of_nonneg_right b2 hc.le
    constructor <;> nlinarith
  obtain ⟨x, y, s1, hx1, hy1, i1⟩ := NdtGrid.getIndex_inside hw (near p hp) hp
  obtain ⟨x', y', s2, hx2, hy2, i2⟩ := NdtGrid.getIndex_inside hw (near q hq) hq
  rw [i1, i2, s1, s2]
  constructor
  · intro h
    have h' : ((y * g.sizeX + x : ℕ) : ℤ) = ((y' * g.sizeX + x' : ℕ) : ℤ) := by injection h
    obtain ⟨e1, e2⟩ := index_inj hx1 hx2 (by exact_mod_cast h')
    rw [e1, e2]
  · intro h
    have h1 : (x : ℤ) = x' := congrArg Prod.fst h
    have h2 : (y : ℤ) = y' := congrArg Prod.snd h
    rw [Int.natCast_inj] at h1 h2
    rw [h1, h2]

/-- **C06** Memory safety without any assumption on the query, even for NaN and infinite coordinates: as long
as the number of cells fits `size_t`, an index that is produced is negative or inside the vector. -/
theorem c06_index_memory_safe_partial {c sx sy ox oy : ℝ} {g : NdtGrid} (hg : NdtGrid.new c sx sy ox oy = .ok g)
    (hfit : g.sizeX * g.sizeY < 2 ^ 64) (x y : Fl) (i : ℤ) (hi : g.getIndexF x y = .ok i) :
    i < 0 ∨ i.toNat < g.cells.length := by
  have hlen : g.cells.length = g.sizeX * g.sizeY := by
    unfold NdtGrid.new at hg
    cases h1 : toU64F (Fl.fin sx / Fl.fin c + Fl.fin 1) with
    | error e => rw [h1] at hg; cases hg
    | ok a =>
      cases h2 : toU64F (Fl.fin sy / Fl.fin c + Fl.fin 1) with
      | error e => rw [h1, h2] at hg; cases hg
      | ok b =>
        rw [h1, h2] at hg
        cases hg
        simp only at hfit ⊢
        rw [List.length_replicate, Nat.mod_eq_of_lt hfit]
  unfold NdtGrid.getIndexF at hi
  split at hi
  · cases hi; left; norm_num
  · cases h1 : toU32F ((x - .fin g.originX) / .fin g.cellSize) with
    | error e => rw [h1] at hi; cases hi
    | ok a =>
      cases h2 : toU32F ((y - .fin g.originY) / .fin g.cellSize) with
      | error e => rw [h1, h2] at hi; cases hi
      | ok b =>
        rw [h1, h2] at hi
        simp only [Res.ok_bind] at hi
        split at hi
        · cases hi; left; norm_num
        · rename_i hlt
          push Not at hlt
          cases hi
          by_cases h0 : 0 ≤ wrapI32 ((b * g.sizeX + a) % 2 ^ 64)
          · right
            have := wrapI32_toNat_le h0
            have h3 := index_lt hlt.1 hlt.2
            have h4 := Nat.mod_le (b * g.sizeX + a) (2 ^ 64)
            rw [hlen]; omega
          · left; omega

/-- **C06** The limits above are sharp: a point 2^32 cells or more up the x axis, and a NaN coordinate, run into
an undefined conversion. -/
theorem c06_far_and_nan_points_fault {g : NdtGrid} (hc : 0 < g.cellSize) (p : Point)
    (hx : 2 ^ 32 * g.cellSize ≤ p.x - g.originX) (hy : g.originY ≤ p.y) :
    g.getIndex p = .error .conversion ∧ g.getIndexF .nan .nan = .error .conversion := by
  constructor
  · unfold NdtGrid.getIndex NdtGrid.getIndexF
    have : g.originX ≤ p.x := by nlinarith
    rw [if_neg (by simp [not_or, this, hy]), Fl.fin_sub, Fl.fin_div hc.ne']
    have h1 : (2 : ℝ) ^ 32 ≤ (p.x - g.originX) / g.cellSize := by rw [le_div_iff₀ hc]; exact hx
    have h2 : ¬ (⌊(p.x - g.originX) / g.cellSize⌋ < 2 ^ 32) := by
      rw [not_lt, Int.le_floor]; push_cast; linarith
    have : toU32F (.fin ((p.x - g.originX) / g.cellSize)) = .error .conversion := by
      show toU32 _ = _
      unfold toU32
      rw [truncZ_of_nonneg (le_trans (by positivity) h1), if_neg (fun h => h2 h.2)]
    rw [this]; rfl
  · unfold NdtGrid.getIndexF
    rw [if_neg (by simp)]
    rfl

/-- **C06** (limit of the claim) A grid so large that its number of cells wraps modulo 2^64 reads out of bounds:
2^32 by 2^32 cells are allocated as none. -/
theorem c06_wrapped_grid_out_of_bounds :
    ∃ g, NdtGrid.new 1 (2 ^ 32 - 1) (2 ^ 32 - 1) 0 0 = .ok g ∧
      g.likelihood ⟨0, 0⟩ = .error .outOfBounds := by
  have h : toU64F (Fl.fin (2 ^ 32 - 1) / Fl.fin 1 + Fl.fin 1) = .ok (2 ^ 32) := by
    rw [Fl.fin_div one_ne_zero, Fl.fin_add]
    have e : ((2 : ℝ) ^ 32 - 1) / 1 + 1 = ((2 ^ 32 : ℤ) : ℝ) := by norm_num
    rw [e]
    show toU64 _ = _
    unfold toU64
    rw [truncZ_intCast]
    norm_num
    rfl
  refine ⟨{ cellSize := 1, sizeX := 2 ^ 32, sizeY := 2 ^ 32, originX := 0, originY := 0, cells := [] },
    ?_, ?_⟩
  · unfold NdtGrid.new
    rw [h]
    rfl
  · unfold NdtGrid.likelihood NdtGrid.getIndex NdtGrid.getIndexF
    rw [if_neg (by simp)]
    have : toU32F ((Fl.fin 0 - Fl.fin 0) / Fl.fin 1) = .ok 0 := by
      rw [Fl.fin_sub, Fl.fin_div one_ne_zero]
      show toU32 _ = _
      have := toU32_of_nonneg (x := (0 - 0) / 1) (by norm_num) (by norm_num)
      rw [this]; simp
    simp only [this, Res.ok_bind]
    norm_num [wrapI32]

/-- The hypotheses of C06 are met by the constructor's defaults: a 10 m x 10 m map with 0.25 m cells. -/
example : (0 : ℝ) < 0.25 ∧ cols 10 0.25 * cols 10 0.25 ≤ 2 ^ 31 ∧
    Near (-5) (-5) 0.25 ⟨1, 1⟩ ∧ InExtents (-5) (-5) 0.25 (cols 10 0.25) (cols 10 0.25) ⟨1, 1⟩ := by
  have e : cols 10 0.25 = 41 := by
    have : (10 : ℝ) / 0.25 = ((40 : ℤ) : ℝ) := by norm_num
    simp only [cols, this, Int.floor_intCast]
    rfl
  rw [e]
  refine ⟨by norm_num, by norm_num, ?_, ?_⟩
  · unfold Near; norm_num
  · unfold InExtents; norm_num

/-! ### C07 -/

/-- **C07** After any calls of `addScan` and `compute` on a new grid, no point being 2^32 cells away, each cell
has received exactly the map-frame points of its square, in order. -/
theorem c07_cell_receives_points_of_its_square {c sx sy ox oy : ℝ} (hc : 0 < c) (hx : 0 ≤ sx) (hy : 0 ≤ sy)
    (hsmall : cols sx c * cols sy c ≤ 2 ^ 31) (ops : List NdtOp)
    (hn : ∀ p ∈ mapPoints ops, Near ox oy c p) :
    ∃ g, (NdtGrid.new c sx sy ox oy >>= fun g => g.run ops) = .ok g ∧
      g.cells.length = cols sx c * cols sy c ∧
      ∀ x y : ℕ, x < cols sx c → y < cols sy c →
        g.cells[y * cols sx c + x]? = some (Cell.new.run (cellOps ox oy c (x, y) ops)) := by
  obtain ⟨g0, hg0, hw, e0, e1, e2, e3, e4, hcell⟩ := NdtGrid.new_wf (ox := ox) (oy := oy) hc hx hy hsmall
  obtain ⟨g, hg, s, hs⟩ := NdtGrid.run_spec ops hw (by rw [e0, e1, e2]; exact hn)
  refine ⟨g, ?_, ?_, ?_⟩
  · rw [hg0]; exact hg
  · rw [s.len, hw.len, e3, e4]
  · intro x y hx' hy'
    have := hs x y (by rw [e3]; exact hx') (by rw [e4]; exact hy')
    rw [hcell x y (by rw [e3]; exact hx') (by rw [e4]; exact hy'), e0, e1, e2] at this
    rw [Option.map_some, NdtGrid.cellAt, s.sizeX, e3] at this
    exact this

/-- **C07** Count and mean of each cell are those of the points in its square; the counts of all cells add up to
the number of points inside the extents (the others are dropped). -/
theorem c07_cell_statistics_and_total {c sx sy ox oy : ℝ} (hc : 0 < c) (hx : 0 ≤ sx) (hy : 0 ≤ sy)
    (hsmall : cols sx c * cols sy c ≤ 2 ^ 31) (ops : List NdtOp)
    (hn : ∀ p ∈ mapPoints ops, Near ox oy c p) {g : NdtGrid}
    (hg : (NdtGrid.new c sx sy ox oy >>= fun g => g.run ops) = .ok g) :
    (∀ x y : ℕ, x < cols sx c → y < cols sy c → ∃ cell, g.cells[y * cols sx c + x]? = some cell ∧
      cell.n = (inSquare ox oy c (x, y) (mapPoints ops)).length ∧
      cell.mean = ⟨avg (·.x) (inSquare ox oy c (x, y) (mapPoints ops)),
                   avg (·.y) (inSquare ox oy c (x, y) (mapPoints ops))⟩) ∧
    (g.cells.map (·.n)).sum =
      (open Classical in (mapPoints ops).countP fun p => InExtents ox oy c (cols sx c) (cols sy c) p) := by
  constructor
  · obtain ⟨g', hg', -, h⟩ := c07_cell_receives_points_of_its_square hc hx hy hsmall ops hn
    rw [hg] at hg'
    cases hg'
    intro x y hx' hy'
    refine ⟨_, h x y hx' hy', ?_⟩
    have := c02_cell_statistics_are_batch (cellOps ox oy c (x, y) ops)
    simp only [pointsOf_cellOps] at this
    exact ⟨this.1, this.2.1⟩
  · obtain ⟨g0, hg0, hw, e0, e1, e2, e3, e4, hcell⟩ := NdtGrid.new_wf (ox := ox) (oy := oy) hc hx hy hsmall
    rw [hg0] at hg
    have := NdtGrid.run_total ops hw (by rw [e0, e1, e2]; exact hn) hg
    rw [this, e0, e1, e2, e3, e4]
    have hz : (g0.cells.map (·.n)).sum = 0 := by
      rw [NdtGrid.new_spec hc hx hy hsmall] at hg0
      cases hg0
      simp [Cell.new]
    rw [hz, zero_add]

/-- **C07** The order in which scans are added makes no difference to the computed grid. -/
theorem c07_scan_order_irrelevant {c sx sy ox oy : ℝ} (hc : 0 < c) (hx : 0 ≤ sx) (hy : 0 ≤ sy)
    (hsmall : cols sx c * cols sy c ≤ 2 ^ 31) (scans scans' : List Scan) (hperm : scans.Perm scans')
    (hn : ∀ p ∈ mapPoints (scans.map .addScan), Near ox oy c p) :
    (NdtGrid.new c sx sy ox oy >>= fun g => g.run (scans.map .addScan ++ [.compute])) =
    (NdtGrid.new c sx sy ox oy >>= fun g => g.run (scans'.map .addScan ++ [.compute])) := by
  have hp := mapPoints_perm (hperm.map NdtOp.addScan)
  have hn' : ∀ p ∈ mapPoints (scans'.map .addScan), Near ox oy c p := fun p h => hn p (hp.mem_iff.mpr h)
  obtain ⟨g0, hg0, hw, e0, e1, e2, e3, e4, hcell⟩ := NdtGrid.new_wf (ox := ox) (oy := oy) hc hx hy hsmall
  have fin : ∀ l : List Scan, (∀ p ∈ mapPoints (l.map .addScan), Near ox oy c p) →
      (∀ p ∈ mapPoints (l.map .addScan ++ [.compute]), Near ox oy c p) := by
    intro l h p hpm
    rw [mapPoints_append] at hpm
    simp only [mapPoints, List.append_nil] at hpm
    exact h p hpm
  rw [hg0]
  simp only [Res.ok_bind]
  obtain ⟨a, ha, sa, ca⟩ := NdtGrid.run_spec (scans.map .addScan ++ [.compute]) hw
    (by rw [e0, e1, e2]; exact fin _ hn)
  obtain ⟨b, hb, sb, cb⟩ := NdtGrid.run_spec (scans'.map .addScan ++ [.compute]) hw
    (by rw [e0, e1, e2]; exact fin _ hn')
  rw [ha, hb]
  congr 1
  have hcells : a.cells = b.cells := by
    apply List.ext_getElem?
    intro k
    by_cases hk : k < g0.sizeX * g0.sizeY
    · have hpos : 0 < g0.sizeX := by rw [e3]; simp [cols]
      have hx' : k % g0.sizeX < g0.sizeX := Nat.mod_lt _ hpos
      have hy' : k / g0.sizeX < g0.sizeY := by
        rw [Nat.div_lt_iff_lt_mul hpos, Nat.mul_comm]; exact hk
      have h1 := ca _ _ hx' hy'
      have h2 := cb _ _ hx' hy'
      have ek : k / g0.sizeX * g0.sizeX + k % g0.sizeX = k := by
        rw [Nat.mul_comm]; exact Nat.div_add_mod k g0.sizeX
      simp only [NdtGrid.cellAt, sa.sizeX, sb.sizeX, ek] at h1 h2
      rw [h1, h2]
      have hc0 := hcell _ _ hx' hy'
      simp only [NdtGrid.cellAt, ek] at hc0
      rw [hc0]
      simp only [Option.map_some, cellOps_append]
      congr 1
      show Cell.new.run (_ ++ [.compute]) = Cell.new.run (_ ++ [.compute])
      rw [c03_cell_history_irrelevant _ _ (List.Perm.refl _)]
      apply Eq.symm
      apply c03_cell_history_irrelevant
      rw [pointsOf_cellOps, pointsOf_cellOps]
      exact (hp.filter _).symm
    · have l1 : a.cells.length = g0.sizeX * g0.sizeY := by rw [sa.len, hw.len]
      have l2 : b.cells.length = g0.sizeX * g0.sizeY := by rw [sb.len, hw.len]
      rw [List.getElem?_eq_none (by omega), List.getElem?_eq_none (by omega)]
  ext1
  · rw [sa.cellSize, sb.cellSize]
  · rw [sa.sizeX, sb.sizeX]
  · rw [sa.sizeY, sb.sizeY]
  · rw [sa.originX, sb.originX]
  · rw [sa.originY, sb.originY]
  · exact hcells

/-- A scan at a non-trivial pose with points inside and outside the example grid; the hypotheses of C07 hold. -/
example : ∀ p ∈ mapPoints [.addScan ⟨0, true, ⟨1, 2, 0⟩, Pose2d.zero, [⟨0.5, 0.5⟩, ⟨100, 0⟩]⟩, .compute], Near (-5) (-5) 0.25 p := by
  intro p hp
  simp only [mapPoints, move, Real.cos_zero, Real.sin_zero, List.map_cons, List.map_nil, List.mem_append,
    List.mem_cons, List.not_mem_nil, or_false] at hp
  rcases hp with rfl | rfl <;> unfold Near <;> norm_num

/-! ### C08 -/

/-- **C08** The mean of every non-empty cell lies in the cell's (half-open) square. -/
theorem c08_mean_in_square {c sx sy ox oy : ℝ} (hc : 0 < c) (hx : 0 ≤ sx) (hy : 0 ≤ sy)
    (hsmall : cols sx c * cols sy c ≤ 2 ^ 31) (ops : List NdtOp)
    (hn : ∀ p ∈ mapPoints ops, Near ox oy c p) {g : NdtGrid}
    (hg : (NdtGrid.new c sx sy ox oy >>= fun g => g.run ops) = .ok g)
    (x y : ℕ) (hx' : x < cols sx c) (hy' : y < cols sy c) (cell : Cell)
    (hcell : g.cells[y * cols sx c + x]? = some cell) (hne : 0 < cell.n) :
    ox + x * c ≤ cell.mean.x ∧ cell.mean.x < ox + (x + 1) * c ∧
    oy + y * c ≤ cell.mean.y ∧ cell.mean.y < oy + (y + 1) * c := by
  obtain ⟨cell', h1, hnn, hm⟩ := (c07_cell_statistics_and_total hc hx hy hsmall ops hn hg).1 x y hx' hy'
  rw [hcell] at h1
  cases h1
  rw [hnn] at hne
  have hlen : 0 < (inSquare ox oy c (x, y) (mapPoints ops)).length := by exact_mod_cast hne
  have hbox : ∀ p ∈ inSquare ox oy c (x, y) (mapPoints ops),
      (ox + x * c ≤ p.x ∧ p.x < ox + (x + 1) * c) ∧ (oy + y * c ≤ p.y ∧ p.y < oy + (y + 1) * c) := by
    intro p hp
    simp only [inSquare, List.mem_filter, decide_eq_true_eq] at hp
    have hsq := hp.2
    simp only [square, Prod.mk.injEq, Int.floor_eq_iff] at hsq
    obtain ⟨⟨a1, a2⟩, b1, b2⟩ := hsq
    rw [le_div_iff₀ hc] at a1 b1
    rw [div_lt_iff₀ hc] at a2 b2
    push_cast at a1 a2 b1 b2
    refine ⟨⟨by linarith, by linarith⟩, by linarith, by linarith⟩
  have key : ∀ (f : Point → ℝ) (lo hi : ℝ) (ps : List Point), 0 < ps.length →
      (∀ p ∈ ps, lo ≤ f p ∧ f p < hi) → lo ≤ avg f ps ∧ avg f ps < hi := by
    intro f lo hi ps hl hb
    have hl' : (0 : ℝ) < ps.length := by exact_mod_cast hl
    have sums : lo * ps.length ≤ (ps.map f).sum ∧ (ps.map f).sum ≤ hi * ps.length ∧
        (0 < ps.length → (ps.map f).sum < hi * ps.length) := by
      clear hl hl'
      induction ps with
      | nil => simp
      | cons p ps ih =>
        obtain ⟨i1, i2, -⟩ := ih (fun q hq => hb q (by simp [hq]))
        obtain ⟨b1, b2⟩ := hb p (by simp)
        simp only [List.map_cons, List.sum_cons, List.length_cons]
        push_cast
        refine ⟨by linarith, by linarith, fun _ => by linarith⟩
    unfold avg
    rw [le_div_iff₀ hl', div_lt_iff₀ hl']
    exact ⟨sums.1, sums.2.2 hl⟩
  have kx := key (·.x) (ox + x * c) (ox + (x + 1) * c) _ hlen (fun p hp => (hbox p hp).1)
  have ky := key (·.y) (oy + y * c) (oy + (y + 1) * c) _ hlen (fun p hp => (hbox p hp).2)
  rw [hm]
  exact ⟨kx.1, kx.2, ky.1, ky.2⟩

/-! ### C09 -/

/-- No square holds five or more copies of a single point. -/
def NoDegenerateSquare (ox oy c : ℝ) (ps : List Point) : Prop :=
  ∀ k : ℤ × ℤ, (inSquare ox oy c k ps).length < 5 ∨ ¬ AllSame (inSquare ox oy c k ps)

/-- **C09** On a computed grid without degenerate squares, the likelihood of a point is a number in [0, 1], and 0
outside the extents. -/
theorem c09_point_likelihood_bounded {c sx sy ox oy : ℝ} (hc : 0 < c) (hx : 0 ≤ sx) (hy : 0 ≤ sy)
    (hsmall : cols sx c * cols sy c ≤ 2 ^ 31) (ops : List NdtOp)
    (hn : ∀ p ∈ mapPoints ops, Near ox oy c p) (hd : NoDegenerateSquare ox oy c (mapPoints ops))
    {g : NdtGrid} (hg : (NdtGrid.new c sx sy ox oy >>= fun g => g.run (ops ++ [.compute])) = .ok g)
    (p : Point) (hp : Near ox oy c p) :
    ∃ v : ℝ, g.likelihood p = .ok (.fin v) ∧ 0 ≤ v ∧ v ≤ 1 ∧
      (¬ InExtents ox oy c (cols sx c) (cols sy c) p → v = 0) := by
  obtain ⟨g0, hg0, hw, e0, e1, e2, e3, e4, hcell⟩ := NdtGrid.new_wf (ox := ox) (oy := oy) hc hx hy hsmall
  have hn' : ∀ p ∈ mapPoints (ops ++ [.compute]), Near ox oy c p := by
    intro q hq
    rw [mapPoints_append] at hq
    simp only [mapPoints, List.append_nil] at hq
    exact hn q hq
  obtain ⟨g', hg', s, hs⟩ := NdtGrid.run_spec (ops ++ [.compute]) hw (by rw [e0, e1, e2]; exact hn')
  rw [hg0] at hg
  simp only [Res.ok_bind] at hg
  rw [hg] at hg'
  cases hg'
  have hwg := s.wf hw
  have f0 := s.cellSize.trans e0
  have f1 := s.originX.trans e1
  have f2 := s.originY.trans e2
  have f3 := s.sizeX.trans e3
  have f4 := s.sizeY.trans e4
  by_cases hin : InExtents ox oy c (cols sx c) (cols sy c) p
  · obtain ⟨x, y, hsq, hx', hy', hi⟩ := NdtGrid.getIndex_inside hwg (p := p)
      (by rw [f0, f1, f2]; exact hp) (by rw [f0, f1, f2, f3, f4]; exact hin)
    have hc1 := hs x y (by rw [← s.sizeX]; exact hx') (by rw [← s.sizeY]; exact hy')
    rw [hcell x y (by rw [← s.sizeX]; exact hx') (by rw [← s.sizeY]; exact hy'), e0, e1, e2,
      Option.map_some, cellOps_append] at hc1
    simp only [NdtGrid.cellAt] at hc1
    have hdk := hd (x, y)
    rw [← pointsOf_cellOps] at hdk
    obtain ⟨v, hv, v0, v1⟩ := c05_cell_score_number_partial (cellOps ox oy c (x, y) ops) hdk p
    refine ⟨v, ?_, v0, v1, fun h => absurd hin h⟩
    unfold NdtGrid.likelihood
    rw [hi]
    simp only [Res.ok_bind]
    rw [if_pos (Int.natCast_nonneg _), Int.toNat_natCast, hc1]
    simp only [Res.pure_eq]
    congr 1
  · refine ⟨0, ?_, le_rfl, zero_le_one, fun _ => rfl⟩
    unfold NdtGrid.likelihood
    rw [NdtGrid.getIndex_outside hwg.cellPos (by rw [f0, f1, f2]; exact hp)
      (by rw [f0, f1, f2, f3, f4]; exact hin)]
    rfl

/-- **C09** Inside the extents the likelihood of a point is the score of the cell of its square; it is positive if
that square holds five points that are not all the same, and zero if it holds fewer than five. -/
theorem c09_point_likelihood_support {c sx sy ox oy : ℝ} (hc : 0 < c) (hx : 0 ≤ sx) (hy : 0 ≤ sy)
    (hsmall : cols sx c * cols sy c ≤ 2 ^ 31) (ops : List NdtOp)
    (hn : ∀ p ∈ mapPoints ops, Near ox oy c p)
    {g : NdtGrid} (hg : (NdtGrid.new c sx sy ox oy >>= fun g => g.run (ops ++ [.compute])) = .ok g)
    (p : Point) (hp : Near ox oy c p) (hin : InExtents ox oy c (cols sx c) (cols sy c) p) :
    let k := square ox oy c p
    (5 ≤ (inSquare ox oy c k (mapPoints ops)).length → ¬ AllSame (inSquare ox oy c k (mapPoints ops)) →
      ∃ v : ℝ, g.likelihood p = .ok (.fin v) ∧ 0 < v ∧ v ≤ 1) ∧
    ((inSquare ox oy c k (mapPoints ops)).length < 5 → g.likelihood p = .ok (.fin 0)) := by
  intro k
  obtain ⟨g0, hg0, hw, e0, e1, e2, e3, e4, hcell⟩ := NdtGrid.new_wf (ox := ox) (oy := oy) hc hx hy hsmall
  have hn' : ∀ p ∈ mapPoints (ops ++ [.compute]), Near ox oy c p := by
    intro q hq
    rw [mapPoints_append] at hq
    simp only [mapPoints, List.append_nil] at hq
    exact hn q hq
  obtain ⟨g', hg', s, hs⟩ := NdtGrid.run_spec (ops ++ [.compute]) hw (by rw [e0, e1, e2]; exact hn')
  rw [hg0] at hg
  simp only [Res.ok_bind] at hg
  rw [hg] at hg'
  cases hg'
  have hwg := s.wf hw
  have f0 := s.cellSize.trans e0
  have f1 := s.originX.trans e1
  have f2 := s.originY.trans e2
  have f3 := s.sizeX.trans e3
  have f4 := s.sizeY.trans e4
  obtain ⟨x, y, hsq, hx', hy', hi⟩ := NdtGrid.getIndex_inside hwg (p := p)
    (by rw [f0, f1, f2]; exact hp) (by rw [f0, f1, f2, f3, f4]; exact hin)
  have hk : k = ((x : ℤ), (y : ℤ)) := by rw [f0, f1, f2] at hsq; exact hsq
  have hc1 := hs x y (by rw [← s.sizeX]; exact hx') (by rw [← s.sizeY]; exact hy')
  rw [hcell x y (by rw [← s.sizeX]; exact hx') (by rw [← s.sizeY]; exact hy'), e0, e1, e2,
    Option.map_some, cellOps_append] at hc1
  simp only [NdtGrid.cellAt] at hc1
  have hval : g.likelihood p =
      .ok ((Cell.new.run (cellOps ox oy c ((x : ℤ), (y : ℤ)) ops ++ [.compute])).score p) := by
    unfold NdtGrid.likelihood
    rw [hi]
    simp only [Res.ok_bind]
    rw [if_pos (Int.natCast_nonneg _), Int.toNat_natCast, hc1]
    rfl
  rw [hk, ← pointsOf_cellOps, hval]
  constructor
  · intro h5 hns
    obtain ⟨v, hv, h0, h1⟩ := (c04_cell_score_is_likelihood _ h5 hns).1 p
    exact ⟨v, by rw [hv], h0, h1⟩
  · intro h5
    rw [c04_cell_score_few_points]
    rw [pointsOf_append]
    simpa [pointsOf] using h5

/-- The list likelihood is the sum of the point likelihoods when those are numbers. -/
theorem likelihoodPoints_sum (g : NdtGrid) (f : Point → ℝ) (ps : List Point)
    (h : ∀ p ∈ ps, g.likelihood p = .ok (.fin (f p))) :
    g.likelihoodPoints ps = .ok (.fin (ps.map f).sum) := by
  have key : ∀ (ps : List Point) (a : ℝ), (∀ p ∈ ps, g.likelihood p = .ok (.fin (f p))) →
      ps.foldlM (fun score p => do pure (score + (← g.likelihood p))) (Fl.fin a) =
        (.ok (.fin (a + (ps.map f).sum)) : Res Fl) := by
    intro ps
    induction ps with
    | nil => intro a _; simp
    | cons p ps ih =>
      intro a hq
      rw [List.foldlM_cons, hq p (by simp)]
      have := ih (a + f p) (fun q hq' => hq q (by simp [hq']))
      rw [List.map_cons, List.sum_cons, ← add_assoc]
      exact this
  have := key ps 0 h
  rw [zero_add] at this
  exact this

/-- **C09** The likelihood of a list of points is a number between 0 and the number of its points that lie in the
extents, and does not depend on their order. -/
theorem c09_list_likelihood {c sx sy ox oy : ℝ} (hc : 0 < c) (hx : 0 ≤ sx) (hy : 0 ≤ sy)
    (hsmall : cols sx c * cols sy c ≤ 2 ^ 31) (ops : List NdtOp)
    (hn : ∀ p ∈ mapPoints ops, Near ox oy c p) (hd : NoDegenerateSquare ox oy c (mapPoints ops))
    {g : NdtGrid} (hg : (NdtGrid.new c sx sy ox oy >>= fun g => g.run (ops ++ [.compute])) = .ok g)
    (ps : List Point) (hp : ∀ p ∈ ps, Near ox oy c p) :
    (∃ v : ℝ, g.likelihoodPoints ps = .ok (.fin v) ∧ 0 ≤ v ∧
      v ≤ (open Classical in ps.countP fun p => InExtents ox oy c (cols sx c) (cols sy c) p)) ∧
    ∀ qs : List Point, ps.Perm qs → g.likelihoodPoints qs = g.likelihoodPoints ps := by
  classical
  have hpt := c09_point_likelihood_bounded hc hx hy hsmall ops hn hd hg
  have hex : ∃ f : Point → ℝ, ∀ p, Near ox oy c p → g.likelihood p = .ok (.fin (f p)) ∧ 0 ≤ f p ∧ f p ≤ 1 ∧
      (¬ InExtents ox oy c (cols sx c) (cols sy c) p → f p = 0) := by
    refine ⟨fun p => if h : Near ox oy c p then (hpt p h).choose else 0, ?_⟩
    intro p h
    simp only [dif_pos h]
    exact (hpt p h).choose_spec
  obtain ⟨f, hf⟩ := hex
  have e1 := likelihoodPoints_sum g f ps (fun p h => (hf p (hp p h)).1)
  refine ⟨⟨_, e1, ?_, ?_⟩, ?_⟩
  · apply List.sum_nonneg
    intro v hv
    obtain ⟨p, hpm, rfl⟩ := List.mem_map.mp hv
    exact (hf p (hp p hpm)).2.1
  · clear e1
    induction ps with
    | nil => simp
    | cons p ps ih =>
      have h1 := hf p (hp p (by simp))
      have h2 := ih (fun q hq => hp q (by simp [hq]))
      simp only [List.map_cons, List.sum_cons, List.countP_cons]
      push_cast
      by_cases hin : InExtents ox oy c (cols sx c) (cols sy c) p
      · simp only [hin, decide_true, if_true]
        push_cast
        linarith [h1.2.2.1]
      · rw [h1.2.2.2 hin]
        simp only [hin, decide_false]
        simpa using h2
  · intro qs hq
    rw [e1, likelihoodPoints_sum g f qs (fun p h => (hf p (hp p (hq.mem_iff.mpr h))).1)]
    rw [(hq.map f).sum_eq]

/-- **C09** The likelihood of a scan is the likelihood of its points moved by its pose (on any grid, faults and
NaN included). -/
theorem c09_scan_likelihood_is_moved_points (g : NdtGrid) (s : Scan) :
    g.likelihoodScan s = g.likelihoodPoints (s.points.map (move s.pose)) := by
  unfold NdtGrid.likelihoodScan NdtGrid.likelihoodPoints Scan.getPoints Scan.getPose
  rw [List.foldlM_map]
  simp only [apply_eq_move]

/-- The hypothesis `NoDegenerateSquare` holds for a scan of five distinct points. -/
example : NoDegenerateSquare (-5) (-5) 10 (mapPoints [.addScan
    ⟨0, true, ⟨0, 0, 0⟩, Pose2d.zero, samplePts⟩]) := by
  have e : mapPoints [.addScan ⟨0, true, ⟨0, 0, 0⟩, Pose2d.zero, samplePts⟩] = samplePts := by
    simp [mapPoints, samplePts, move]
  rw [e]
  have hall : ∀ p ∈ samplePts, square (-5) (-5) 10 p = (0, 0) := by
    intro p hp
    simp only [samplePts, List.mem_cons, List.not_mem_nil, or_false] at hp
    rcases hp with rfl | rfl | rfl | rfl | rfl <;>
      simp only [square, Prod.mk.injEq, Int.floor_eq_iff] <;> norm_num
  intro k
  by_cases hk : k = (0, 0)
  · right
    have : inSquare (-5) (-5) 10 k samplePts = samplePts := by
      unfold inSquare
      rw [List.filter_eq_self]
      intro p hp
      simp [hall p hp, hk]
    rw [this]
    exact samplePts_not_allSame
  · left
    have : inSquare (-5) (-5) 10 k samplePts = [] := by
      unfold inSquare
      rw [List.filter_eq_nil_iff]
      intro p hp
      simp only [hall p hp, decide_eq_true_eq]
      exact fun h => hk h.symm
    rw [this]; simp

end

end Ndt
