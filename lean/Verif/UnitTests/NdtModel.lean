import Verif.Model.NdtGrid
import Mathlib.Analysis.Complex.ExponentialBounds
import Mathlib.Analysis.SpecialFunctions.Exp
import Mathlib.Tactic.Linarith
import Mathlib.Tactic.NormNum
import Mathlib.Tactic.IntervalCases

/-!
# test/ndt_model_tests.cpp, run on the model

The expectations of the package's own unit tests, as theorems about the model. They check the reading of the code, not the
code. `EXPECT_DOUBLE_EQ` is taken as equality, `EXPECT_NEAR` as stated.
-/

namespace Ndt.UnitTests

noncomputable section

/-- `EXPECT_NEAR(a, x, eps)`. -/
def Near (a : ℝ) (x : Fl) (eps : ℝ) : Prop := ∃ r, x = .fin r ∧ |a - r| ≤ eps

theorem Near.of {a r eps : ℝ} (h : |a - r| ≤ eps) : Near a (.fin r) eps := ⟨r, rfl, h⟩

/-- test/ndt_model_tests.cpp:33-45. -/
def fourPoints : Cell :=
  (((Cell.new.addPoint ⟨3.5, 3.5⟩).addPoint ⟨3.5, 3.5⟩).addPoint ⟨3.4, 3.45⟩).addPoint ⟨3.6, 3.55⟩

/-- test/ndt_model_tests.cpp:61-69. -/
def sixPoints : Cell := ((fourPoints.compute.addPoint ⟨3.6, 3.45⟩).addPoint ⟨3.4, 3.55⟩).compute

theorem fourPoints_eq : fourPoints =
    ⟨false, 4, ⟨3.5, 3.5⟩, Mat2.zero, ⟨12.255, 12.2525, 0, 12.25125⟩, ⟨.fin 0, .fin 0, .fin 0, .fin 0⟩⟩ := by
  unfold fourPoints Cell.new Cell.addPoint Mat2.zero
  norm_num

/-- test/ndt_model_tests.cpp:47-58. -/
theorem test_ndt_cell_four : fourPoints.valid = false ∧ fourPoints.compute.valid = true ∧
    fourPoints.compute.mean = ⟨3.5, 3.5⟩ ∧ Near 0 (fourPoints.compute.score ⟨3.5, 3.5⟩) 0.001 := by
  rw [fourPoints_eq]
  refine ⟨rfl, ?_, ?_, ?_⟩
  · simp only [Cell.compute, Cell.computeWith]; norm_num
  · simp only [Cell.compute, Cell.computeWith]; norm_num
  · simp only [Cell.compute, Cell.computeWith, Cell.score]
    norm_num
    exact Near.of (by norm_num)

theorem sixPoints_eq : sixPoints =
    ⟨true, 6, ⟨3.5, 3.5⟩, ⟨0.008, 0, 0, 0.002⟩, ⟨12.25 + 0.04 / 6, 12.25, 0, 12.25 + 0.01 / 6⟩,
      ⟨.fin 125, .fin 0, .fin 0, .fin 500⟩⟩ := by
  have hs : Real.sqrt (9 / 250000 : ℝ) = 3 / 500 := by
    rw [show (9 / 250000 : ℝ) = (3 / 500) ^ 2 by norm_num]
    exact Real.sqrt_sq (by norm_num)
  unfold sixPoints
  rw [fourPoints_eq]
  simp only [Cell.compute, Cell.computeWith, Cell.addPoint]
  norm_num [Cell.covarianceOf, informationOf, eigenvalues, hs, inverse2]

/-- test/ndt_model_tests.cpp:71-73. -/
theorem test_ndt_cell_covariance : |0.008 - sixPoints.covariance.m00| ≤ 0.001 ∧ |0 - sixPoints.covariance.m01| ≤ 0.001 ∧
    |0.002 - sixPoints.covariance.m11| ≤ 0.001 := by
  rw [sixPoints_eq]; norm_num

/-- The score of the cell is the density up to a factor. -/
theorem sixPoints_score (x y : ℝ) :
    sixPoints.score ⟨x, y⟩ = .fin (Real.exp (-0.5 * ((x - 3.5) ^ 2 / 0.008 + (y - 3.5) ^ 2 / 0.002))) := by
  rw [sixPoints_eq]
  simp only [Cell.score]
  norm_num
  ring

theorem exp_half : |0.6065 - Real.exp (-0.5)| ≤ 0.001 := by
  have h1 := Real.exp_neg_one_gt_d9
  have h2 := Real.exp_neg_one_lt_d9
  have h3 : Real.exp (-0.5) * Real.exp (-0.5) = Real.exp (-1) := by rw [← Real.exp_add]; norm_num
  have h4 := Real.exp_pos (-0.5)
  rw [abs_le]
  constructor <;> nlinarith

theorem exp_two : |0.1353 - Real.exp (-2)| ≤ 0.001 := by
  have h1 := Real.exp_neg_one_gt_d9
  have h2 := Real.exp_neg_one_lt_d9
  have h3 : Real.exp (-1) * Real.exp (-1) = Real.exp (-2) := by rw [← Real.exp_add]; norm_num
  rw [abs_le]
  constructor <;> nlinarith

/-- test/ndt_model_tests.cpp:75-103. -/
theorem test_ndt_cell_scores :
    Near 1 (sixPoints.score ⟨3.5, 3.5⟩) 0.001 ∧
    Near 0.6065 (sixPoints.score ⟨3.5 + Real.sqrt 0.008, 3.5⟩) 0.001 ∧
    Near 0.1353 (sixPoints.score ⟨3.5 + 2 * Real.sqrt 0.008, 3.5⟩) 0.001 ∧
    Near 0.6065 (sixPoints.score ⟨3.5, 3.5 + Real.sqrt 0.002⟩) 0.001 ∧
    Near 0.1353 (sixPoints.score ⟨3.5, 3.5 + 2 * Real.sqrt 0.002⟩) 0.001 ∧
    Near 0 (sixPoints.score ⟨0, 0⟩) 0.001 := by
  have s1 : Real.sqrt 0.008 ^ 2 = 0.008 := Real.sq_sqrt (by norm_num)
  have s2 : Real.sqrt 0.002 ^ 2 = 0.002 := Real.sq_sqrt (by norm_num)
  simp only [sixPoints_score]
  refine ⟨Near.of ?_, Near.of ?_, Near.of ?_, Near.of ?_, Near.of ?_, Near.of ?_⟩
  · norm_num
  · rw [show (-0.5 * ((3.5 + Real.sqrt 0.008 - 3.5) ^ 2 / 0.008 + (3.5 - 3.5) ^ 2 / 0.002) : ℝ) = -0.5 by
      rw [show (3.5 + Real.sqrt 0.008 - 3.5 : ℝ) = Real.sqrt 0.008 by ring, s1]; norm_num]
    exact exp_half
  · rw [show (-0.5 * ((3.5 + 2 * Real.sqrt 0.008 - 3.5) ^ 2 / 0.008 + (3.5 - 3.5) ^ 2 / 0.002) : ℝ) = -2 by
      rw [show (3.5 + 2 * Real.sqrt 0.008 - 3.5 : ℝ) = 2 * Real.sqrt 0.008 by ring, mul_pow, s1]; norm_num]
    exact exp_two
  · rw [show (-0.5 * ((3.5 - 3.5) ^ 2 / 0.008 + (3.5 + Real.sqrt 0.002 - 3.5) ^ 2 / 0.002) : ℝ) = -0.5 by
      rw [show (3.5 + Real.sqrt 0.002 - 3.5 : ℝ) = Real.sqrt 0.002 by ring, s2]; norm_num]
    exact exp_half
  · rw [show (-0.5 * ((3.5 - 3.5) ^ 2 / 0.008 + (3.5 + 2 * Real.sqrt 0.002 - 3.5) ^ 2 / 0.002) : ℝ) = -2 by
      rw [show (3.5 + 2 * Real.sqrt 0.002 - 3.5 : ℝ) = 2 * Real.sqrt 0.002 by ring, mul_pow, s2]; norm_num]
    exact exp_two
  · have h1 := Real.add_one_le_exp (3000 : ℝ)
    have h2 := Real.exp_pos (-0.5 * ((0 - 3.5) ^ 2 / 0.008 + (0 - 3.5) ^ 2 / 0.002) : ℝ)
    have h3 : Real.exp (-0.5 * ((0 - 3.5) ^ 2 / 0.008 + (0 - 3.5) ^ 2 / 0.002) : ℝ) ≤ Real.exp (-3000) :=
      Real.exp_le_exp.mpr (by norm_num)
    have h4 : Real.exp (-3000) * Real.exp 3000 = 1 := by rw [← Real.exp_add]; norm_num
    have h5 := Real.exp_pos (-3000)
    rw [abs_le]
    constructor <;> nlinarith

/-- test/ndt_model_tests.cpp:111-126: x the same for all points. -/
def noX : Cell :=
  ((((Cell.new.addPoint ⟨3.5, 3.5⟩).addPoint ⟨3.5, 3.45⟩).addPoint ⟨3.5, 3.45⟩).addPoint ⟨3.5, 3.55⟩).addPoint ⟨3.5, 3.55⟩

/-- test/ndt_model_tests.cpp:113-116. -/
theorem test_one_point : (Cell.new.addPoint ⟨3.5, 3.5⟩).correlation = ⟨12.25, 12.25, 0, 12.25⟩ := by
  unfold Cell.new Cell.addPoint Mat2.zero; norm_num

theorem noX_eq : noX =
    ⟨false, 5, ⟨3.5, 3.5⟩, Mat2.zero, ⟨12.25, 12.25, 0, 12.252⟩, ⟨.fin 0, .fin 0, .fin 0, .fin 0⟩⟩ := by
  unfold noX Cell.new Cell.addPoint Mat2.zero
  norm_num

/-- test/ndt_model_tests.cpp:125-149. -/
theorem test_ndt_cell_no_x_variation :
    noX.correlation = ⟨12.25, 12.25, 0, 12.252⟩ ∧ noX.compute.mean = ⟨3.5, 3.5⟩ ∧
    noX.compute.covariance = ⟨0, 0, 0, 0.0025⟩ ∧
    noX.compute.information = ⟨.fin 400000, .fin 0, .fin 0, .fin 0⟩ := by
  have hs : Real.sqrt (1 / 160000 : ℝ) = 1 / 400 := by
    rw [show (1 / 160000 : ℝ) = (1 / 400) ^ 2 by norm_num]
    exact Real.sqrt_sq (by norm_num)
  rw [noX_eq]
  simp only [Cell.compute, Cell.computeWith]
  norm_num [Cell.covarianceOf, informationOf, eigenvalues, hs, inverse2]

/-- test/ndt_model_tests.cpp:157-172: y the same for all points. -/
def noY : Cell :=
  ((((Cell.new.addPoint ⟨3.5, 3.5⟩).addPoint ⟨3.45, 3.5⟩).addPoint ⟨3.45, 3.5⟩).addPoint ⟨3.55, 3.5⟩).addPoint ⟨3.55, 3.5⟩

theorem noY_eq : noY =
    ⟨false, 5, ⟨3.5, 3.5⟩, Mat2.zero, ⟨12.252, 12.25, 0, 12.25⟩, ⟨.fin 0, .fin 0, .fin 0, .fin 0⟩⟩ := by
  unfold noY Cell.new Cell.addPoint Mat2.zero
  norm_num

/-- test/ndt_model_tests.cpp:171-195. -/
theorem test_ndt_cell_no_y_variation :
    noY.correlation = ⟨12.252, 12.25, 0, 12.25⟩ ∧ noY.compute.mean = ⟨3.5, 3.5⟩ ∧
    noY.compute.covariance = ⟨0.0025, 0, 0, 0⟩ ∧
    noY.compute.information = ⟨.fin 0, .fin 0, .fin 0, .fin 400000⟩ := by
  have hs : Real.sqrt (1 / 160000 : ℝ) = 1 / 400 := by
    rw [show (1 / 160000 : ℝ) = (1 / 400) ^ 2 by norm_num]
    exact Real.sqrt_sq (by norm_num)
  rw [noY_eq]
  simp only [Cell.compute, Cell.computeWith]
  norm_num [Cell.covarianceOf, informationOf, eigenvalues, hs, inverse2]

/-- test/ndt_model_tests.cpp:203-222. -/
def theScan : Scan :=
  ((Scan.new 0).setPose Pose2d.zero).setPoints [⟨3.5, 3.5⟩, ⟨3.45, 3.4⟩, ⟨3.55, 3.6⟩, ⟨3.45, 3.6⟩, ⟨3.45, 3.6⟩]

/-- The grid of the test: 11 by 11 cells of a metre. -/
def theGrid : NdtGrid := ⟨1, 11, 11, -5, -5, List.replicate 121 Cell.new⟩

theorem theGrid_eq : NdtGrid.new 1 10 10 (-5) (-5) = .ok theGrid := by
  unfold NdtGrid.new theGrid
  have h : toU64F (Fl.fin 10 / Fl.fin 1 + Fl.fin 1) = .ok 11 := by
    rw [Fl.fin_div (by norm_num), Fl.fin_add]
    show toU64 _ = _
    rw [toU64_of_nonneg (by norm_num) (by norm_num)]
    norm_num
    rfl
  rw [h]
  rfl

/-- All points of the test lie in the cell at column 8 of row 8. -/
theorem theGrid_index {cells : List Cell} {x y : ℝ} (hx : 3 ≤ x) (hx' : x < 4) (hy : 3 ≤ y) (hy' : y < 4) :
    ({ theGrid with cells := cells } : NdtGrid).getIndex ⟨x, y⟩ = .ok 96 := by
  have conv : ∀ t : ℝ, 3 ≤ t → t < 4 → toU32F ((Fl.fin t - .fin (-5)) / .fin 1) = .ok 8 := by
    intro t h1 h2
    rw [Fl.fin_sub, Fl.fin_div (by norm_num)]
    show toU32 _ = _
    rw [toU32_of_nonneg (by linarith) (by linarith)]
    have : ⌊(t - -5) / 1⌋ = 8 := by
      rw [Int.floor_eq_iff]; push_cast; constructor <;> linarith
    rw [this]; rfl
  unfold NdtGrid.getIndex NdtGrid.getIndexF theGrid
  dsimp only
  rw [if_neg (by simp only [Fl.fin_lt]; push Not; constructor <;> linarith), conv x hx hx', conv y hy hy']
  simp only [Res.ok_bind]
  norm_num [wrapI32]

/-- The cell after the scan has been added and the grid computed. -/
def theCell : Cell :=
  (((((Cell.new.addPoint ⟨3.5, 3.5⟩).addPoint ⟨3.45, 3.4⟩).addPoint ⟨3.55, 3.6⟩).addPoint ⟨3.45, 3.6⟩).addPoint
    ⟨3.45, 3.6⟩).compute

theorem theCell_score : theCell.score ⟨3.5, 3.5⟩ = .fin (Real.exp (-(4 / 15))) := by
  have hs0 : 0 ≤ (Real.sqrt 25000)⁻¹ := inv_nonneg.mpr (Real.sqrt_nonneg _)
  have hs1 : (Real.sqrt 25000)⁻¹ < 64 / 10000 := by
    rw [← Real.sqrt_inv, Real.sqrt_lt' (by norm_num)]; norm_num
  unfold theCell Cell.new Cell.addPoint Mat2.zero
  simp only [Cell.compute, Cell.computeWith]
  norm_num [Cell.covarianceOf, informationOf, eigenvalues]
  rw [if_neg (by rw [if_neg (by linarith), if_neg (by linarith)]; linarith)]
  norm_num [Cell.score, inverse2]

/-- test/ndt_model_tests.cpp:198-236. -/
theorem test_ndt : ∃ g, NdtGrid.new 1 10 10 (-5) (-5) = .ok g ∧ ∃ g', g.addScan theScan = .ok g' ∧
    ∃ x, g'.compute.likelihoodPoints [⟨3.5, 3.5⟩] = .ok x ∧ Near 0.7659 x 0.001 := by
  refine ⟨_, theGrid_eq, ?_⟩
  have add : ∀ (cells : List Cell) (q : Point), cells.length = 121 → 3 ≤ q.x → q.x < 4 → 3 ≤ q.y → q.y < 4 →
      ({ theGrid with cells := cells } : NdtGrid).addMapPoint q =
        .ok { theGrid with cells := cells.modify 96 (·.addPoint q) } := by
    intro cells q hl h1 h2 h3 h4
    unfold NdtGrid.addMapPoint
    rw [theGrid_index h1 h2 h3 h4]
    simp only [Res.ok_bind]
    rw [if_pos (by norm_num), if_pos (by show (96 : ℕ) < cells.length; omega)]
    rfl
  have move : ∀ q : Point, NdtGrid.mapPoint theScan.getPose q = q := by
    intro q
    unfold NdtGrid.mapPoint theScan Scan.getPose Scan.setPose Scan.setPoints Scan.new Pose2d.zero
    simp
  let c1 := (List.replicate 121 Cell.new).modify 96 (·.addPoint ⟨3.5, 3.5⟩)
  let c2 := c1.modify 96 (·.addPoint ⟨3.45, 3.4⟩)
  let c3 := c2.modify 96 (·.addPoint ⟨3.55, 3.6⟩)
  let c4 := c3.modify 96 (·.addPoint ⟨3.45, 3.6⟩)
  let c5 := c4.modify 96 (·.addPoint ⟨3.45, 3.6⟩)
  refine ⟨{ theGrid with cells := c5 }, ?_, .fin (0 + Real.exp (-(4 / 15))), ?_, ?_⟩
  · show List.foldlM _ _ theScan.getPoints = _
    have hp : theScan.getPoints = [⟨3.5, 3.5⟩, ⟨3.45, 3.4⟩, ⟨3.55, 3.6⟩, ⟨3.45, 3.6⟩, ⟨3.45, 3.6⟩] := rfl
    rw [hp]
    simp only [List.foldlM_cons, List.foldlM_nil, move]
    have e0 : theGrid = { theGrid with cells := List.replicate 121 Cell.new } := rfl
    rw [e0, add _ _ (by simp) (by norm_num) (by norm_num) (by norm_num) (by norm_num), Res.ok_bind,
      add _ _ (by simp) (by norm_num) (by norm_num) (by norm_num) (by norm_num), Res.ok_bind,
      add _ _ (by simp) (by norm_num) (by norm_num) (by norm_num) (by norm_num), Res.ok_bind,
      add _ _ (by simp) (by norm_num) (by norm_num) (by norm_num) (by norm_num), Res.ok_bind,
      add _ _ (by simp) (by norm_num) (by norm_num) (by norm_num) (by norm_num), Res.ok_bind]
    rfl
  · have hc : (c5.map Cell.compute)[96]? = some theCell := by
      simp only [c5, c4, c3, c2, c1, List.getElem?_map, List.getElem?_modify_eq, List.getElem?_replicate]
      rfl
    have hl : ({ theGrid with cells := c5 } : NdtGrid).compute.likelihood ⟨3.5, 3.5⟩ = .ok (.fin (Real.exp (-(4 / 15)))) := by
      unfold NdtGrid.likelihood NdtGrid.compute
      rw [theGrid_index (cells := c5.map Cell.compute) (by norm_num) (by norm_num) (by norm_num) (by norm_num)]
      simp only [Res.ok_bind]
      rw [if_pos (by norm_num)]
      show (match (c5.map Cell.compute)[96]? with
        | some c => (pure (c.score ⟨3.5, 3.5⟩) : Res Fl)
        | none => .error .outOfBounds) = _
      rw [hc]
      simp only [theCell_score]
      rfl
    unfold NdtGrid.likelihoodPoints
    simp only [List.foldlM_cons, List.foldlM_nil, hl, Res.ok_bind, Res.pure_eq, Fl.fin_add]
  · apply Near.of
    have hb := Real.exp_bound (x := -(4 / 15)) (by rw [abs_neg, abs_of_pos] <;> norm_num) (n := 5) (by norm_num)
    rw [abs_neg, abs_of_pos (by norm_num : (0 : ℝ) < 4 / 15)] at hb
    norm_num [Finset.sum_range_succ, Nat.factorial] at hb
    rw [abs_le] at hb ⊢
    constructor <;> linarith [hb.1, hb.2]

end

end Ndt.UnitTests
