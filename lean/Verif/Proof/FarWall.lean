import Verif.Model.RoundedCell
import Verif.Proof.Rounded

/-!
# Helper lemmas: five points of a wall, and a point beside it whose likelihood underflows

The roundings of `addPoint`, `compute` and `score` for five points with `y = 2`, one after the other. The numbers were found with
a program; Lean checks each of them.
-/

namespace Ndt.Rounded.FarWall

noncomputable section

/-- A cell with the given statistics. -/
def mk (n mx my c00 c01 c11 : ℝ) : Cell := { Cell.new with valid := false, n := n, mean := ⟨mx, my⟩, correlation := ⟨c00, c01, 0, c11⟩ }

theorem op_0 : rnd (0 * 0) = 0 := by
    rw [show (0 * 0 : ℝ) = 0 by norm_num]; exact rnd_zero

theorem op_1 : rnd (0 * 2) = 0 := by
    rw [show (0 * 2 : ℝ) = 0 by norm_num]; exact rnd_zero

theorem op_2 : rnd (2 * 2) = 4 := by
    rw [rnd_eval' (x := 2 * 2) (k := 4503599627370496) 50 (by norm_num) (by left; constructor <;> norm_num) (by left; constructor <;> norm_num)]; norm_num

theorem avg_0 : avgStep rnd 0 0 0 = 0 := by
  have h1 : rnd (0 * 0) = 0 := by
    rw [show (0 * 0 : ℝ) = 0 by norm_num]; exact rnd_zero
  have h2 : rnd (0 + 0) = 0 := by
    rw [show (0 + 0 : ℝ) = 0 by norm_num]; exact rnd_zero
  have h3 : rnd (0 + 1) = 1 := by
    rw [rnd_eval' (x := 0 + 1) (k := 4503599627370496) 52 (by norm_num) (by left; constructor <;> norm_num) (by left; constructor <;> norm_num)]; norm_num
  have h4 : rnd (0 / 1) = 0 := by
    rw [show (0 / 1 : ℝ) = 0 by norm_num]; exact rnd_zero
  unfold avgStep
  rw [h1, h2, h3, h4]

theorem avg_1 : avgStep rnd 0 0 2 = 2 := by
  have h1 : rnd (0 * 0) = 0 := by
    rw [show (0 * 0 : ℝ) = 0 by norm_num]; exact rnd_zero
  have h2 : rnd (0 + 2) = 2 := by
    rw [rnd_eval' (x := 0 + 2) (k := 4503599627370496) 51 (by norm_num) (by left; constructor <;> norm_num) (by left; constructor <;> norm_num)]; norm_num
  have h3 : rnd (0 + 1) = 1 := by
    rw [rnd_eval' (x := 0 + 1) (k := 4503599627370496) 52 (by norm_num) (by left; constructor <;> norm_num) (by left; constructor <;> norm_num)]; norm_num
  have h4 : rnd (2 / 1) = 2 := by
    rw [rnd_eval' (x := 2 / 1) (k := 4503599627370496) 51 (by norm_num) (by left; constructor <;> norm_num) (by left; constructor <;> norm_num)]; norm_num
  unfold avgStep
  rw [h1, h2, h3, h4]

theorem avg_2 : avgStep rnd 0 0 4 = 4 := by
  have h1 : rnd (0 * 0) = 0 := by
    rw [show (0 * 0 : ℝ) = 0 by norm_num]; exact rnd_zero
  have h2 : rnd (0 + 4) = 4 := by
    rw [rnd_eval' (x := 0 + 4) (k := 4503599627370496) 50 (by norm_num) (by left; constructor <;> norm_num) (by left; constructor <;> norm_num)]; norm_num
  have h3 : rnd (0 + 1) = 1 := by
    rw [rnd_eval' (x := 0 + 1) (k := 4503599627370496) 52 (by norm_num) (by left; constructor <;> norm_num) (by left; constructor <;> norm_num)]; norm_num
  have h4 : rnd (4 / 1) = 4 := by
    rw [rnd_eval' (x := 4 / 1) (k := 4503599627370496) 50 (by norm_num) (by left; constructor <;> norm_num) (by left; constructor <;> norm_num)]; norm_num
  unfold avgStep
  rw [h1, h2, h3, h4]

theorem op_3 : rnd (0 + 1) = 1 := by
    rw [rnd_eval' (x := 0 + 1) (k := 4503599627370496) 52 (by norm_num) (by left; constructor <;> norm_num) (by left; constructor <;> norm_num)]; norm_num

theorem add_1 : addPoint rnd (mk 0 0 0 0 0 0) ⟨0, 2⟩ = mk 1 0 2 0 0 4 := by
  simp only [addPoint, mk, op_0, op_1, op_2, op_3, avg_0, avg_1, avg_2]

theorem avg_3 : avgStep rnd 1 0 0 = 0 := by
  have h1 : rnd (0 * 1) = 0 := by
    rw [show (0 * 1 : ℝ) = 0 by norm_num]; exact rnd_zero
  have h2 : rnd (0 + 0) = 0 := by
    rw [show (0 + 0 : ℝ) = 0 by norm_num]; exact rnd_zero
  have h3 : rnd (1 + 1) = 2 := by
    rw [rnd_eval' (x := 1 + 1) (k := 4503599627370496) 51 (by norm_num) (by left; constructor <;> norm_num) (by left; constructor <;> norm_num)]; norm_num
  have h4 : rnd (0 / 2) = 0 := by
    rw [show (0 / 2 : ℝ) = 0 by norm_num]; exact rnd_zero
  unfold avgStep
  rw [h1, h2, h3, h4]

theorem avg_4 : avgStep rnd 1 2 2 = 2 := by
  have h1 : rnd (2 * 1) = 2 := by
    rw [rnd_eval' (x := 2 * 1) (k := 4503599627370496) 51 (by norm_num) (by left; constructor <;> norm_num) (by left; constructor <;> norm_num)]; norm_num
  have h2 : rnd (2 + 2) = 4 := by
    rw [rnd_eval' (x := 2 + 2) (k := 4503599627370496) 50 (by norm_num) (by left; constructor <;> norm_num) (by left; constructor <;> norm_num)]; norm_num
  have h3 : rnd (1 + 1) = 2 := by
    rw [rnd_eval' (x := 1 + 1) (k := 4503599627370496) 51 (by norm_num) (by left; constructor <;> norm_num) (by left; constructor <;> norm_num)]; norm_num
  have h4 : rnd (4 / 2) = 2 := by
    rw [rnd_eval' (x := 4 / 2) (k := 4503599627370496) 51 (by norm_num) (by left; constructor <;> norm_num) (by left; constructor <;> norm_num)]; norm_num
  unfold avgStep
  rw [h1, h2, h3, h4]

theorem avg_5 : avgStep rnd 1 4 4 = 4 := by
  have h1 : rnd (4 * 1) = 4 := by
    rw [rnd_eval' (x := 4 * 1) (k := 4503599627370496) 50 (by norm_num) (by left; constructor <;> norm_num) (by left; constructor <;> norm_num)]; norm_num
  have h2 : rnd (4 + 4) = 8 := by
    rw [rnd_eval' (x := 4 + 4) (k := 4503599627370496) 49 (by norm_num) (by left; constructor <;> norm_num) (by left; constructor <;> norm_num)]; norm_num
  have h3 : rnd (1 + 1) = 2 := by
    rw [rnd_eval' (x := 1 + 1) (k := 4503599627370496) 51 (by norm_num) (by left; constructor <;> norm_num) (by left; constructor <;> norm_num)]; norm_num
  have h4 : rnd (8 / 2) = 4 := by
    rw [rnd_eval' (x := 8 / 2) (k := 4503599627370496) 50 (by norm_num) (by left; constructor <;> norm_num) (by left; constructor <;> norm_num)]; norm_num
  unfold avgStep
  rw [h1, h2, h3, h4]

theorem op_4 : rnd (1 + 1) = 2 := by
    rw [rnd_eval' (x := 1 + 1) (k := 4503599627370496) 51 (by norm_num) (by left; constructor <;> norm_num) (by left; constructor <;> norm_num)]; norm_num

theorem add_2 : addPoint rnd (mk 1 0 2 0 0 4) ⟨0, 2⟩ = mk 2 0 2 0 0 4 := by
  simp only [addPoint, mk, op_0, op_1, op_2, op_4, avg_3, avg_4, avg_5]

theorem avg_6 : avgStep rnd 2 0 0 = 0 := by
  have h1 : rnd (0 * 2) = 0 := by
    rw [show (0 * 2 : ℝ) = 0 by norm_num]; exact rnd_zero
  have h2 : rnd (0 + 0) = 0 := by
    rw [show (0 + 0 : ℝ) = 0 by norm_num]; exact rnd_zero
  have h3 : rnd (2 + 1) = 3 := by
    rw [rnd_eval' (x := 2 + 1) (k := 6755399441055744) 51 (by norm_num) (by left; constructor <;> norm_num) (by left; constructor <;> norm_num)]; norm_num
  have h4 : rnd (0 / 3) = 0 := by
    rw [show (0 / 3 : ℝ) = 0 by norm_num]; exact rnd_zero
  unfold avgStep
  rw [h1, h2, h3, h4]

theorem avg_7 : avgStep rnd 2 2 2 = 2 := by
  have h1 : rnd (2 * 2) = 4 := by
    rw [rnd_eval' (x := 2 * 2) (k := 4503599627370496) 50 (by norm_num) (by left; constructor <;> norm_num) (by left; constructor <;> norm_num)]; norm_num
  have h2 : rnd (4 + 2) = 6 := by
    rw [rnd_eval' (x := 4 + 2) (k := 6755399441055744) 50 (by norm_num) (by left; constructor <;> norm_num) (by left; constructor <;> norm_num)]; norm_num
  have h3 : rnd (2 + 1) = 3 := by
    rw [rnd_eval' (x := 2 + 1) (k := 6755399441055744) 51 (by norm_num) (by left; constructor <;> norm_num) (by left; constructor <;> norm_num)]; norm_num
  have h4 : rnd (6 / 3) = 2 := by
    rw [rnd_eval' (x := 6 / 3) (k := 4503599627370496) 51 (by norm_num) (by left; constructor <;> norm_num) (by left; constructor <;> norm_num)]; norm_num
  unfold avgStep
  rw [h1, h2, h3, h4]

theorem avg_8 : avgStep rnd 2 4 4 = 4 := by
  have h1 : rnd (4 * 2) = 8 := by
    rw [rnd_eval' (x := 4 * 2) (k := 4503599627370496) 49 (by norm_num) (by left; constructor <;> norm_num) (by left; constructor <;> norm_num)]; norm_num
  have h2 : rnd (8 + 4) = 12 := by
    rw [rnd_eval' (x := 8 + 4) (k := 6755399441055744) 49 (by norm_num) (by left; constructor <;> norm_num) (by left; constructor <;> norm_num)]; norm_num
  have h3 : rnd (2 + 1) = 3 := by
    rw [rnd_eval' (x := 2 + 1) (k := 6755399441055744) 51 (by norm_num) (by left; constructor <;> norm_num) (by left; constructor <;> norm_num)]; norm_num
  have h4 : rnd (12 / 3) = 4 := by
    rw [rnd_eval' (x := 12 / 3) (k := 4503599627370496) 50 (by norm_num) (by left; constructor <;> norm_num) (by left; constructor <;> norm_num)]; norm_num
  unfold avgStep
  rw [h1, h2, h3, h4]

theorem op_5 : rnd (2 + 1) = 3 := by
    rw [rnd_eval' (x := 2 + 1) (k := 6755399441055744) 51 (by norm_num) (by left; constructor <;> norm_num) (by left; constructor <;> norm_num)]; norm_num

theorem add_3 : addPoint rnd (mk 2 0 2 0 0 4) ⟨0, 2⟩ = mk 3 0 2 0 0 4 := by
  simp only [addPoint, mk, op_0, op_1, op_2, op_5, avg_6, avg_7, avg_8]

theorem op_6 : rnd ((1 / 2 ^ 5) * (1 / 2 ^ 5)) = (1 / 2 ^ 10) := by
    rw [rnd_eval' (x := (1 / 2 ^ 5) * (1 / 2 ^ 5)) (k := 4503599627370496) 62 (by norm_num) (by left; constructor <;> norm_num) (by left; constructor <;> norm_num)]; norm_num

theorem op_7 : rnd ((1 / 2 ^ 5) * 2) = (1 / 2 ^ 4) := by
    rw [rnd_eval' (x := (1 / 2 ^ 5) * 2) (k := 4503599627370496) 56 (by norm_num) (by left; constructor <;> norm_num) (by left; constructor <;> norm_num)]; norm_num

theorem avg_9 : avgStep rnd 3 0 (1 / 2 ^ 5) = (1 / 2 ^ 7) := by
  have h1 : rnd (0 * 3) = 0 := by
    rw [show (0 * 3 : ℝ) = 0 by norm_num]; exact rnd_zero
  have h2 : rnd (0 + (1 / 2 ^ 5)) = (1 / 2 ^ 5) := by
    rw [rnd_eval' (x := 0 + (1 / 2 ^ 5)) (k := 4503599627370496) 57 (by norm_num) (by left; constructor <;> norm_num) (by left; constructor <;> norm_num)]; norm_num
  have h3 : rnd (3 + 1) = 4 := by
    rw [rnd_eval' (x := 3 + 1) (k := 4503599627370496) 50 (by norm_num) (by left; constructor <;> norm_num) (by left; constructor <;> norm_num)]; norm_num
  have h4 : rnd ((1 / 2 ^ 5) / 4) = (1 / 2 ^ 7) := by
    rw [rnd_eval' (x := (1 / 2 ^ 5) / 4) (k := 4503599627370496) 59 (by norm_num) (by left; constructor <;> norm_num) (by left; constructor <;> norm_num)]; norm_num
  unfold avgStep
  rw [h1, h2, h3, h4]

theorem avg_10 : avgStep rnd 3 2 2 = 2 := by
  have h1 : rnd (2 * 3) = 6 := by
    rw [rnd_eval' (x := 2 * 3) (k := 6755399441055744) 50 (by norm_num) (by left; constructor <;> norm_num) (by left; constructor <;> norm_num)]; norm_num
  have h2 : rnd (6 + 2) = 8 := by
    rw [rnd_eval' (x := 6 + 2) (k := 4503599627370496) 49 (by norm_num) (by left; constructor <;> norm_num) (by left; constructor <;> norm_num)]; norm_num
  have h3 : rnd (3 + 1) = 4 := by
    rw [rnd_eval' (x := 3 + 1) (k := 4503599627370496) 50 (by norm_num) (by left; constructor <;> norm_num) (by left; constructor <;> norm_num)]; norm_num
  have h4 : rnd (8 / 4) = 2 := by
    rw [rnd_eval' (x := 8 / 4) (k := 4503599627370496) 51 (by norm_num) (by left; constructor <;> norm_num) (by left; constructor <;> norm_num)]; norm_num
  unfold avgStep
  rw [h1, h2, h3, h4]

theorem avg_11 : avgStep rnd 3 0 (1 / 2 ^ 10) = (1 / 2 ^ 12) := by
  have h1 : rnd (0 * 3) = 0 := by
    rw [show (0 * 3 : ℝ) = 0 by norm_num]; exact rnd_zero
  have h2 : rnd (0 + (1 / 2 ^ 10)) = (1 / 2 ^ 10) := by
    rw [rnd_eval' (x := 0 + (1 / 2 ^ 10)) (k := 4503599627370496) 62 (by norm_num) (by left; constructor <;> norm_num) (by left; constructor <;> norm_num)]; norm_num
  have h3 : rnd (3 + 1) = 4 := by
    rw [rnd_eval' (x := 3 + 1) (k := 4503599627370496) 50 (by norm_num) (by left; constructor <;> norm_num) (by left; constructor <;> norm_num)]; norm_num
  have h4 : rnd ((1 / 2 ^ 10) / 4) = (1 / 2 ^ 12) := by
    rw [rnd_eval' (x := (1 / 2 ^ 10) / 4) (k := 4503599627370496) 64 (by norm_num) (by left; constructor <;> norm_num) (by left; constructor <;> norm_num)]; norm_num
  unfold avgStep
  rw [h1, h2, h3, h4]

theorem avg_12 : avgStep rnd 3 0 (1 / 2 ^ 4) = (1 / 2 ^ 6) := by
  have h1 : rnd (0 * 3) = 0 := by
    rw [show (0 * 3 : ℝ) = 0 by norm_num]; exact rnd_zero
  have h2 : rnd (0 + (1 / 2 ^ 4)) = (1 / 2 ^ 4) := by
    rw [rnd_eval' (x := 0 + (1 / 2 ^ 4)) (k := 4503599627370496) 56 (by norm_num) (by left; constructor <;> norm_num) (by left; constructor <;> norm_num)]; norm_num
  have h3 : rnd (3 + 1) = 4 := by
    rw [rnd_eval' (x := 3 + 1) (k := 4503599627370496) 50 (by norm_num) (by left; constructor <;> norm_num) (by left; constructor <;> norm_num)]; norm_num
  have h4 : rnd ((1 / 2 ^ 4) / 4) = (1 / 2 ^ 6) := by
    rw [rnd_eval' (x := (1 / 2 ^ 4) / 4) (k := 4503599627370496) 58 (by norm_num) (by left; constructor <;> norm_num) (by left; constructor <;> norm_num)]; norm_num
  unfold avgStep
  rw [h1, h2, h3, h4]

theorem avg_13 : avgStep rnd 3 4 4 = 4 := by
  have h1 : rnd (4 * 3) = 12 := by
    rw [rnd_eval' (x := 4 * 3) (k := 6755399441055744) 49 (by norm_num) (by left; constructor <;> norm_num) (by left; constructor <;> norm_num)]; norm_num
  have h2 : rnd (12 + 4) = 16 := by
    rw [rnd_eval' (x := 12 + 4) (k := 4503599627370496) 48 (by norm_num) (by left; constructor <;> norm_num) (by left; constructor <;> norm_num)]; norm_num
  have h3 : rnd (3 + 1) = 4 := by
    rw [rnd_eval' (x := 3 + 1) (k := 4503599627370496) 50 (by norm_num) (by left; constructor <;> norm_num) (by left; constructor <;> norm_num)]; norm_num
  have h4 : rnd (16 / 4) = 4 := by
    rw [rnd_eval' (x := 16 / 4) (k := 4503599627370496) 50 (by norm_num) (by left; constructor <;> norm_num) (by left; constructor <;> norm_num)]; norm_num
  unfold avgStep
  rw [h1, h2, h3, h4]

theorem op_8 : rnd (3 + 1) = 4 := by
    rw [rnd_eval' (x := 3 + 1) (k := 4503599627370496) 50 (by norm_num) (by left; constructor <;> norm_num) (by left; constructor <;> norm_num)]; norm_num

theorem add_4 : addPoint rnd (mk 3 0 2 0 0 4) ⟨(1 / 2 ^ 5), 2⟩ = mk 4 (1 / 2 ^ 7) 2 (1 / 2 ^ 12) (1 / 2 ^ 6) 4 := by
  simp only [addPoint, mk, op_6, op_7, op_2, op_8, avg_9, avg_10, avg_11, avg_12, avg_13]

theorem op_9 : rnd ((-1 / 2 ^ 5) * (-1 / 2 ^ 5)) = (1 / 2 ^ 10) := by
    rw [rnd_eval' (x := (-1 / 2 ^ 5) * (-1 / 2 ^ 5)) (k := 4503599627370496) 62 (by norm_num) (by left; constructor <;> norm_num) (by left; constructor <;> norm_num)]; norm_num

theorem op_10 : rnd ((-1 / 2 ^ 5) * 2) = (-1 / 2 ^ 4) := by
    rw [rnd_eval' (x := (-1 / 2 ^ 5) * 2) (k := -4503599627370496) 56 (by norm_num) (by right; constructor <;> norm_num) (by left; constructor <;> norm_num)]; norm_num

theorem avg_14 : avgStep rnd 4 (1 / 2 ^ 7) (-1 / 2 ^ 5) = 0 := by
  have h1 : rnd ((1 / 2 ^ 7) * 4) = (1 / 2 ^ 5) := by
    rw [rnd_eval' (x := (1 / 2 ^ 7) * 4) (k := 4503599627370496) 57 (by norm_num) (by left; constructor <;> norm_num) (by left; constructor <;> norm_num)]; norm_num
  have h2 : rnd ((1 / 2 ^ 5) + (-1 / 2 ^ 5)) = 0 := by
    rw [show ((1 / 2 ^ 5) + (-1 / 2 ^ 5) : ℝ) = 0 by norm_num]; exact rnd_zero
  have h3 : rnd (4 + 1) = 5 := by
    rw [rnd_eval' (x := 4 + 1) (k := 5629499534213120) 50 (by norm_num) (by left; constructor <;> norm_num) (by left; constructor <;> norm_num)]; norm_num
  have h4 : rnd (0 / 5) = 0 := by
    rw [show (0 / 5 : ℝ) = 0 by norm_num]; exact rnd_zero
  unfold avgStep
  rw [h1, h2, h3, h4]

theorem avg_15 : avgStep rnd 4 2 2 = 2 := by
  have h1 : rnd (2 * 4) = 8 := by
    rw [rnd_eval' (x := 2 * 4) (k := 4503599627370496) 49 (by norm_num) (by left; constructor <;> norm_num) (by left; constructor <;> norm_num)]; norm_num
  have h2 : rnd (8 + 2) = 10 := by
    rw [rnd_eval' (x := 8 + 2) (k := 5629499534213120) 49 (by norm_num) (by left; constructor <;> norm_num) (by left; constructor <;> norm_num)]; norm_num
  have h3 : rnd (4 + 1) = 5 := by
    rw [rnd_eval' (x := 4 + 1) (k := 5629499534213120) 50 (by norm_num) (by left; constructor <;> norm_num) (by left; constructor <;> norm_num)]; norm_num
  have h4 : rnd (10 / 5) = 2 := by
    rw [rnd_eval' (x := 10 / 5) (k := 4503599627370496) 51 (by norm_num) (by left; constructor <;> norm_num) (by left; constructor <;> norm_num)]; norm_num
  unfold avgStep
  rw [h1, h2, h3, h4]

theorem avg_16 : avgStep rnd 4 (1 / 2 ^ 12) (1 / 2 ^ 10) = (3602879701896397 / 2 ^ 63) := by
  have h1 : rnd ((1 / 2 ^ 12) * 4) = (1 / 2 ^ 10) := by
    rw [rnd_eval' (x := (1 / 2 ^ 12) * 4) (k := 4503599627370496) 62 (by norm_num) (by left; constructor <;> norm_num) (by left; constructor <;> norm_num)]; norm_num
  have h2 : rnd ((1 / 2 ^ 10) + (1 / 2 ^ 10)) = (1 / 2 ^ 9) := by
    rw [rnd_eval' (x := (1 / 2 ^ 10) + (1 / 2 ^ 10)) (k := 4503599627370496) 61 (by norm_num) (by left; constructor <;> norm_num) (by left; constructor <;> norm_num)]; norm_num
  have h3 : rnd (4 + 1) = 5 := by
    rw [rnd_eval' (x := 4 + 1) (k := 5629499534213120) 50 (by norm_num) (by left; constructor <;> norm_num) (by left; constructor <;> norm_num)]; norm_num
  have h4 : rnd ((1 / 2 ^ 9) / 5) = (3602879701896397 / 2 ^ 63) := by
    rw [rnd_eval' (x := (1 / 2 ^ 9) / 5) (k := 7205759403792794) 64 (by norm_num) (by left; constructor <;> norm_num) (by left; constructor <;> norm_num)]; norm_num
  unfold avgStep
  rw [h1, h2, h3, h4]

theorem avg_17 : avgStep rnd 4 (1 / 2 ^ 6) (-1 / 2 ^ 4) = 0 := by
  have h1 : rnd ((1 / 2 ^ 6) * 4) = (1 / 2 ^ 4) := by
    rw [rnd_eval' (x := (1 / 2 ^ 6) * 4) (k := 4503599627370496) 56 (by norm_num) (by left; constructor <;> norm_num) (by left; constructor <;> norm_num)]; norm_num
  have h2 : rnd ((1 / 2 ^ 4) + (-1 / 2 ^ 4)) = 0 := by
    rw [show ((1 / 2 ^ 4) + (-1 / 2 ^ 4) : ℝ) = 0 by norm_num]; exact rnd_zero
  have h3 : rnd (4 + 1) = 5 := by
    rw [rnd_eval' (x := 4 + 1) (k := 5629499534213120) 50 (by norm_num) (by left; constructor <;> norm_num) (by left; constructor <;> norm_num)]; norm_num
  have h4 : rnd (0 / 5) = 0 := by
    rw [show (0 / 5 : ℝ) = 0 by norm_num]; exact rnd_zero
  unfold avgStep
  rw [h1, h2, h3, h4]

theorem avg_18 : avgStep rnd 4 4 4 = 4 := by
  have h1 : rnd (4 * 4) = 16 := by
    rw [rnd_eval' (x := 4 * 4) (k := 4503599627370496) 48 (by norm_num) (by left; constructor <;> norm_num) (by left; constructor <;> norm_num)]; norm_num
  have h2 : rnd (16 + 4) = 20 := by
    rw [rnd_eval' (x := 16 + 4) (k := 5629499534213120) 48 (by norm_num) (by left; constructor <;> norm_num) (by left; constructor <;> norm_num)]; norm_num
  have h3 : rnd (4 + 1) = 5 := by
    rw [rnd_eval' (x := 4 + 1) (k := 5629499534213120) 50 (by norm_num) (by left; constructor <;> norm_num) (by left; constructor <;> norm_num)]; norm_num
  have h4 : rnd (20 / 5) = 4 := by
    rw [rnd_eval' (x := 20 / 5) (k := 4503599627370496) 50 (by norm_num) (by left; constructor <;> norm_num) (by left; constructor <;> norm_num)]; norm_num
  unfold avgStep
  rw [h1, h2, h3, h4]

theorem op_11 : rnd (4 + 1) = 5 := by
    rw [rnd_eval' (x := 4 + 1) (k := 5629499534213120) 50 (by norm_num) (by left; constructor <;> norm_num) (by left; constructor <;> norm_num)]; norm_num

theorem add_5 : addPoint rnd (mk 4 (1 / 2 ^ 7) 2 (1 / 2 ^ 12) (1 / 2 ^ 6) 4) ⟨(-1 / 2 ^ 5), 2⟩ = mk 5 0 2 (3602879701896397 / 2 ^ 63) 0 4 := by
  simp only [addPoint, mk, op_9, op_10, op_2, op_11, avg_14, avg_15, avg_16, avg_17, avg_18]

theorem op_12 : rnd (5 - 1) = 4 := by
    rw [rnd_eval' (x := 5 - 1) (k := 4503599627370496) 50 (by norm_num) (by left; constructor <;> norm_num) (by left; constructor <;> norm_num)]; norm_num

theorem op_13 : rnd (5 / 4) = (5 / 2 ^ 2) := by
    rw [rnd_eval' (x := 5 / 4) (k := 5629499534213120) 52 (by norm_num) (by left; constructor <;> norm_num) (by left; constructor <;> norm_num)]; norm_num

theorem op_14 : rnd ((3602879701896397 / 2 ^ 63) - 0) = (3602879701896397 / 2 ^ 63) := by
    rw [rnd_eval' (x := (3602879701896397 / 2 ^ 63) - 0) (k := 7205759403792794) 64 (by norm_num) (by left; constructor <;> norm_num) (by left; constructor <;> norm_num)]; norm_num

theorem op_15 : rnd ((3602879701896397 / 2 ^ 63) * (5 / 2 ^ 2)) = (1 / 2 ^ 11) := by
    rw [rnd_eval' (x := (3602879701896397 / 2 ^ 63) * (5 / 2 ^ 2)) (k := 4503599627370496) 63 (by norm_num) (by left; constructor <;> norm_num) (by left; constructor <;> norm_num)]; norm_num

theorem op_16 : rnd (0 - 0) = 0 := by
    rw [show (0 - 0 : ℝ) = 0 by norm_num]; exact rnd_zero

theorem op_17 : rnd (0 * (5 / 2 ^ 2)) = 0 := by
    rw [show (0 * (5 / 2 ^ 2) : ℝ) = 0 by norm_num]; exact rnd_zero

theorem op_18 : rnd (4 - 4) = 0 := by
    rw [show (4 - 4 : ℝ) = 0 by norm_num]; exact rnd_zero

theorem cov_eq : covarianceOf rnd (mk 5 0 2 (3602879701896397 / 2 ^ 63) 0 4) = ⟨(1 / 2 ^ 11), 0, 0, 0⟩ := by
  simp only [covarianceOf, covEntry, mk, op_12, op_13, op_0, op_14, op_15, op_1, op_16, op_17, op_2, op_18]

theorem rnd_001 : rnd 0.001 = (1152921504606847 / 2 ^ 60) := by
    rw [rnd_eval' (x := 0.001) (k := 4611686018427388) 62 (by norm_num) (by left; constructor <;> norm_num) (by left; constructor <;> norm_num)]; norm_num

theorem op_19 : rnd ((1152921504606847 / 2 ^ 60) * (1 / 2 ^ 11)) = (1152921504606847 / 2 ^ 71) := by
    rw [rnd_eval' (x := (1152921504606847 / 2 ^ 60) * (1 / 2 ^ 11)) (k := 4611686018427388) 73 (by norm_num) (by left; constructor <;> norm_num) (by left; constructor <;> norm_num)]; norm_num

theorem op_20 : rnd ((1152921504606847 / 2 ^ 71) * (1 / 2 ^ 11)) = (1152921504606847 / 2 ^ 82) := by
    rw [rnd_eval' (x := (1152921504606847 / 2 ^ 71) * (1 / 2 ^ 11)) (k := 4611686018427388) 84 (by norm_num) (by left; constructor <;> norm_num) (by left; constructor <;> norm_num)]; norm_num

theorem op_21 : rnd (0 / (1152921504606847 / 2 ^ 82)) = 0 := by
    rw [show (0 / (1152921504606847 / 2 ^ 82) : ℝ) = 0 by norm_num]; exact rnd_zero

theorem op_22 : rnd ((1 / 2 ^ 11) / (1152921504606847 / 2 ^ 82)) = 2048000 := by
    rw [rnd_eval' (x := (1 / 2 ^ 11) / (1152921504606847 / 2 ^ 82)) (k := 8796093022208000) 32 (by norm_num) (by left; constructor <;> norm_num) (by left; constructor <;> norm_num)]; norm_num

theorem info_eq : informationOf rnd (0, (1 / 2 ^ 11)) ⟨(1 / 2 ^ 11), 0, 0, 0⟩ =
    ⟨.fin 0, .fin 0, .fin 0, .fin 2048000⟩ := by
  have hd : ((1152921504606847 / 2 ^ 82) : ℝ) ≠ 0 := by norm_num
  have h1 : ¬ ((0 : ℝ) > (1 / 2 ^ 11)) := by norm_num
  have h2 : (0 : ℝ) < (1152921504606847 / 2 ^ 71) := by norm_num
  simp only [informationOf, if_neg h1, rnd_001, op_19, op_20, if_pos h2, neg_zero, Fl.fin_div hd, Fl.rounded_fin, op_21, op_22, op_21]

theorem op_23 : rnd ((33 / 2 ^ 4) - 2) = (1 / 2 ^ 4) := by
    rw [rnd_eval' (x := (33 / 2 ^ 4) - 2) (k := 4503599627370496) 56 (by norm_num) (by left; constructor <;> norm_num) (by left; constructor <;> norm_num)]; norm_num

theorem h1_eq : rnd (-0.5 * (1 / 2 ^ 4)) = (-1 / 2 ^ 5) := by
    rw [rnd_eval' (x := -0.5 * (1 / 2 ^ 4)) (k := -4503599627370496) 57 (by norm_num) (by right; constructor <;> norm_num) (by left; constructor <;> norm_num)]; norm_num

theorem h0_eq : rnd (-0.5 * 0) = 0 := by
  rw [mul_zero]; exact rnd_zero

theorem op_24 : rnd ((-1 / 2 ^ 5) * 0) = 0 := by
    rw [show ((-1 / 2 ^ 5) * 0 : ℝ) = 0 by norm_num]; exact rnd_zero

theorem op_25 : rnd (0 + 0) = 0 := by
    rw [show (0 + 0 : ℝ) = 0 by norm_num]; exact rnd_zero

theorem op_26 : rnd ((-1 / 2 ^ 5) * 2048000) = (-64000) := by
    rw [rnd_eval' (x := (-1 / 2 ^ 5) * 2048000) (k := -8796093022208000) 37 (by norm_num) (by right; constructor <;> norm_num) (by left; constructor <;> norm_num)]; norm_num

theorem op_27 : rnd (0 + (-64000)) = (-64000) := by
    rw [rnd_eval' (x := 0 + (-64000)) (k := -8796093022208000) 37 (by norm_num) (by right; constructor <;> norm_num) (by left; constructor <;> norm_num)]; norm_num

theorem op_28 : rnd ((-64000) * (1 / 2 ^ 4)) = (-4000) := by
    rw [rnd_eval' (x := (-64000) * (1 / 2 ^ 4)) (k := -8796093022208000) 41 (by norm_num) (by right; constructor <;> norm_num) (by left; constructor <;> norm_num)]; norm_num

theorem op_29 : rnd (0 + (-4000)) = (-4000) := by
    rw [rnd_eval' (x := 0 + (-4000)) (k := -8796093022208000) 41 (by norm_num) (by right; constructor <;> norm_num) (by left; constructor <;> norm_num)]; norm_num

theorem exponent_eq (cov corr : Mat2 ℝ) (v : Bool) : exponent rnd
    ⟨v, 5, ⟨0, 2⟩, cov, corr, ⟨.fin 0, .fin 0, .fin 0, .fin 2048000⟩⟩ ⟨0, (33 / 2 ^ 4)⟩ = .fin (-4000) := by
  simp only [exponent, Fl.fin_mul, Fl.fin_add, Fl.rounded_fin, h0_eq, h1_eq, op_16, op_23, op_0, op_24, op_25, op_26, op_27, op_28, op_29]

/-- Five points of a wall two metres ahead. -/
def points : List Point := [⟨0, 2⟩, ⟨0, 2⟩, ⟨0, 2⟩, ⟨(1 / 2 ^ 5), 2⟩, ⟨(-1 / 2 ^ 5), 2⟩]

theorem fold_eq : points.foldl (addPoint rnd) Cell.new = mk 5 0 2 (3602879701896397 / 2 ^ 63) 0 4 := by
  have h0 : Cell.new = mk 0 0 0 0 0 0 := rfl
  simp only [points, List.foldl_cons, List.foldl_nil, h0, add_1, add_2, add_3, add_4, add_5]

theorem eigen_eq : eigenvalues ⟨(1 / 2 ^ 11), 0, 0, 0⟩ = (0, (1 / 2 ^ 11)) := by
  have h : ((1 / 2 ^ 11) + 0 : ℝ) ^ 2 - 4 * ((1 / 2 ^ 11) * (0) - 0 * 0) = ((1 / 2 ^ 11) - 0) ^ 2 := by norm_num
  simp only [eigenvalues]
  rw [h, Real.sqrt_sq (by norm_num)]
  norm_num

theorem cell_eq : cellOf rnd eigenvalues points =
    ⟨true, 5, ⟨0, 2⟩, ⟨(1 / 2 ^ 11), 0, 0, 0⟩, ⟨(3602879701896397 / 2 ^ 63), 0, 0, 4⟩,
      ⟨.fin 0, .fin 0, .fin 0, .fin 2048000⟩⟩ := by
  unfold cellOf compute
  rw [fold_eq, if_neg]
  · simp only [cov_eq, eigen_eq, info_eq]
    rfl
  · rintro (h | h)
    · exact absurd h (by decide)
    · simp only [mk] at h
      norm_num at h

theorem rnd_tiny {x : ℝ} (h0 : 0 ≤ x) (h : x < 2⁻¹ ^ 1075) : rnd x = 0 := by
  have h1 := rnd_rounds.nearest x 0 isDouble_zero
  rw [zero_sub, abs_neg, abs_of_nonneg h0] at h1
  have h2 : 0 ≤ rnd x := rnd_rounds.nonneg h0
  have h3 : rnd x < 2⁻¹ ^ 1074 := by
    have e : (2⁻¹ : ℝ) ^ 1074 = 2⁻¹ ^ 1075 + 2⁻¹ ^ 1075 := by rw [pow_succ _ 1074]; ring
    have := (abs_le.mp h1).2
    rw [e]
    exact lt_of_le_of_lt (by linarith : rnd x ≤ x + x) (add_lt_add h h)
  obtain ⟨k, e, -, he, hk⟩ := rnd_rounds.isDouble x
  rw [hk] at h2 h3 ⊢
  have hp : (0 : ℝ) < 2 ^ e := by positivity
  have hk0 : (0 : ℝ) ≤ k := nonneg_of_mul_nonneg_left h2 hp
  have hk1 : k = 0 := by
    by_contra hne
    have h4 : (1 : ℤ) ≤ k := by
      have : (0 : ℤ) ≤ k := by exact_mod_cast hk0
      omega
    have h5 : (1 : ℝ) ≤ k := by exact_mod_cast h4
    have h6 : (2⁻¹ : ℝ) ^ 1074 ≤ 2 ^ e := by
      have := zpow_le_zpow_right₀ (by norm_num : (1 : ℝ) ≤ 2) he
      refine le_trans (le_of_eq ?_) this
      rw [zpow_neg, inv_pow]
      rfl
    have h7 : (2 : ℝ) ^ e ≤ k * 2 ^ e := le_mul_of_one_le_left hp.le h5
    exact absurd (h6.trans h7) (not_le.mpr h3)
  rw [hk1]
  simp

theorem score_eq : score rnd (cellOf rnd eigenvalues points) ⟨0, (33 / 2 ^ 4)⟩ = .fin 0 := by
  have h0 : rnd (Real.exp (-4000)) = 0 := by
    refine rnd_tiny (Real.exp_pos _).le ?_
    have h2 : Real.exp (-1) ≤ 2⁻¹ := by
      rw [Real.exp_neg]
      exact inv_anti₀ (by norm_num) (by linarith [Real.add_one_le_exp (1 : ℝ)])
    have h3 := pow_le_pow_left₀ (Real.exp_pos _).le h2 1076
    rw [← Real.exp_nat_mul] at h3
    refine lt_of_le_of_lt ((Real.exp_le_exp.mpr ?_).trans h3) (pow_lt_pow_right_of_lt_one₀ (by norm_num) (by norm_num) (by norm_num))
    norm_num
  unfold score
  rw [cell_eq, exponent_eq, if_neg (by norm_num)]
  unfold expD
  simp only [h0]
  rw [if_neg]
  exact not_le.mpr (by positivity)
end

end Ndt.Rounded.FarWall
