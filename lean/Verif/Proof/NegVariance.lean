import Verif.Model.RoundedCell
import Verif.Proof.Rounded

/-!
# Helper lemmas: five points on a line whose computed variance is negative

The roundings of `addPoint`, `compute` and `score` for five points with `y = 5.3`, one after the other. The numbers were found with
a program; Lean checks each of them.
-/

namespace Ndt.Rounded.NegVar

noncomputable section

/-- A cell with the given statistics. -/
def mk (n mx my c00 c01 c11 : ℝ) : Cell := { Cell.new with valid := false, n := n, mean := ⟨mx, my⟩, correlation := ⟨c00, c01, 0, c11⟩ }

theorem op_0 : rnd (0 * 0) = 0 := by
    rw [show (0 * 0 : ℝ) = 0 by norm_num]; exact rnd_zero

theorem op_1 : rnd (0 * (5967269506265907 / 2 ^ 50)) = 0 := by
    rw [show (0 * (5967269506265907 / 2 ^ 50) : ℝ) = 0 by norm_num]; exact rnd_zero

theorem op_2 : rnd ((5967269506265907 / 2 ^ 50) * (5967269506265907 / 2 ^ 50)) = (7906632095802327 / 2 ^ 48) := by
    rw [rnd_eval' (x := (5967269506265907 / 2 ^ 50) * (5967269506265907 / 2 ^ 50)) (k := 7906632095802327) 48 (by norm_num) (by left; constructor <;> norm_num) (by left; constructor <;> norm_num)]; norm_num

theorem avg_0 : avgStep rnd 0 0 0 = 0 := by
  have h1 : rnd (0 * 0) = 0 := by
    rw [show (0 * 0 : ℝ) = 0 by norm_num]; exact rnd_zero
  have h2 : rnd (0 + 0) = 0 := by
    rw [show (0 + 0 : ℝ) = 0 by norm_num]; exact rnd_zero
  have h3 : rnd (0 + 1) = 1 := by
    rw [rnd_eval' (x := 0 + 1) (k := 4503599627370496) 52 (by norm_num) (by left; constructor <;> norm_num) (by left; constructor <;> norm_num)]; norm_num
  have h4 : rnd (0 / 1) = 0 := by
    rw [show (0 / 1 : ℝ) = 0 by norm_num]; exact rnd_zero
  unfold avgStep
  rw [h1, h2, h3, h4]

theorem avg_1 : avgStep rnd 0 0 (5967269506265907 / 2 ^ 50) = (5967269506265907 / 2 ^ 50) := by
  have h1 : rnd (0 * 0) = 0 := by
    rw [show (0 * 0 : ℝ) = 0 by norm_num]; exact rnd_zero
  have h2 : rnd (0 + (5967269506265907 / 2 ^ 50)) = (5967269506265907 / 2 ^ 50) := by
    rw [rnd_eval' (x := 0 + (5967269506265907 / 2 ^ 50)) (k := 5967269506265907) 50 (by norm_num) (by left; constructor <;> norm_num) (by left; constructor <;> norm_num)]; norm_num
  have h3 : rnd (0 + 1) = 1 := by
    rw [rnd_eval' (x := 0 + 1) (k := 4503599627370496) 52 (by norm_num) (by left; constructor <;> norm_num) (by left; constructor <;> norm_num)]; norm_num
  have h4 : rnd ((5967269506265907 / 2 ^ 50) / 1) = (5967269506265907 / 2 ^ 50) := by
    rw [rnd_eval' (x := (5967269506265907 / 2 ^ 50) / 1) (k := 5967269506265907) 50 (by norm_num) (by left; constructor <;> norm_num) (by left; constructor <;> norm_num)]; norm_num
  unfold avgStep
  rw [h1, h2, h3, h4]

theorem avg_2 : avgStep rnd 0 0 (7906632095802327 / 2 ^ 48) = (7906632095802327 / 2 ^ 48) := by
  have h1 : rnd (0 * 0) = 0 := by
    rw [show (0 * 0 : ℝ) = 0 by norm_num]; exact rnd_zero
  have h2 : rnd (0 + (7906632095802327 / 2 ^ 48)) = (7906632095802327 / 2 ^ 48) := by
    rw [rnd_eval' (x := 0 + (7906632095802327 / 2 ^ 48)) (k := 7906632095802327) 48 (by norm_num) (by left; constructor <;> norm_num) (by left; constructor <;> norm_num)]; norm_num
  have h3 : rnd (0 + 1) = 1 := by
    rw [rnd_eval' (x := 0 + 1) (k := 4503599627370496) 52 (by norm_num) (by left; constructor <;> norm_num) (by left; constructor <;> norm_num)]; norm_num
  have h4 : rnd ((7906632095802327 / 2 ^ 48) / 1) = (7906632095802327 / 2 ^ 48) := by
    rw [rnd_eval' (x := (7906632095802327 / 2 ^ 48) / 1) (k := 7906632095802327) 48 (by norm_num) (by left; constructor <;> norm_num) (by left; constructor <;> norm_num)]; norm_num
  unfold avgStep
  rw [h1, h2, h3, h4]

theorem op_3 : rnd (0 + 1) = 1 := by
    rw [rnd_eval' (x := 0 + 1) (k := 4503599627370496) 52 (by norm_num) (by left; constructor <;> norm_num) (by left; constructor <;> norm_num)]; norm_num

theorem add_1 : addPoint rnd (mk 0 0 0 0 0 0) ⟨0, (5967269506265907 / 2 ^ 50)⟩ = mk 1 0 (5967269506265907 / 2 ^ 50) 0 0 (7906632095802327 / 2 ^ 48) := by
  simp only [addPoint, mk, op_0, op_1, op_2, op_3, avg_0, avg_1, avg_2]

theorem avg_3 : avgStep rnd 1 0 0 = 0 := by
  have h1 : rnd (0 * 1) = 0 := by
    rw [show (0 * 1 : ℝ) = 0 by norm_num]; exact rnd_zero
  have h2 : rnd (0 + 0) = 0 := by
    rw [show (0 + 0 : ℝ) = 0 by norm_num]; exact rnd_zero
  have h3 : rnd (1 + 1) = 2 := by
    rw [rnd_eval' (x := 1 + 1) (k := 4503599627370496) 51 (by norm_num) (by left; constructor <;> norm_num) (by left; constructor <;> norm_num)]; norm_num
  have h4 : rnd (0 / 2) = 0 := by
    rw [show (0 / 2 : ℝ) = 0 by norm_num]; exact rnd_zero
  unfold avgStep
  rw [h1, h2, h3, h4]

theorem avg_4 : avgStep rnd 1 (5967269506265907 / 2 ^ 50) (5967269506265907 / 2 ^ 50) = (5967269506265907 / 2 ^ 50) := by
  have h1 : rnd ((5967269506265907 / 2 ^ 50) * 1) = (5967269506265907 / 2 ^ 50) := by
    rw [rnd_eval' (x := (5967269506265907 / 2 ^ 50) * 1) (k := 5967269506265907) 50 (by norm_num) (by left; constructor <;> norm_num) (by left; constructor <;> norm_num)]; norm_num
  have h2 : rnd ((5967269506265907 / 2 ^ 50) + (5967269506265907 / 2 ^ 50)) = (5967269506265907 / 2 ^ 49) := by
    rw [rnd_eval' (x := (5967269506265907 / 2 ^ 50) + (5967269506265907 / 2 ^ 50)) (k := 5967269506265907) 49 (by norm_num) (by left; constructor <;> norm_num) (by left; constructor <;> norm_num)]; norm_num
  have h3 : rnd (1 + 1) = 2 := by
    rw [rnd_eval' (x := 1 + 1) (k := 4503599627370496) 51 (by norm_num) (by left; constructor <;> norm_num) (by left; constructor <;> norm_num)]; norm_num
  have h4 : rnd ((5967269506265907 / 2 ^ 49) / 2) = (5967269506265907 / 2 ^ 50) := by
    rw [rnd_eval' (x := (5967269506265907 / 2 ^ 49) / 2) (k := 5967269506265907) 50 (by norm_num) (by left; constructor <;> norm_num) (by left; constructor <;> norm_num)]; norm_num
  unfold avgStep
  rw [h1, h2, h3, h4]

theorem avg_5 : avgStep rnd 1 (7906632095802327 / 2 ^ 48) (7906632095802327 / 2 ^ 48) = (7906632095802327 / 2 ^ 48) := by
  have h1 : rnd ((7906632095802327 / 2 ^ 48) * 1) = (7906632095802327 / 2 ^ 48) := by
    rw [rnd_eval' (x := (7906632095802327 / 2 ^ 48) * 1) (k := 7906632095802327) 48 (by norm_num) (by left; constructor <;> norm_num) (by left; constructor <;> norm_num)]; norm_num
  have h2 : rnd ((7906632095802327 / 2 ^ 48) + (7906632095802327 / 2 ^ 48)) = (7906632095802327 / 2 ^ 47) := by
    rw [rnd_eval' (x := (7906632095802327 / 2 ^ 48) + (7906632095802327 / 2 ^ 48)) (k := 7906632095802327) 47 (by norm_num) (by left; constructor <;> norm_num) (by left; constructor <;> norm_num)]; norm_num
  have h3 : rnd (1 + 1) = 2 := by
    rw [rnd_eval' (x := 1 + 1) (k := 4503599627370496) 51 (by norm_num) (by left; constructor <;> norm_num) (by left; constructor <;> norm_num)]; norm_num
  have h4 : rnd ((7906632095802327 / 2 ^ 47) / 2) = (7906632095802327 / 2 ^ 48) := by
    rw [rnd_eval' (x := (7906632095802327 / 2 ^ 47) / 2) (k := 7906632095802327) 48 (by norm_num) (by left; constructor <;> norm_num) (by left; constructor <;> norm_num)]; norm_num
  unfold avgStep
  rw [h1, h2, h3, h4]

theorem op_4 : rnd (1 + 1) = 2 := by
    rw [rnd_eval' (x := 1 + 1) (k := 4503599627370496) 51 (by norm_num) (by left; constructor <;> norm_num) (by left; constructor <;> norm_num)]; norm_num

theorem add_2 : addPoint rnd (mk 1 0 (5967269506265907 / 2 ^ 50) 0 0 (7906632095802327 / 2 ^ 48)) ⟨0, (5967269506265907 / 2 ^ 50)⟩ = mk 2 0 (5967269506265907 / 2 ^ 50) 0 0 (7906632095802327 / 2 ^ 48) := by
  simp only [addPoint, mk, op_0, op_1, op_2, op_4, avg_3, avg_4, avg_5]

theorem avg_6 : avgStep rnd 2 0 0 = 0 := by
  have h1 : rnd (0 * 2) = 0 := by
    rw [show (0 * 2 : ℝ) = 0 by norm_num]; exact rnd_zero
  have h2 : rnd (0 + 0) = 0 := by
    rw [show (0 + 0 : ℝ) = 0 by norm_num]; exact rnd_zero
  have h3 : rnd (2 + 1) = 3 := by
    rw [rnd_eval' (x := 2 + 1) (k := 6755399441055744) 51 (by norm_num) (by left; constructor <;> norm_num) (by left; constructor <;> norm_num)]; norm_num
  have h4 : rnd (0 / 3) = 0 := by
    rw [show (0 / 3 : ℝ) = 0 by norm_num]; exact rnd_zero
  unfold avgStep
  rw [h1, h2, h3, h4]

theorem avg_7 : avgStep rnd 2 (5967269506265907 / 2 ^ 50) (5967269506265907 / 2 ^ 50) = (5967269506265907 / 2 ^ 50) := by
  have h1 : rnd ((5967269506265907 / 2 ^ 50) * 2) = (5967269506265907 / 2 ^ 49) := by
    rw [rnd_eval' (x := (5967269506265907 / 2 ^ 50) * 2) (k := 5967269506265907) 49 (by norm_num) (by left; constructor <;> norm_num) (by left; constructor <;> norm_num)]; norm_num
  have h2 : rnd ((5967269506265907 / 2 ^ 49) + (5967269506265907 / 2 ^ 50)) = (2237726064849715 / 2 ^ 47) := by
    rw [rnd_eval' (x := (5967269506265907 / 2 ^ 49) + (5967269506265907 / 2 ^ 50)) (k := 8950904259398860) 49 (by norm_num) (by left; constructor <;> norm_num) (by right; exact ⟨Or.inr (by norm_num), by decide⟩)]; norm_num
  have h3 : rnd (2 + 1) = 3 := by
    rw [rnd_eval' (x := 2 + 1) (k := 6755399441055744) 51 (by norm_num) (by left; constructor <;> norm_num) (by left; constructor <;> norm_num)]; norm_num
  have h4 : rnd ((2237726064849715 / 2 ^ 47) / 3) = (5967269506265907 / 2 ^ 50) := by
    rw [rnd_eval' (x := (2237726064849715 / 2 ^ 47) / 3) (k := 5967269506265907) 50 (by norm_num) (by left; constructor <;> norm_num) (by left; constructor <;> norm_num)]; norm_num
  unfold avgStep
  rw [h1, h2, h3, h4]

theorem avg_8 : avgStep rnd 2 (7906632095802327 / 2 ^ 48) (7906632095802327 / 2 ^ 48) = (7906632095802327 / 2 ^ 48) := by
  have h1 : rnd ((7906632095802327 / 2 ^ 48) * 2) = (7906632095802327 / 2 ^ 47) := by
    rw [rnd_eval' (x := (7906632095802327 / 2 ^ 48) * 2) (k := 7906632095802327) 47 (by norm_num) (by left; constructor <;> norm_num) (by left; constructor <;> norm_num)]; norm_num
  have h2 : rnd ((7906632095802327 / 2 ^ 47) + (7906632095802327 / 2 ^ 48)) = (5929974071851745 / 2 ^ 46) := by
    rw [rnd_eval' (x := (7906632095802327 / 2 ^ 47) + (7906632095802327 / 2 ^ 48)) (k := 5929974071851745) 46 (by norm_num) (by left; constructor <;> norm_num) (by left; constructor <;> norm_num)]; norm_num
  have h3 : rnd (2 + 1) = 3 := by
    rw [rnd_eval' (x := 2 + 1) (k := 6755399441055744) 51 (by norm_num) (by left; constructor <;> norm_num) (by left; constructor <;> norm_num)]; norm_num
  have h4 : rnd ((5929974071851745 / 2 ^ 46) / 3) = (7906632095802327 / 2 ^ 48) := by
    rw [rnd_eval' (x := (5929974071851745 / 2 ^ 46) / 3) (k := 7906632095802327) 48 (by norm_num) (by left; constructor <;> norm_num) (by left; constructor <;> norm_num)]; norm_num
  unfold avgStep
  rw [h1, h2, h3, h4]

theorem op_5 : rnd (2 + 1) = 3 := by
    rw [rnd_eval' (x := 2 + 1) (k := 6755399441055744) 51 (by norm_num) (by left; constructor <;> norm_num) (by left; constructor <;> norm_num)]; norm_num

theorem add_3 : addPoint rnd (mk 2 0 (5967269506265907 / 2 ^ 50) 0 0 (7906632095802327 / 2 ^ 48)) ⟨0, (5967269506265907 / 2 ^ 50)⟩ = mk 3 0 (5967269506265907 / 2 ^ 50) 0 0 (7906632095802327 / 2 ^ 48) := by
  simp only [addPoint, mk, op_0, op_1, op_2, op_5, avg_6, avg_7, avg_8]

theorem op_6 : rnd ((1 / 2 ^ 14) * (1 / 2 ^ 14)) = (1 / 2 ^ 28) := by
    rw [rnd_eval' (x := (1 / 2 ^ 14) * (1 / 2 ^ 14)) (k := 4503599627370496) 80 (by norm_num) (by left; constructor <;> norm_num) (by left; constructor <;> norm_num)]; norm_num

theorem op_7 : rnd ((1 / 2 ^ 14) * (5967269506265907 / 2 ^ 50)) = (5967269506265907 / 2 ^ 64) := by
    rw [rnd_eval' (x := (1 / 2 ^ 14) * (5967269506265907 / 2 ^ 50)) (k := 5967269506265907) 64 (by norm_num) (by left; constructor <;> norm_num) (by left; constructor <;> norm_num)]; norm_num

theorem avg_9 : avgStep rnd 3 0 (1 / 2 ^ 14) = (1 / 2 ^ 16) := by
  have h1 : rnd (0 * 3) = 0 := by
    rw [show (0 * 3 : ℝ) = 0 by norm_num]; exact rnd_zero
  have h2 : rnd (0 + (1 / 2 ^ 14)) = (1 / 2 ^ 14) := by
    rw [rnd_eval' (x := 0 + (1 / 2 ^ 14)) (k := 4503599627370496) 66 (by norm_num) (by left; constructor <;> norm_num) (by left; constructor <;> norm_num)]; norm_num
  have h3 : rnd (3 + 1) = 4 := by
    rw [rnd_eval' (x := 3 + 1) (k := 4503599627370496) 50 (by norm_num) (by left; constructor <;> norm_num) (by left; constructor <;> norm_num)]; norm_num
  have h4 : rnd ((1 / 2 ^ 14) / 4) = (1 / 2 ^ 16) := by
    rw [rnd_eval' (x := (1 / 2 ^ 14) / 4) (k := 4503599627370496) 68 (by norm_num) (by left; constructor <;> norm_num) (by left; constructor <;> norm_num)]; norm_num
  unfold avgStep
  rw [h1, h2, h3, h4]

theorem avg_10 : avgStep rnd 3 (5967269506265907 / 2 ^ 50) (5967269506265907 / 2 ^ 50) = (5967269506265907 / 2 ^ 50) := by
  have h1 : rnd ((5967269506265907 / 2 ^ 50) * 3) = (2237726064849715 / 2 ^ 47) := by
    rw [rnd_eval' (x := (5967269506265907 / 2 ^ 50) * 3) (k := 8950904259398860) 49 (by norm_num) (by left; constructor <;> norm_num) (by right; exact ⟨Or.inr (by norm_num), by decide⟩)]; norm_num
  have h2 : rnd ((2237726064849715 / 2 ^ 47) + (5967269506265907 / 2 ^ 50)) = (5967269506265907 / 2 ^ 48) := by
    rw [rnd_eval' (x := (2237726064849715 / 2 ^ 47) + (5967269506265907 / 2 ^ 50)) (k := 5967269506265907) 48 (by norm_num) (by left; constructor <;> norm_num) (by left; constructor <;> norm_num)]; norm_num
  have h3 : rnd (3 + 1) = 4 := by
    rw [rnd_eval' (x := 3 + 1) (k := 4503599627370496) 50 (by norm_num) (by left; constructor <;> norm_num) (by left; constructor <;> norm_num)]; norm_num
  have h4 : rnd ((5967269506265907 / 2 ^ 48) / 4) = (5967269506265907 / 2 ^ 50) := by
    rw [rnd_eval' (x := (5967269506265907 / 2 ^ 48) / 4) (k := 5967269506265907) 50 (by norm_num) (by left; constructor <;> norm_num) (by left; constructor <;> norm_num)]; norm_num
  unfold avgStep
  rw [h1, h2, h3, h4]

theorem avg_11 : avgStep rnd 3 0 (1 / 2 ^ 28) = (1 / 2 ^ 30) := by
  have h1 : rnd (0 * 3) = 0 := by
    rw [show (0 * 3 : ℝ) = 0 by norm_num]; exact rnd_zero
  have h2 : rnd (0 + (1 / 2 ^ 28)) = (1 / 2 ^ 28) := by
    rw [rnd_eval' (x := 0 + (1 / 2 ^ 28)) (k := 4503599627370496) 80 (by norm_num) (by left; constructor <;> norm_num) (by left; constructor <;> norm_num)]; norm_num
  have h3 : rnd (3 + 1) = 4 := by
    rw [rnd_eval' (x := 3 + 1) (k := 4503599627370496) 50 (by norm_num) (by left; constructor <;> norm_num) (by left; constructor <;> norm_num)]; norm_num
  have h4 : rnd ((1 / 2 ^ 28) / 4) = (1 / 2 ^ 30) := by
    rw [rnd_eval' (x := (1 / 2 ^ 28) / 4) (k := 4503599627370496) 82 (by norm_num) (by left; constructor <;> norm_num) (by left; constructor <;> norm_num)]; norm_num
  unfold avgStep
  rw [h1, h2, h3, h4]

theorem avg_12 : avgStep rnd 3 0 (5967269506265907 / 2 ^ 64) = (5967269506265907 / 2 ^ 66) := by
  have h1 : rnd (0 * 3) = 0 := by
    rw [show (0 * 3 : ℝ) = 0 by norm_num]; exact rnd_zero
  have h2 : rnd (0 + (5967269506265907 / 2 ^ 64)) = (5967269506265907 / 2 ^ 64) := by
    rw [rnd_eval' (x := 0 + (5967269506265907 / 2 ^ 64)) (k := 5967269506265907) 64 (by norm_num) (by left; constructor <;> norm_num) (by left; constructor <;> norm_num)]; norm_num
  have h3 : rnd (3 + 1) = 4 := by
    rw [rnd_eval' (x := 3 + 1) (k := 4503599627370496) 50 (by norm_num) (by left; constructor <;> norm_num) (by left; constructor <;> norm_num)]; norm_num
  have h4 : rnd ((5967269506265907 / 2 ^ 64) / 4) = (5967269506265907 / 2 ^ 66) := by
    rw [rnd_eval' (x := (5967269506265907 / 2 ^ 64) / 4) (k := 5967269506265907) 66 (by norm_num) (by left; constructor <;> norm_num) (by left; constructor <;> norm_num)]; norm_num
  unfold avgStep
  rw [h1, h2, h3, h4]

theorem avg_13 : avgStep rnd 3 (7906632095802327 / 2 ^ 48) (7906632095802327 / 2 ^ 48) = (7906632095802327 / 2 ^ 48) := by
  have h1 : rnd ((7906632095802327 / 2 ^ 48) * 3) = (5929974071851745 / 2 ^ 46) := by
    rw [rnd_eval' (x := (7906632095802327 / 2 ^ 48) * 3) (k := 5929974071851745) 46 (by norm_num) (by left; constructor <;> norm_num) (by left; constructor <;> norm_num)]; norm_num
  have h2 : rnd ((5929974071851745 / 2 ^ 46) + (7906632095802327 / 2 ^ 48)) = (7906632095802327 / 2 ^ 46) := by
    rw [rnd_eval' (x := (5929974071851745 / 2 ^ 46) + (7906632095802327 / 2 ^ 48)) (k := 7906632095802327) 46 (by norm_num) (by left; constructor <;> norm_num) (by left; constructor <;> norm_num)]; norm_num
  have h3 : rnd (3 + 1) = 4 := by
    rw [rnd_eval' (x := 3 + 1) (k := 4503599627370496) 50 (by norm_num) (by left; constructor <;> norm_num) (by left; constructor <;> norm_num)]; norm_num
  have h4 : rnd ((7906632095802327 / 2 ^ 46) / 4) = (7906632095802327 / 2 ^ 48) := by
    rw [rnd_eval' (x := (7906632095802327 / 2 ^ 46) / 4) (k := 7906632095802327) 48 (by norm_num) (by left; constructor <;> norm_num) (by left; constructor <;> norm_num)]; norm_num
  unfold avgStep
  rw [h1, h2, h3, h4]

theorem op_8 : rnd (3 + 1) = 4 := by
    rw [rnd_eval' (x := 3 + 1) (k := 4503599627370496) 50 (by norm_num) (by left; constructor <;> norm_num) (by left; constructor <;> norm_num)]; norm_num

theorem add_4 : addPoint rnd (mk 3 0 (5967269506265907 / 2 ^ 50) 0 0 (7906632095802327 / 2 ^ 48)) ⟨(1 / 2 ^ 14), (5967269506265907 / 2 ^ 50)⟩ = mk 4 (1 / 2 ^ 16) (5967269506265907 / 2 ^ 50) (1 / 2 ^ 30) (5967269506265907 / 2 ^ 66) (7906632095802327 / 2 ^ 48) := by
  simp only [addPoint, mk, op_6, op_7, op_2, op_8, avg_9, avg_10, avg_11, avg_12, avg_13]

theorem op_9 : rnd ((-1 / 2 ^ 14) * (-1 / 2 ^ 14)) = (1 / 2 ^ 28) := by
    rw [rnd_eval' (x := (-1 / 2 ^ 14) * (-1 / 2 ^ 14)) (k := 4503599627370496) 80 (by norm_num) (by left; constructor <;> norm_num) (by left; constructor <;> norm_num)]; norm_num

theorem op_10 : rnd ((-1 / 2 ^ 14) * (5967269506265907 / 2 ^ 50)) = (-5967269506265907 / 2 ^ 64) := by
    rw [rnd_eval' (x := (-1 / 2 ^ 14) * (5967269506265907 / 2 ^ 50)) (k := -5967269506265907) 64 (by norm_num) (by right; constructor <;> norm_num) (by left; constructor <;> norm_num)]; norm_num

theorem avg_14 : avgStep rnd 4 (1 / 2 ^ 16) (-1 / 2 ^ 14) = 0 := by
  have h1 : rnd ((1 / 2 ^ 16) * 4) = (1 / 2 ^ 14) := by
    rw [rnd_eval' (x := (1 / 2 ^ 16) * 4) (k := 4503599627370496) 66 (by norm_num) (by left; constructor <;> norm_num) (by left; constructor <;> norm_num)]; norm_num
  have h2 : rnd ((1 / 2 ^ 14) + (-1 / 2 ^ 14)) = 0 := by
    rw [show ((1 / 2 ^ 14) + (-1 / 2 ^ 14) : ℝ) = 0 by norm_num]; exact rnd_zero
  have h3 : rnd (4 + 1) = 5 := by
    rw [rnd_eval' (x := 4 + 1) (k := 5629499534213120) 50 (by norm_num) (by left; constructor <;> norm_num) (by left; constructor <;> norm_num)]; norm_num
  have h4 : rnd (0 / 5) = 0 := by
    rw [show (0 / 5 : ℝ) = 0 by norm_num]; exact rnd_zero
  unfold avgStep
  rw [h1, h2, h3, h4]

theorem avg_15 : avgStep rnd 4 (5967269506265907 / 2 ^ 50) (5967269506265907 / 2 ^ 50) = (5967269506265907 / 2 ^ 50) := by
  have h1 : rnd ((5967269506265907 / 2 ^ 50) * 4) = (5967269506265907 / 2 ^ 48) := by
    rw [rnd_eval' (x := (5967269506265907 / 2 ^ 50) * 4) (k := 5967269506265907) 48 (by norm_num) (by left; constructor <;> norm_num) (by left; constructor <;> norm_num)]; norm_num
  have h2 : rnd ((5967269506265907 / 2 ^ 48) + (5967269506265907 / 2 ^ 50)) = (53 / 2 ^ 1) := by
    rw [rnd_eval' (x := (5967269506265907 / 2 ^ 48) + (5967269506265907 / 2 ^ 50)) (k := 7459086882832384) 48 (by norm_num) (by left; constructor <;> norm_num) (by left; constructor <;> norm_num)]; norm_num
  have h3 : rnd (4 + 1) = 5 := by
    rw [rnd_eval' (x := 4 + 1) (k := 5629499534213120) 50 (by norm_num) (by left; constructor <;> norm_num) (by left; constructor <;> norm_num)]; norm_num
  have h4 : rnd ((53 / 2 ^ 1) / 5) = (5967269506265907 / 2 ^ 50) := by
    rw [rnd_eval' (x := (53 / 2 ^ 1) / 5) (k := 5967269506265907) 50 (by norm_num) (by left; constructor <;> norm_num) (by left; constructor <;> norm_num)]; norm_num
  unfold avgStep
  rw [h1, h2, h3, h4]

theorem avg_16 : avgStep rnd 4 (1 / 2 ^ 30) (1 / 2 ^ 28) = (3602879701896397 / 2 ^ 81) := by
  have h1 : rnd ((1 / 2 ^ 30) * 4) = (1 / 2 ^ 28) := by
    rw [rnd_eval' (x := (1 / 2 ^ 30) * 4) (k := 4503599627370496) 80 (by norm_num) (by left; constructor <;> norm_num) (by left; constructor <;> norm_num)]; norm_num
  have h2 : rnd ((1 / 2 ^ 28) + (1 / 2 ^ 28)) = (1 / 2 ^ 27) := by
    rw [rnd_eval' (x := (1 / 2 ^ 28) + (1 / 2 ^ 28)) (k := 4503599627370496) 79 (by norm_num) (by left; constructor <;> norm_num) (by left; constructor <;> norm_num)]; norm_num
  have h3 : rnd (4 + 1) = 5 := by
    rw [rnd_eval' (x := 4 + 1) (k := 5629499534213120) 50 (by norm_num) (by left; constructor <;> norm_num) (by left; constructor <;> norm_num)]; norm_num
  have h4 : rnd ((1 / 2 ^ 27) / 5) = (3602879701896397 / 2 ^ 81) := by
    rw [rnd_eval' (x := (1 / 2 ^ 27) / 5) (k := 7205759403792794) 82 (by norm_num) (by left; constructor <;> norm_num) (by left; constructor <;> norm_num)]; norm_num
  unfold avgStep
  rw [h1, h2, h3, h4]

theorem avg_17 : avgStep rnd 4 (5967269506265907 / 2 ^ 66) (-5967269506265907 / 2 ^ 64) = 0 := by
  have h1 : rnd ((5967269506265907 / 2 ^ 66) * 4) = (5967269506265907 / 2 ^ 64) := by
    rw [rnd_eval' (x := (5967269506265907 / 2 ^ 66) * 4) (k := 5967269506265907) 64 (by norm_num) (by left; constructor <;> norm_num) (by left; constructor <;> norm_num)]; norm_num
  have h2 : rnd ((5967269506265907 / 2 ^ 64) + (-5967269506265907 / 2 ^ 64)) = 0 := by
    rw [show ((5967269506265907 / 2 ^ 64) + (-5967269506265907 / 2 ^ 64) : ℝ) = 0 by norm_num]; exact rnd_zero
  have h3 : rnd (4 + 1) = 5 := by
    rw [rnd_eval' (x := 4 + 1) (k := 5629499534213120) 50 (by norm_num) (by left; constructor <;> norm_num) (by left; constructor <;> norm_num)]; norm_num
  have h4 : rnd (0 / 5) = 0 := by
    rw [show (0 / 5 : ℝ) = 0 by norm_num]; exact rnd_zero
  unfold avgStep
  rw [h1, h2, h3, h4]

theorem avg_18 : avgStep rnd 4 (7906632095802327 / 2 ^ 48) (7906632095802327 / 2 ^ 48) = (3953316047901163 / 2 ^ 47) := by
  have h1 : rnd ((7906632095802327 / 2 ^ 48) * 4) = (7906632095802327 / 2 ^ 46) := by
    rw [rnd_eval' (x := (7906632095802327 / 2 ^ 48) * 4) (k := 7906632095802327) 46 (by norm_num) (by left; constructor <;> norm_num) (by left; constructor <;> norm_num)]; norm_num
  have h2 : rnd ((7906632095802327 / 2 ^ 46) + (7906632095802327 / 2 ^ 48)) = (2470822529938227 / 2 ^ 44) := by
    rw [rnd_eval' (x := (7906632095802327 / 2 ^ 46) + (7906632095802327 / 2 ^ 48)) (k := 4941645059876454) 45 (by norm_num) (by left; constructor <;> norm_num) (by left; constructor <;> norm_num)]; norm_num
  have h3 : rnd (4 + 1) = 5 := by
    rw [rnd_eval' (x := 4 + 1) (k := 5629499534213120) 50 (by norm_num) (by left; constructor <;> norm_num) (by left; constructor <;> norm_num)]; norm_num
  have h4 : rnd ((2470822529938227 / 2 ^ 44) / 5) = (3953316047901163 / 2 ^ 47) := by
    rw [rnd_eval' (x := (2470822529938227 / 2 ^ 44) / 5) (k := 7906632095802326) 48 (by norm_num) (by left; constructor <;> norm_num) (by left; constructor <;> norm_num)]; norm_num
  unfold avgStep
  rw [h1, h2, h3, h4]

theorem op_11 : rnd (4 + 1) = 5 := by
    rw [rnd_eval' (x := 4 + 1) (k := 5629499534213120) 50 (by norm_num) (by left; constructor <;> norm_num) (by left; constructor <;> norm_num)]; norm_num

theorem add_5 : addPoint rnd (mk 4 (1 / 2 ^ 16) (5967269506265907 / 2 ^ 50) (1 / 2 ^ 30) (5967269506265907 / 2 ^ 66) (7906632095802327 / 2 ^ 48)) ⟨(-1 / 2 ^ 14), (5967269506265907 / 2 ^ 50)⟩ = mk 5 0 (5967269506265907 / 2 ^ 50) (3602879701896397 / 2 ^ 81) 0 (3953316047901163 / 2 ^ 47) := by
  simp only [addPoint, mk, op_9, op_10, op_2, op_11, avg_14, avg_15, avg_16, avg_17, avg_18]

theorem op_12 : rnd (5 - 1) = 4 := by
    rw [rnd_eval' (x := 5 - 1) (k := 4503599627370496) 50 (by norm_num) (by left; constructor <;> norm_num) (by left; constructor <;> norm_num)]; norm_num

theorem op_13 : rnd (5 / 4) = (5 / 2 ^ 2) := by
    rw [rnd_eval' (x := 5 / 4) (k := 5629499534213120) 52 (by norm_num) (by left; constructor <;> norm_num) (by left; constructor <;> norm_num)]; norm_num

theorem op_14 : rnd ((3602879701896397 / 2 ^ 81) - 0) = (3602879701896397 / 2 ^ 81) := by
    rw [rnd_eval' (x := (3602879701896397 / 2 ^ 81) - 0) (k := 7205759403792794) 82 (by norm_num) (by left; constructor <;> norm_num) (by left; constructor <;> norm_num)]; norm_num

theorem op_15 : rnd ((3602879701896397 / 2 ^ 81) * (5 / 2 ^ 2)) = (1 / 2 ^ 29) := by
    rw [rnd_eval' (x := (3602879701896397 / 2 ^ 81) * (5 / 2 ^ 2)) (k := 4503599627370496) 81 (by norm_num) (by left; constructor <;> norm_num) (by left; constructor <;> norm_num)]; norm_num

theorem op_16 : rnd (0 - 0) = 0 := by
    rw [show (0 - 0 : ℝ) = 0 by norm_num]; exact rnd_zero

theorem op_17 : rnd (0 * (5 / 2 ^ 2)) = 0 := by
    rw [show (0 * (5 / 2 ^ 2) : ℝ) = 0 by norm_num]; exact rnd_zero

theorem op_18 : rnd ((3953316047901163 / 2 ^ 47) - (7906632095802327 / 2 ^ 48)) = (-1 / 2 ^ 48) := by
    rw [rnd_eval' (x := (3953316047901163 / 2 ^ 47) - (7906632095802327 / 2 ^ 48)) (k := -4503599627370496) 100 (by norm_num) (by right; constructor <;> norm_num) (by left; constructor <;> norm_num)]; norm_num

theorem op_19 : rnd ((-1 / 2 ^ 48) * (5 / 2 ^ 2)) = (-5 / 2 ^ 50) := by
    rw [rnd_eval' (x := (-1 / 2 ^ 48) * (5 / 2 ^ 2)) (k := -5629499534213120) 100 (by norm_num) (by right; constructor <;> norm_num) (by left; constructor <;> norm_num)]; norm_num

theorem cov_eq : covarianceOf rnd (mk 5 0 (5967269506265907 / 2 ^ 50) (3602879701896397 / 2 ^ 81) 0 (3953316047901163 / 2 ^ 47)) = ⟨(1 / 2 ^ 29), 0, 0, (-5 / 2 ^ 50)⟩ := by
  simp only [covarianceOf, covEntry, mk, op_12, op_13, op_0, op_14, op_15, op_1, op_16, op_17, op_2, op_18, op_19]

theorem rnd_001 : rnd 0.001 = (1152921504606847 / 2 ^ 60) := by
    rw [rnd_eval' (x := 0.001) (k := 4611686018427388) 62 (by norm_num) (by left; constructor <;> norm_num) (by left; constructor <;> norm_num)]; norm_num

theorem op_20 : rnd ((1152921504606847 / 2 ^ 60) * (1 / 2 ^ 29)) = (1152921504606847 / 2 ^ 89) := by
    rw [rnd_eval' (x := (1152921504606847 / 2 ^ 60) * (1 / 2 ^ 29)) (k := 4611686018427388) 91 (by norm_num) (by left; constructor <;> norm_num) (by left; constructor <;> norm_num)]; norm_num

theorem op_21 : rnd ((1152921504606847 / 2 ^ 89) * (1 / 2 ^ 29)) = (1152921504606847 / 2 ^ 118) := by
    rw [rnd_eval' (x := (1152921504606847 / 2 ^ 89) * (1 / 2 ^ 29)) (k := 4611686018427388) 120 (by norm_num) (by left; constructor <;> norm_num) (by left; constructor <;> norm_num)]; norm_num

theorem op_22 : rnd ((-5 / 2 ^ 50) / (1152921504606847 / 2 ^ 118)) = (-1280000) := by
    rw [rnd_eval' (x := (-5 / 2 ^ 50) / (1152921504606847 / 2 ^ 118)) (k := -5497558138880000) 32 (by norm_num) (by right; constructor <;> norm_num) (by left; constructor <;> norm_num)]; norm_num

theorem op_23 : rnd ((1 / 2 ^ 29) / (1152921504606847 / 2 ^ 118)) = 536870912000 := by
    rw [rnd_eval' (x := (1 / 2 ^ 29) / (1152921504606847 / 2 ^ 118)) (k := 8796093022208000) 14 (by norm_num) (by left; constructor <;> norm_num) (by left; constructor <;> norm_num)]; norm_num

theorem op_24 : rnd (0 / (1152921504606847 / 2 ^ 118)) = 0 := by
    rw [show (0 / (1152921504606847 / 2 ^ 118) : ℝ) = 0 by norm_num]; exact rnd_zero

theorem info_eq : informationOf rnd ((-5 / 2 ^ 50), (1 / 2 ^ 29)) ⟨(1 / 2 ^ 29), 0, 0, (-5 / 2 ^ 50)⟩ =
    ⟨.fin (-1280000), .fin 0, .fin 0, .fin 536870912000⟩ := by
  have hd : ((1152921504606847 / 2 ^ 118) : ℝ) ≠ 0 := by norm_num
  have h1 : ¬ (((-5 / 2 ^ 50) : ℝ) > (1 / 2 ^ 29)) := by norm_num
  have h2 : ((-5 / 2 ^ 50) : ℝ) < (1152921504606847 / 2 ^ 89) := by norm_num
  simp only [informationOf, if_neg h1, rnd_001, op_20, op_21, if_pos h2, neg_zero, Fl.fin_div hd, Fl.rounded_fin, op_22, op_23, op_24]

theorem op_25 : rnd ((1 / 2 ^ 3) - 0) = (1 / 2 ^ 3) := by
    rw [rnd_eval' (x := (1 / 2 ^ 3) - 0) (k := 4503599627370496) 55 (by norm_num) (by left; constructor <;> norm_num) (by left; constructor <;> norm_num)]; norm_num

theorem op_26 : rnd ((5967269506265907 / 2 ^ 50) - (5967269506265907 / 2 ^ 50)) = 0 := by
    rw [show ((5967269506265907 / 2 ^ 50) - (5967269506265907 / 2 ^ 50) : ℝ) = 0 by norm_num]; exact rnd_zero

theorem h0_eq : rnd (-0.5 * (1 / 2 ^ 3)) = (-1 / 2 ^ 4) := by
    rw [rnd_eval' (x := -0.5 * (1 / 2 ^ 3)) (k := -4503599627370496) 56 (by norm_num) (by right; constructor <;> norm_num) (by left; constructor <;> norm_num)]; norm_num

theorem h1_eq : rnd (-0.5 * 0) = 0 := by
  rw [mul_zero]; exact rnd_zero

theorem op_27 : rnd ((-1 / 2 ^ 4) * (-1280000)) = 80000 := by
    rw [rnd_eval' (x := (-1 / 2 ^ 4) * (-1280000)) (k := 5497558138880000) 36 (by norm_num) (by left; constructor <;> norm_num) (by left; constructor <;> norm_num)]; norm_num

theorem op_28 : rnd (80000 + 0) = 80000 := by
    rw [rnd_eval' (x := 80000 + 0) (k := 5497558138880000) 36 (by norm_num) (by left; constructor <;> norm_num) (by left; constructor <;> norm_num)]; norm_num

theorem op_29 : rnd ((-1 / 2 ^ 4) * 0) = 0 := by
    rw [show ((-1 / 2 ^ 4) * 0 : ℝ) = 0 by norm_num]; exact rnd_zero

theorem op_30 : rnd (0 * 536870912000) = 0 := by
    rw [show (0 * 536870912000 : ℝ) = 0 by norm_num]; exact rnd_zero

theorem op_31 : rnd (0 + 0) = 0 := by
    rw [show (0 + 0 : ℝ) = 0 by norm_num]; exact rnd_zero

theorem op_32 : rnd (80000 * (1 / 2 ^ 3)) = 10000 := by
    rw [rnd_eval' (x := 80000 * (1 / 2 ^ 3)) (k := 5497558138880000) 39 (by norm_num) (by left; constructor <;> norm_num) (by left; constructor <;> norm_num)]; norm_num

theorem op_33 : rnd (10000 + 0) = 10000 := by
    rw [rnd_eval' (x := 10000 + 0) (k := 5497558138880000) 39 (by norm_num) (by left; constructor <;> norm_num) (by left; constructor <;> norm_num)]; norm_num

theorem exponent_eq (cov corr : Mat2 ℝ) (v : Bool) : exponent rnd
    ⟨v, 5, ⟨0, (5967269506265907 / 2 ^ 50)⟩, cov, corr, ⟨.fin (-1280000), .fin 0, .fin 0, .fin 536870912000⟩⟩ ⟨(1 / 2 ^ 3), (5967269506265907 / 2 ^ 50)⟩ = .fin 10000 := by
  simp only [exponent, Fl.fin_mul, Fl.fin_add, Fl.rounded_fin, h0_eq, h1_eq, op_25, op_26, op_27, op_0, op_28, op_29, op_30, op_31, op_32, op_33]

/-- Five points with `y = 5.3` in double precision, within 0.06 mm of each other. -/
def points : List Point := [⟨0, (5967269506265907 / 2 ^ 50)⟩, ⟨0, (5967269506265907 / 2 ^ 50)⟩, ⟨0, (5967269506265907 / 2 ^ 50)⟩, ⟨(1 / 2 ^ 14), (5967269506265907 / 2 ^ 50)⟩, ⟨(-1 / 2 ^ 14), (5967269506265907 / 2 ^ 50)⟩]

theorem y_eq : rnd 5.3 = (5967269506265907 / 2 ^ 50) := by
    rw [rnd_eval' (x := 5.3) (k := 5967269506265907) 50 (by norm_num) (by left; constructor <;> norm_num) (by left; constructor <;> norm_num)]; norm_num

theorem fold_eq : points.foldl (addPoint rnd) Cell.new = mk 5 0 (5967269506265907 / 2 ^ 50) (3602879701896397 / 2 ^ 81) 0 (3953316047901163 / 2 ^ 47) := by
  have h0 : Cell.new = mk 0 0 0 0 0 0 := rfl
  simp only [points, List.foldl_cons, List.foldl_nil, h0, add_1, add_2, add_3, add_4, add_5]

theorem eigen_eq : eigenvalues ⟨(1 / 2 ^ 29), 0, 0, (-5 / 2 ^ 50)⟩ = ((-5 / 2 ^ 50), (1 / 2 ^ 29)) := by
  have h : ((1 / 2 ^ 29) + (-5 / 2 ^ 50) : ℝ) ^ 2 - 4 * ((1 / 2 ^ 29) * ((-5 / 2 ^ 50)) - 0 * 0) = ((1 / 2 ^ 29) - (-5 / 2 ^ 50)) ^ 2 := by norm_num
  simp only [eigenvalues]
  rw [h, Real.sqrt_sq (by norm_num)]
  norm_num

theorem cell_eq : cellOf rnd eigenvalues points =
    ⟨true, 5, ⟨0, (5967269506265907 / 2 ^ 50)⟩, ⟨(1 / 2 ^ 29), 0, 0, (-5 / 2 ^ 50)⟩, ⟨(3602879701896397 / 2 ^ 81), 0, 0, (3953316047901163 / 2 ^ 47)⟩,
      ⟨.fin (-1280000), .fin 0, .fin 0, .fin 536870912000⟩⟩ := by
  unfold cellOf compute
  rw [fold_eq, if_neg]
  · simp only [cov_eq, eigen_eq, info_eq]
    rfl
  · rintro (h | h)
    · exact absurd h (by decide)
    · simp only [mk] at h
      norm_num at h

theorem score_eq : score rnd (cellOf rnd eigenvalues points) ⟨(1 / 2 ^ 3), (5967269506265907 / 2 ^ 50)⟩ = .pinf := by
  unfold score
  rw [cell_eq, exponent_eq, if_neg (by norm_num)]
  refine if_pos ?_
  have h1 : (2 : ℝ) ^ 1024 ≤ Real.exp 10000 := by
    have h2 : (2 : ℝ) ≤ Real.exp 1 := by linarith [Real.add_one_le_exp (1 : ℝ)]
    have h3 := pow_le_pow_left₀ (by norm_num) h2 1024
    rw [← Real.exp_nat_mul] at h3
    refine h3.trans (Real.exp_le_exp.mpr ?_)
    norm_num
  exact rnd_rounds.ge_of_ge (by
    have := isDouble_dyadic (k := 1) (e := (1024 : ℕ)) (by norm_num) (by omega)
    rw [zpow_natCast] at this
    simpa only [Int.cast_one, one_mul] using this) h1
end

end Ndt.Rounded.NegVar
