import Verif.Model.RoundedFilter
import Verif.Proof.Rounded

/-!
# Helper lemmas: three particles at one place whose computed variance is negative

The roundings of `updateStatistics` for three particles of equal weights at `x = 0.1`. The numbers were found with a program;
Lean checks each of them.
-/

namespace Ndt.Rounded.Pile

noncomputable section

theorem h0 : rnd (0 + (6004799503160661 / 2 ^ 54)) = (6004799503160661 / 2 ^ 54) := by
  rw [rnd_eval' (x := 0 + (6004799503160661 / 2 ^ 54)) (k := 6004799503160661) 54 (by norm_num) (by left; constructor <;> norm_num) (by left; constructor <;> norm_num)]; norm_num

theorem h1 : rnd ((6004799503160661 / 2 ^ 54) + (6004799503160661 / 2 ^ 54)) = (6004799503160661 / 2 ^ 53) := by
  rw [rnd_eval' (x := (6004799503160661 / 2 ^ 54) + (6004799503160661 / 2 ^ 54)) (k := 6004799503160661) 53 (by norm_num) (by left; constructor <;> norm_num) (by left; constructor <;> norm_num)]; norm_num

theorem h2 : rnd ((6004799503160661 / 2 ^ 53) + (6004799503160661 / 2 ^ 54)) = 1 := by
  rw [rnd_eval' (x := (6004799503160661 / 2 ^ 53) + (6004799503160661 / 2 ^ 54)) (k := 9007199254740992) 53 (by norm_num) (by left; constructor <;> norm_num) (by right; refine ⟨by norm_num, by decide⟩)]; norm_num

theorem h3 : rnd ((6004799503160661 / 2 ^ 54) / 1) = (6004799503160661 / 2 ^ 54) := by
  rw [rnd_eval' (x := (6004799503160661 / 2 ^ 54) / 1) (k := 6004799503160661) 54 (by norm_num) (by left; constructor <;> norm_num) (by left; constructor <;> norm_num)]; norm_num

theorem h4 : rnd ((6004799503160661 / 2 ^ 54) * (7205759403792794 / 2 ^ 56)) = (4803839602528529 / 2 ^ 57) := by
  rw [rnd_eval' (x := (6004799503160661 / 2 ^ 54) * (7205759403792794 / 2 ^ 56)) (k := 4803839602528529) 57 (by norm_num) (by left; constructor <;> norm_num) (by left; constructor <;> norm_num)]; norm_num

theorem h5 : rnd (0 + (4803839602528529 / 2 ^ 57)) = (4803839602528529 / 2 ^ 57) := by
  rw [rnd_eval' (x := 0 + (4803839602528529 / 2 ^ 57)) (k := 4803839602528529) 57 (by norm_num) (by left; constructor <;> norm_num) (by left; constructor <;> norm_num)]; norm_num

theorem h6 : rnd ((4803839602528529 / 2 ^ 57) + (4803839602528529 / 2 ^ 57)) = (4803839602528529 / 2 ^ 56) := by
  rw [rnd_eval' (x := (4803839602528529 / 2 ^ 57) + (4803839602528529 / 2 ^ 57)) (k := 4803839602528529) 56 (by norm_num) (by left; constructor <;> norm_num) (by left; constructor <;> norm_num)]; norm_num

theorem h7 : rnd ((4803839602528529 / 2 ^ 56) + (4803839602528529 / 2 ^ 57)) = (7205759403792794 / 2 ^ 56) := by
  rw [rnd_eval' (x := (4803839602528529 / 2 ^ 56) + (4803839602528529 / 2 ^ 57)) (k := 7205759403792794) 56 (by norm_num) (by left; constructor <;> norm_num) (by right; refine ⟨by norm_num, by decide⟩)]; norm_num

theorem h8 : rnd ((4803839602528529 / 2 ^ 57) * (7205759403792794 / 2 ^ 56)) = (7686143364045647 / 2 ^ 61) := by
  rw [rnd_eval' (x := (4803839602528529 / 2 ^ 57) * (7205759403792794 / 2 ^ 56)) (k := 7686143364045647) 61 (by norm_num) (by left; constructor <;> norm_num) (by left; constructor <;> norm_num)]; norm_num

theorem h9 : rnd (0 + (7686143364045647 / 2 ^ 61)) = (7686143364045647 / 2 ^ 61) := by
  rw [rnd_eval' (x := 0 + (7686143364045647 / 2 ^ 61)) (k := 7686143364045647) 61 (by norm_num) (by left; constructor <;> norm_num) (by left; constructor <;> norm_num)]; norm_num

theorem h10 : rnd ((7686143364045647 / 2 ^ 61) + (7686143364045647 / 2 ^ 61)) = (7686143364045647 / 2 ^ 60) := by
  rw [rnd_eval' (x := (7686143364045647 / 2 ^ 61) + (7686143364045647 / 2 ^ 61)) (k := 7686143364045647) 60 (by norm_num) (by left; constructor <;> norm_num) (by left; constructor <;> norm_num)]; norm_num

theorem h11 : rnd ((7686143364045647 / 2 ^ 60) + (7686143364045647 / 2 ^ 61)) = (5764607523034235 / 2 ^ 59) := by
  rw [rnd_eval' (x := (7686143364045647 / 2 ^ 60) + (7686143364045647 / 2 ^ 61)) (k := 5764607523034235) 59 (by norm_num) (by left; constructor <;> norm_num) (by left; constructor <;> norm_num)]; norm_num

theorem h12 : rnd ((7205759403792794 / 2 ^ 56) * (7205759403792794 / 2 ^ 56)) = (5764607523034236 / 2 ^ 59) := by
  rw [rnd_eval' (x := (7205759403792794 / 2 ^ 56) * (7205759403792794 / 2 ^ 56)) (k := 5764607523034236) 59 (by norm_num) (by left; constructor <;> norm_num) (by left; constructor <;> norm_num)]; norm_num

theorem h13 : rnd ((5764607523034235 / 2 ^ 59) - (5764607523034236 / 2 ^ 59)) = (-4503599627370496 / 2 ^ 111) := by
  rw [rnd_eval' (x := (5764607523034235 / 2 ^ 59) - (5764607523034236 / 2 ^ 59)) (k := -4503599627370496) 111 (by norm_num) (by right; constructor <;> norm_num) (by left; constructor <;> norm_num)]; norm_num

theorem third : rnd (1 / 3) = (6004799503160661 / 2 ^ 54) := by
  rw [rnd_eval' (x := 1 / 3) (k := 6004799503160661) 54 (by norm_num) (by left; constructor <;> norm_num) (by left; constructor <;> norm_num)]; norm_num

theorem tenth : rnd 0.1 = (7205759403792794 / 2 ^ 56) := by
  rw [rnd_eval' (x := 0.1) (k := 7205759403792794) 56 (by norm_num) (by left; constructor <;> norm_num) (by left; constructor <;> norm_num)]; norm_num

/-- Three particles of weight 1/3 at `x = 0.1`, in double precision. -/
def pile : List (ℝ × Pose2d) := List.replicate 3 ((6004799503160661 / 2 ^ 54), ⟨(7205759403792794 / 2 ^ 56), 0, 0⟩)

theorem covariance_pile : covariance rnd (·.x) (·.x) pile = (-4503599627370496 / 2 ^ 111) := by
  have hs : sumWeights rnd pile = 1 := by
    simp only [sumWeights, pile, List.replicate, List.foldl_cons, List.foldl_nil]
    rw [h0, h1, h2]
  have hn : normalised rnd pile = pile := by
    simp only [normalised, hs]
    simp only [pile, List.replicate, List.map_cons, List.map_nil]
    rw [h3]
  have hm : mean rnd (·.x) pile = (7205759403792794 / 2 ^ 56) := by
    simp only [mean, hn]
    simp only [accumMean, pile, List.replicate, List.foldl_cons, List.foldl_nil]
    rw [h4, h5, h6, h7]
  simp only [covariance, hm, hn]
  simp only [accumCorr, pile, List.replicate, List.foldl_cons, List.foldl_nil]
  rw [h4, h8, h9, h10, h11, h12, h13]

end

end Ndt.Rounded.Pile
