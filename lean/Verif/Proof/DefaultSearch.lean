import Verif.Proof.Rounded

/-! # The default search loop of the matcher in double precision -/

namespace Ndt.Rounded

noncomputable section

/-- `0.05` in double precision. -/
theorem rnd_size : rnd 0.05 = (7205759403792794) / 2 ^ 57 := by
  have := rnd_eval' (x := 0.05) (k := 7205759403792794) 57 (by norm_num) (by left; norm_num) (by left; norm_num)
  rw [this]; norm_num

/-- `0.005` in double precision. -/
theorem rnd_res : rnd 0.005 = (5764607523034235) / 2 ^ 60 := by
  have := rnd_eval' (x := 0.005) (k := 5764607523034235) 60 (by norm_num) (by left; norm_num) (by left; norm_num)
  rw [this]; norm_num

theorem default_step_0 : rnd (((-7205759403792794) / 2 ^ 57 : ℝ) + (5764607523034235) / 2 ^ 60) = (-6485183463413515) / 2 ^ 57 := by
  have := rnd_eval' (x := (-7205759403792794) / 2 ^ 57 + (5764607523034235) / 2 ^ 60) (k := -6485183463413515) 57 (by norm_num)
    (by right; constructor <;> norm_num) (by left; constructor <;> norm_num)
  rw [this]; norm_num

theorem default_step_1 : rnd (((-6485183463413515) / 2 ^ 57 : ℝ) + (5764607523034235) / 2 ^ 60) = (-5764607523034236) / 2 ^ 57 := by
  have := rnd_eval' (x := (-6485183463413515) / 2 ^ 57 + (5764607523034235) / 2 ^ 60) (k := -5764607523034236) 57 (by norm_num)
    (by right; constructor <;> norm_num) (by left; constructor <;> norm_num)
  rw [this]; norm_num

theorem default_step_2 : rnd (((-5764607523034236) / 2 ^ 57 : ℝ) + (5764607523034235) / 2 ^ 60) = (-5044031582654957) / 2 ^ 57 := by
  have := rnd_eval' (x := (-5764607523034236) / 2 ^ 57 + (5764607523034235) / 2 ^ 60) (k := -5044031582654957) 57 (by norm_num)
    (by right; constructor <;> norm_num) (by left; constructor <;> norm_num)
  rw [this]; norm_num

theorem default_step_3 : rnd (((-5044031582654957) / 2 ^ 57 : ℝ) + (5764607523034235) / 2 ^ 60) = (-8646911284551355) / 2 ^ 58 := by
  have := rnd_eval' (x := (-5044031582654957) / 2 ^ 57 + (5764607523034235) / 2 ^ 60) (k := -8646911284551355) 58 (by norm_num)
    (by right; constructor <;> norm_num) (by left; constructor <;> norm_num)
  rw [this]; norm_num

theorem default_step_4 : rnd (((-8646911284551355) / 2 ^ 58 : ℝ) + (5764607523034235) / 2 ^ 60) = (-7205759403792796) / 2 ^ 58 := by
  have := rnd_eval' (x := (-8646911284551355) / 2 ^ 58 + (5764607523034235) / 2 ^ 60) (k := -7205759403792796) 58 (by norm_num)
    (by right; constructor <;> norm_num) (by left; constructor <;> norm_num)
  rw [this]; norm_num

theorem default_step_5 : rnd (((-7205759403792796) / 2 ^ 58 : ℝ) + (5764607523034235) / 2 ^ 60) = (-5764607523034237) / 2 ^ 58 := by
  have := rnd_eval' (x := (-7205759403792796) / 2 ^ 58 + (5764607523034235) / 2 ^ 60) (k := -5764607523034237) 58 (by norm_num)
    (by right; constructor <;> norm_num) (by left; constructor <;> norm_num)
  rw [this]; norm_num

theorem default_step_6 : rnd (((-5764607523034237) / 2 ^ 58 : ℝ) + (5764607523034235) / 2 ^ 60) = (-8646911284551356) / 2 ^ 59 := by
  have := rnd_eval' (x := (-5764607523034237) / 2 ^ 58 + (5764607523034235) / 2 ^ 60) (k := -8646911284551356) 59 (by norm_num)
    (by right; constructor <;> norm_num) (by right; exact ⟨Or.inl (by norm_num), by decide⟩)
  rw [this]; norm_num

theorem default_step_7 : rnd (((-8646911284551356) / 2 ^ 59 : ℝ) + (5764607523034235) / 2 ^ 60) = (-5764607523034238) / 2 ^ 59 := by
  have := rnd_eval' (x := (-8646911284551356) / 2 ^ 59 + (5764607523034235) / 2 ^ 60) (k := -5764607523034238) 59 (by norm_num)
    (by right; constructor <;> norm_num) (by right; exact ⟨Or.inl (by norm_num), by decide⟩)
  rw [this]; norm_num

theorem default_step_8 : rnd (((-5764607523034238) / 2 ^ 59 : ℝ) + (5764607523034235) / 2 ^ 60) = (-5764607523034241) / 2 ^ 60 := by
  have := rnd_eval' (x := (-5764607523034238) / 2 ^ 59 + (5764607523034235) / 2 ^ 60) (k := -5764607523034241) 60 (by norm_num)
    (by right; constructor <;> norm_num) (by left; constructor <;> norm_num)
  rw [this]; norm_num

theorem default_step_9 : rnd (((-5764607523034241) / 2 ^ 60 : ℝ) + (5764607523034235) / 2 ^ 60) = (-6755399441055744) / 2 ^ 110 := by
  have := rnd_eval' (x := (-5764607523034241) / 2 ^ 60 + (5764607523034235) / 2 ^ 60) (k := -6755399441055744) 110 (by norm_num)
    (by right; constructor <;> norm_num) (by left; constructor <;> norm_num)
  rw [this]; norm_num

theorem default_step_10 : rnd (((-6755399441055744) / 2 ^ 110 : ℝ) + (5764607523034235) / 2 ^ 60) = (5764607523034229) / 2 ^ 60 := by
  have := rnd_eval' (x := (-6755399441055744) / 2 ^ 110 + (5764607523034235) / 2 ^ 60) (k := 5764607523034229) 60 (by norm_num)
    (by left; constructor <;> norm_num) (by left; constructor <;> norm_num)
  rw [this]; norm_num

theorem default_step_11 : rnd (((5764607523034229) / 2 ^ 60 : ℝ) + (5764607523034235) / 2 ^ 60) = (5764607523034232) / 2 ^ 59 := by
  have := rnd_eval' (x := (5764607523034229) / 2 ^ 60 + (5764607523034235) / 2 ^ 60) (k := 5764607523034232) 59 (by norm_num)
    (by left; constructor <;> norm_num) (by left; constructor <;> norm_num)
  rw [this]; norm_num

theorem default_step_12 : rnd (((5764607523034232) / 2 ^ 59 : ℝ) + (5764607523034235) / 2 ^ 60) = (8646911284551350) / 2 ^ 59 := by
  have := rnd_eval' (x := (5764607523034232) / 2 ^ 59 + (5764607523034235) / 2 ^ 60) (k := 8646911284551350) 59 (by norm_num)
    (by left; constructor <;> norm_num) (by right; exact ⟨Or.inl (by norm_num), by decide⟩)
  rw [this]; norm_num

theorem default_step_13 : rnd (((8646911284551350) / 2 ^ 59 : ℝ) + (5764607523034235) / 2 ^ 60) = (5764607523034234) / 2 ^ 58 := by
  have := rnd_eval' (x := (8646911284551350) / 2 ^ 59 + (5764607523034235) / 2 ^ 60) (k := 5764607523034234) 58 (by norm_num)
    (by left; constructor <;> norm_num) (by left; constructor <;> norm_num)
  rw [this]; norm_num

theorem default_step_14 : rnd (((5764607523034234) / 2 ^ 58 : ℝ) + (5764607523034235) / 2 ^ 60) = (7205759403792793) / 2 ^ 58 := by
  have := rnd_eval' (x := (5764607523034234) / 2 ^ 58 + (5764607523034235) / 2 ^ 60) (k := 7205759403792793) 58 (by norm_num)
    (by left; constructor <;> norm_num) (by left; constructor <;> norm_num)
  rw [this]; norm_num

theorem default_step_15 : rnd (((7205759403792793) / 2 ^ 58 : ℝ) + (5764607523034235) / 2 ^ 60) = (8646911284551352) / 2 ^ 58 := by
  have := rnd_eval' (x := (7205759403792793) / 2 ^ 58 + (5764607523034235) / 2 ^ 60) (k := 8646911284551352) 58 (by norm_num)
    (by left; constructor <;> norm_num) (by left; constructor <;> norm_num)
  rw [this]; norm_num

theorem default_step_16 : rnd (((8646911284551352) / 2 ^ 58 : ℝ) + (5764607523034235) / 2 ^ 60) = (5044031582654955) / 2 ^ 57 := by
  have := rnd_eval' (x := (8646911284551352) / 2 ^ 58 + (5764607523034235) / 2 ^ 60) (k := 5044031582654955) 57 (by norm_num)
    (by left; constructor <;> norm_num) (by left; constructor <;> norm_num)
  rw [this]; norm_num

theorem default_step_17 : rnd (((5044031582654955) / 2 ^ 57 : ℝ) + (5764607523034235) / 2 ^ 60) = (5764607523034234) / 2 ^ 57 := by
  have := rnd_eval' (x := (5044031582654955) / 2 ^ 57 + (5764607523034235) / 2 ^ 60) (k := 5764607523034234) 57 (by norm_num)
    (by left; constructor <;> norm_num) (by left; constructor <;> norm_num)
  rw [this]; norm_num

theorem default_step_18 : rnd (((5764607523034234) / 2 ^ 57 : ℝ) + (5764607523034235) / 2 ^ 60) = (6485183463413513) / 2 ^ 57 := by
  have := rnd_eval' (x := (5764607523034234) / 2 ^ 57 + (5764607523034235) / 2 ^ 60) (k := 6485183463413513) 57 (by norm_num)
    (by left; constructor <;> norm_num) (by left; constructor <;> norm_num)
  rw [this]; norm_num

theorem default_step_19 : rnd (((6485183463413513) / 2 ^ 57 : ℝ) + (5764607523034235) / 2 ^ 60) = (7205759403792792) / 2 ^ 57 := by
  have := rnd_eval' (x := (6485183463413513) / 2 ^ 57 + (5764607523034235) / 2 ^ 60) (k := 7205759403792792) 57 (by norm_num)
    (by left; constructor <;> norm_num) (by left; constructor <;> norm_num)
  rw [this]; norm_num

theorem default_step_20 : rnd (((7205759403792792) / 2 ^ 57 : ℝ) + (5764607523034235) / 2 ^ 60) = (7926335344172071) / 2 ^ 57 := by
  have := rnd_eval' (x := (7205759403792792) / 2 ^ 57 + (5764607523034235) / 2 ^ 60) (k := 7926335344172071) 57 (by norm_num)
    (by left; constructor <;> norm_num) (by left; constructor <;> norm_num)
  rw [this]; norm_num

theorem default_val_0 : searchVal rnd (rnd 0.05) (rnd 0.005) 0 = (-7205759403792794) / 2 ^ 57 := by
  show -rnd 0.05 = _
  rw [rnd_size]; norm_num

theorem default_val_1 : searchVal rnd (rnd 0.05) (rnd 0.005) 1 = (-6485183463413515) / 2 ^ 57 := by
  show rnd (searchVal rnd (rnd 0.05) (rnd 0.005) 0 + rnd 0.005) = _
  rw [default_val_0, rnd_res]; exact default_step_0

theorem default_val_2 : searchVal rnd (rnd 0.05) (rnd 0.005) 2 = (-5764607523034236) / 2 ^ 57 := by
  show rnd (searchVal rnd (rnd 0.05) (rnd 0.005) 1 + rnd 0.005) = _
  rw [default_val_1, rnd_res]; exact default_step_1

theorem default_val_3 : searchVal rnd (rnd 0.05) (rnd 0.005) 3 = (-5044031582654957) / 2 ^ 57 := by
  show rnd (searchVal rnd (rnd 0.05) (rnd 0.005) 2 + rnd 0.005) = _
  rw [default_val_2, rnd_res]; exact default_step_2

theorem default_val_4 : searchVal rnd (rnd 0.05) (rnd 0.005) 4 = (-8646911284551355) / 2 ^ 58 := by
  show rnd (searchVal rnd (rnd 0.05) (rnd 0.005) 3 + rnd 0.005) = _
  rw [default_val_3, rnd_res]; exact default_step_3

theorem default_val_5 : searchVal rnd (rnd 0.05) (rnd 0.005) 5 = (-7205759403792796) / 2 ^ 58 := by
  show rnd (searchVal rnd (rnd 0.05) (rnd 0.005) 4 + rnd 0.005) = _
  rw [default_val_4, rnd_res]; exact default_step_4

theorem default_val_6 : searchVal rnd (rnd 0.05) (rnd 0.005) 6 = (-5764607523034237) / 2 ^ 58 := by
  show rnd (searchVal rnd (rnd 0.05) (rnd 0.005) 5 + rnd 0.005) = _
  rw [default_val_5, rnd_res]; exact default_step_5

theorem default_val_7 : searchVal rnd (rnd 0.05) (rnd 0.005) 7 = (-8646911284551356) / 2 ^ 59 := by
  show rnd (searchVal rnd (rnd 0.05) (rnd 0.005) 6 + rnd 0.005) = _
  rw [default_val_6, rnd_res]; exact default_step_6

theorem default_val_8 : searchVal rnd (rnd 0.05) (rnd 0.005) 8 = (-5764607523034238) / 2 ^ 59 := by
  show rnd (searchVal rnd (rnd 0.05) (rnd 0.005) 7 + rnd 0.005) = _
  rw [default_val_7, rnd_res]; exact default_step_7

theorem default_val_9 : searchVal rnd (rnd 0.05) (rnd 0.005) 9 = (-5764607523034241) / 2 ^ 60 := by
  show rnd (searchVal rnd (rnd 0.05) (rnd 0.005) 8 + rnd 0.005) = _
  rw [default_val_8, rnd_res]; exact default_step_8

theorem default_val_10 : searchVal rnd (rnd 0.05) (rnd 0.005) 10 = (-6755399441055744) / 2 ^ 110 := by
  show rnd (searchVal rnd (rnd 0.05) (rnd 0.005) 9 + rnd 0.005) = _
  rw [default_val_9, rnd_res]; exact default_step_9

theorem default_val_11 : searchVal rnd (rnd 0.05) (rnd 0.005) 11 = (5764607523034229) / 2 ^ 60 := by
  show rnd (searchVal rnd (rnd 0.05) (rnd 0.005) 10 + rnd 0.005) = _
  rw [default_val_10, rnd_res]; exact default_step_10

theorem default_val_12 : searchVal rnd (rnd 0.05) (rnd 0.005) 12 = (5764607523034232) / 2 ^ 59 := by
  show rnd (searchVal rnd (rnd 0.05) (rnd 0.005) 11 + rnd 0.005) = _
  rw [default_val_11, rnd_res]; exact default_step_11

theorem default_val_13 : searchVal rnd (rnd 0.05) (rnd 0.005) 13 = (8646911284551350) / 2 ^ 59 := by
  show rnd (searchVal rnd (rnd 0.05) (rnd 0.005) 12 + rnd 0.005) = _
  rw [default_val_12, rnd_res]; exact default_step_12

theorem default_val_14 : searchVal rnd (rnd 0.05) (rnd 0.005) 14 = (5764607523034234) / 2 ^ 58 := by
  show rnd (searchVal rnd (rnd 0.05) (rnd 0.005) 13 + rnd 0.005) = _
  rw [default_val_13, rnd_res]; exact default_step_13

theorem default_val_15 : searchVal rnd (rnd 0.05) (rnd 0.005) 15 = (7205759403792793) / 2 ^ 58 := by
  show rnd (searchVal rnd (rnd 0.05) (rnd 0.005) 14 + rnd 0.005) = _
  rw [default_val_14, rnd_res]; exact default_step_14

theorem default_val_16 : searchVal rnd (rnd 0.05) (rnd 0.005) 16 = (8646911284551352) / 2 ^ 58 := by
  show rnd (searchVal rnd (rnd 0.05) (rnd 0.005) 15 + rnd 0.005) = _
  rw [default_val_15, rnd_res]; exact default_step_15

theorem default_val_17 : searchVal rnd (rnd 0.05) (rnd 0.005) 17 = (5044031582654955) / 2 ^ 57 := by
  show rnd (searchVal rnd (rnd 0.05) (rnd 0.005) 16 + rnd 0.005) = _
  rw [default_val_16, rnd_res]; exact default_step_16

theorem default_val_18 : searchVal rnd (rnd 0.05) (rnd 0.005) 18 = (5764607523034234) / 2 ^ 57 := by
  show rnd (searchVal rnd (rnd 0.05) (rnd 0.005) 17 + rnd 0.005) = _
  rw [default_val_17, rnd_res]; exact default_step_17

theorem default_val_19 : searchVal rnd (rnd 0.05) (rnd 0.005) 19 = (6485183463413513) / 2 ^ 57 := by
  show rnd (searchVal rnd (rnd 0.05) (rnd 0.005) 18 + rnd 0.005) = _
  rw [default_val_18, rnd_res]; exact default_step_18

theorem default_val_20 : searchVal rnd (rnd 0.05) (rnd 0.005) 20 = (7205759403792792) / 2 ^ 57 := by
  show rnd (searchVal rnd (rnd 0.05) (rnd 0.005) 19 + rnd 0.005) = _
  rw [default_val_19, rnd_res]; exact default_step_19

theorem default_val_21 : searchVal rnd (rnd 0.05) (rnd 0.005) 21 = (7926335344172071) / 2 ^ 57 := by
  show rnd (searchVal rnd (rnd 0.05) (rnd 0.005) 20 + rnd 0.005) = _
  rw [default_val_20, rnd_res]; exact default_step_20

end

end Ndt.Rounded
