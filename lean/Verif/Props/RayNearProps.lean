import Verif.Proof.RayNear
import Verif.Props.GridProps

/-! # C118: the cells of a ray lie along the beam -/

namespace Ndt

noncomputable section

open Spec OccGrid

/-- **C118** On steep rays every cell counted is within half a cell of the line between the cells of its ends. -/
theorem c118_steep_rays_partial {s e : GCell} {t : List GCell × GCell} (ht : Traced s e t) (h : |e.1 - s.1| ≤ |e.2 - s.2|) :
    ∀ c ∈ t.1 ++ [t.2], 2 * |aside s e c| ≤ |e.2 - s.2| := by
  intro c hc
  obtain ⟨i, j, -, -, ⟨h1, h2⟩, rfl⟩ := traced_steps ht
    (P := fun i j => -|e.2 - s.2| ≤ 2 * (|e.1 - s.1| * j - |e.2 - s.2| * i) ∧ 2 * (|e.1 - s.1| * j - |e.2 - s.2| * i) ≤ |e.2 - s.2|)
    (by simp) (fun i j q hi hq => nstep_steep (abs_nonneg _) h i j q hi hq) c hc
  rw [aside_cell]
  rcases abs_cases (|e.1 - s.1| * j - |e.2 - s.2| * i) with ⟨e1, -⟩ | ⟨e1, -⟩ <;> rw [e1] <;> linarith

/-- **C118** (partial: the wanted bound is half a cell, `2 * |aside s e c| ≤ |e.1 - s.1|`) On flat rays every cell counted is within
one and a half cells of the line. -/
theorem c118_flat_rays_partial {s e : GCell} {t : List GCell × GCell} (ht : Traced s e t) (h : |e.2 - s.2| < |e.1 - s.1|) :
    ∀ c ∈ t.1 ++ [t.2], 2 * |aside s e c| ≤ |e.1 - s.1| + 2 * |e.2 - s.2| := by
  intro c hc
  obtain ⟨i, j, -, -, ⟨h1, h2⟩, rfl⟩ := traced_steps ht
    (P := fun i j => -|e.1 - s.1| ≤ 2 * (|e.1 - s.1| * j - |e.2 - s.2| * i) ∧
      2 * (|e.1 - s.1| * j - |e.2 - s.2| * i) ≤ |e.1 - s.1| + 2 * |e.2 - s.2|)
    ⟨by have := abs_nonneg (e.1 - s.1); simp, by have := abs_nonneg (e.2 - s.2); have := abs_nonneg (e.1 - s.1); simp; omega⟩
    (fun i j q hi hq => nstep_flat (abs_nonneg _) h i j q hi hq) c hc
  rw [aside_cell]
  have := abs_nonneg (e.2 - s.2)
  rcases abs_cases (|e.1 - s.1| * j - |e.2 - s.2| * i) with ⟨e1, -⟩ | ⟨e1, -⟩ <;> rw [e1] <;> linarith

/-- The ray from (0, 0) to (7, 5): the cell (4, 4) is more than one cell aside. -/
theorem ray_seven_five : Traced (0, 0) (7, 5) ([(0, 0), (1, 1), (2, 2), (3, 3), (4, 4), (5, 4), (6, 5)], (6, 5)) :=
  ⟨14, by decide⟩

/-- The code violates C118: a cell more than a whole cell aside of a flat ray is counted. -/
theorem c118_more_than_a_cell_aside : ∃ t, Traced (0, 0) (7, 5) t ∧ (4, 4) ∈ t.1 ∧ 7 < |aside (0, 0) (7, 5) (4, 4)| :=
  ⟨_, ray_seven_five, by decide, by decide⟩

/-- Example: a steep ray. -/
example : ∃ t, Traced (2, 2) (0, 5) t ∧ |(0 : ℤ) - 2| ≤ |(5 : ℤ) - 2| :=
  ⟨([(2, 2), (1, 3), (1, 4)], (0, 5)), ⟨6, by decide⟩, by decide⟩

/-- The beam in cells: a point of it is at most a cell beyond the line between the cells of its ends. -/
theorem along_cells (ox c p q l : ℝ) (hl0 : 0 ≤ l) (hl1 : l ≤ 1) :
    (⌊(p - ox) / c⌋ : ℝ) + l * (⌊(q - ox) / c⌋ - ⌊(p - ox) / c⌋) ≤ (p + l * (q - p) - ox) / c ∧
    (p + l * (q - p) - ox) / c ≤ (⌊(p - ox) / c⌋ : ℝ) + l * (⌊(q - ox) / c⌋ - ⌊(p - ox) / c⌋) + 1 := by
  have e : (p + l * (q - p) - ox) / c = (1 - l) * ((p - ox) / c) + l * ((q - ox) / c) := by ring
  rw [e]
  have h1 := Int.floor_le ((p - ox) / c)
  have h2 := Int.floor_le ((q - ox) / c)
  have h3 := (Int.lt_floor_add_one ((p - ox) / c)).le
  have h4 := (Int.lt_floor_add_one ((q - ox) / c)).le
  generalize (p - ox) / c = u at *
  generalize (q - ox) / c = w at *
  constructor
  · have := mul_le_mul_of_nonneg_left h1 (by linarith : 0 ≤ 1 - l)
    have := mul_le_mul_of_nonneg_left h2 hl0
    nlinarith
  · have := mul_le_mul_of_nonneg_left h3 (by linarith : 0 ≤ 1 - l)
    have := mul_le_mul_of_nonneg_left h4 hl0
    nlinarith

/-- From cells to metres, along one axis. -/
theorem middle_near {ox c p q l k d b : ℝ} (hc : 0 < c) (hl0 : 0 ≤ l) (hl1 : l ≤ 1)
    (hk : (⌊(p - ox) / c⌋ : ℝ) + l * (⌊(q - ox) / c⌋ - ⌊(p - ox) / c⌋) = k + d) (hd : |d| ≤ b) :
    |ox + (k + 1 / 2) * c - (p + l * (q - p))| ≤ (b + 1 / 2) * c := by
  obtain ⟨h1, h2⟩ := along_cells ox c p q l hl0 hl1
  rw [hk] at h1 h2
  have e : ox + (k + 1 / 2) * c - (p + l * (q - p)) = (k + 1 / 2 - (p + l * (q - p) - ox) / c) * c := by
    field_simp; ring
  rw [e, abs_mul, abs_of_pos hc]
  refine mul_le_mul_of_nonneg_right ?_ hc.le
  rw [abs_le] at hd ⊢
  constructor <;> linarith [hd.1, hd.2]

/-- **C118** In metres: the middle of every cell counted is near some point of the beam: along its longer side within half a
cell, across it within one cell for steep beams, and less than two for flat ones. -/
theorem c118_cells_near_the_beam_partial (ox oy : ℝ) {c : ℝ} (hc : 0 < c) (p q : Point) {t : List GCell × GCell}
    (ht : Traced (square ox oy c p) (square ox oy c q) t) (k : GCell) (hk : k ∈ t.1 ++ [t.2]) :
    ∃ l : ℝ, 0 ≤ l ∧ l ≤ 1 ∧
      ((|(middle ox oy c k).x - (along p q l).x| ≤ c ∧ |(middle ox oy c k).y - (along p q l).y| ≤ c / 2) ∨
       (|(middle ox oy c k).x - (along p q l).x| ≤ c / 2 ∧ |(middle ox oy c k).y - (along p q l).y| < 2 * c)) := by
  set s := square ox oy c p with hs
  set e := square ox oy c q with he
  set a : ℤ := |e.1 - s.1| with ha
  set b : ℤ := |e.2 - s.2| with hb
  have ha0 : 0 ≤ a := abs_nonneg _
  have hb0 : 0 ≤ b := abs_nonneg _
  obtain ⟨i, j, ⟨hi0, hia⟩, ⟨hj0, hjb⟩, ⟨hst, hfl⟩, rfl⟩ := traced_steps ht
    (P := fun i j => (a ≤ b → -b ≤ 2 * (a * j - b * i) ∧ 2 * (a * j - b * i) ≤ b) ∧
      (b < a → -a ≤ 2 * (a * j - b * i) ∧ 2 * (a * j - b * i) ≤ a + 2 * b))
    ⟨fun _ => ⟨by simp; omega, by simp; omega⟩, fun _ => ⟨by simp; omega, by simp; omega⟩⟩
    (fun i j q hi hq => ⟨fun h => nstep_steep ha0 h i j q (hi.1 h) hq, fun h => nstep_flat hb0 h i j q (hi.2 h) hq⟩) k hk
  have hx := Ray.endX_eq ⟨s.1, s.2, e.1, e.2⟩
  have hy := Ray.endY_eq ⟨s.1, s.2, e.1, e.2⟩
  have hdy : -(Ray.mk s.1 s.2 e.1 e.2).dy = b := by unfold Ray.dy; simp [hb]
  rw [hdy] at hy
  have hdx : (Ray.mk s.1 s.2 e.1 e.2).dx = a := rfl
  rw [hdx] at hx
  have hsx : |((Ray.mk s.1 s.2 e.1 e.2).sx : ℝ)| = 1 := by unfold Ray.sx; split <;> norm_num
  have hsy : |((Ray.mk s.1 s.2 e.1 e.2).sy : ℝ)| = 1 := by unfold Ray.sy; split <;> norm_num
  unfold Ray.cell
  simp only at hx hy ⊢
  generalize (Ray.mk s.1 s.2 e.1 e.2).sx = sx at *
  generalize (Ray.mk s.1 s.2 e.1 e.2).sy = sy at *
  have hx' : (e.1 : ℝ) - s.1 = sx * a := by rw [hx]; push_cast; ring
  have hy' : (e.2 : ℝ) - s.2 = sy * b := by rw [hy]; push_cast; ring
  have hi0' : (0 : ℝ) ≤ i := by exact_mod_cast hi0
  have hj0' : (0 : ℝ) ≤ j := by exact_mod_cast hj0
  have hia' : (i : ℝ) ≤ a := by exact_mod_cast hia
  have hjb' : (j : ℝ) ≤ b := by exact_mod_cast hjb
  have near : ∀ (l dx dy bx by_ : ℝ), 0 ≤ l → l ≤ 1 → l * a = i + dx → l * b = j + dy → |dx| ≤ bx → |dy| ≤ by_ →
      |(middle ox oy c (s.1 + sx * i, s.2 + sy * j)).x - (along p q l).x| ≤ (bx + 1 / 2) * c ∧
      |(middle ox oy c (s.1 + sx * i, s.2 + sy * j)).y - (along p q l).y| ≤ (by_ + 1 / 2) * c := by
    intro l dx dy bx by_ hl0 hl1 h1 h2 h3 h4
    constructor
    · refine middle_near (d := sx * dx) hc hl0 hl1 ?_ (by rw [abs_mul, hsx, one_mul]; exact h3)
      show (s.1 : ℝ) + l * (e.1 - s.1) = _
      rw [hx']; push_cast; linear_combination (sx : ℝ) * h1
    · refine middle_near (d := sy * dy) hc hl0 hl1 ?_ (by rw [abs_mul, hsy, one_mul]; exact h4)
      show (s.2 : ℝ) + l * (e.2 - s.2) = _
      rw [hy']; push_cast; linear_combination (sy : ℝ) * h2
  rcases le_or_gt a b with hab | hab
  · rcases hb0.eq_or_lt with hb1 | hb1
    · have hi : i = 0 := by omega
      have hj : j = 0 := by omega
      obtain ⟨n1, n2⟩ := near 0 0 0 0 0 le_rfl zero_le_one (by rw [hi]; simp) (by rw [hj]; simp) (by simp) (by simp)
      refine ⟨0, le_rfl, zero_le_one, Or.inl ⟨n1.trans (by linarith), n2.trans (by linarith)⟩⟩
    · have hb2 : (0 : ℝ) < b := by exact_mod_cast hb1
      obtain ⟨k1, k2⟩ := hst hab
      have k1' : -(b : ℝ) ≤ 2 * (a * j - b * i) := by exact_mod_cast k1
      have k2' : 2 * ((a : ℝ) * j - b * i) ≤ b := by exact_mod_cast k2
      obtain ⟨n1, n2⟩ := near (j / b) (j / b * a - i) 0 (1 / 2) 0 (by positivity) ((div_le_one hb2).mpr hjb') (by ring)
        (by field_simp; ring) (by
          have : (j : ℝ) / b * a - i = (a * j - b * i) / b := by field_simp
          rw [this, abs_le, le_div_iff₀ hb2, div_le_iff₀ hb2]
          constructor <;> linarith) (by simp)
      exact ⟨j / b, by positivity, (div_le_one hb2).mpr hjb', Or.inl ⟨n1.trans (by linarith), n2.trans (by linarith)⟩⟩
  · have ha1 : 0 < a := by omega
    have ha2 : (0 : ℝ) < a := by exact_mod_cast ha1
    obtain ⟨k1, k2⟩ := hfl hab
    have k1' : -(a : ℝ) ≤ 2 * (a * j - b * i) := by exact_mod_cast k1
    have k2' : 2 * ((a : ℝ) * j - b * i) ≤ a + 2 * b := by exact_mod_cast k2
    have hb2 : (0 : ℝ) ≤ b := by exact_mod_cast hb0
    have hab' : (b : ℝ) < a := by exact_mod_cast hab
    obtain ⟨n1, n2⟩ := near (i / a) 0 (i / a * b - j) 0 (1 / 2 + b / a) (by positivity) ((div_le_one ha2).mpr hia')
      (by field_simp; ring) (by ring) (by simp) (by
        have : (i : ℝ) / a * b - j = (b * i - a * j) / a := by field_simp
        have h2 : (1 : ℝ) / 2 + b / a = (a + 2 * b) / (2 * a) := by field_simp
        rw [this, h2, abs_le, neg_le_iff_add_nonneg, div_add_div _ _ (by positivity) (by positivity),
          div_le_div_iff₀ ha2 (by positivity)]
        constructor
        · refine div_nonneg ?_ (by positivity)
          nlinarith
        · nlinarith)
    refine ⟨i / a, by positivity, (div_le_one ha2).mpr hia', Or.inr ⟨n1.trans (by linarith), n2.trans_lt ?_⟩⟩
    have : (b : ℝ) / a < 1 := (div_lt_one ha2).mpr hab'
    nlinarith

/-- A scan at (0.5, 0.5): one beam ends at the point (4.5, 4.5), four pass below it. -/
def pastCorner : Scan :=
  { Scan.new 0 with pose := ⟨0.5, 0.5, 0⟩, points := [⟨4, 4⟩, ⟨7, 5⟩, ⟨8, 6⟩, ⟨10, 7⟩, ⟨11, 8⟩] }

theorem pastCorner_measured : measured [pastCorner] = [⟨4, 4⟩, ⟨7, 5⟩, ⟨8, 6⟩, ⟨10, 7⟩, ⟨11, 8⟩].map fun p =>
    ((⟨0.5, 0.5, 0⟩ : Pose2d), (p : Point)) := by
  simp [measured, pastCorner]

theorem pastCorner_move (x y : ℝ) : move ⟨0.5, 0.5, 0⟩ ⟨x, y⟩ = ⟨x + 0.5, y + 0.5⟩ := by
  rw [← worldPoint_eq]
  unfold worldPoint
  simp only [Real.cos_zero, Real.sin_zero]
  congr 1 <;> ring

theorem pastCorner_bounds : (OccGrid.new 1 0.25).refreshed [pastCorner] = ⟨1, 0.25, 0, 12, 0, 9, 1⟩ := by
  unfold refreshed
  rw [if_pos (by simp [OccGrid.new]), updateBounds_eq]
  have h0 : (OccGrid.new 1 0.25).numScans = 0 := rfl
  rw [h0, List.drop_zero, pastCorner_measured]
  simp only [List.map_cons, List.map_nil, pastCorner_move, List.foldl_cons, List.foldl_nil, widen, OccGrid.new, roundOut]
  have e1 : ⌈(11.5 : ℝ)⌉ = 12 := by rw [Int.ceil_eq_iff]; norm_num
  have e2 : ⌈(8.5 : ℝ)⌉ = 9 := by rw [Int.ceil_eq_iff]; norm_num
  norm_num [e1, e2]

/-- A beam from the middle of the cell (5, 5) that goes to the right and stays below the cell (9, 9). -/
theorem misses_nine {x y : ℝ} (hx : 0 < x) (h : y * 4.5 < x * 3.5) :
    Misses (-5) (-5) 1 ⟨0.5, 0.5⟩ ⟨x + 0.5, y + 0.5⟩ (9, 9) := by
  intro l hl0 hl1 he
  unfold square along at he
  simp only [Prod.mk.injEq, Int.floor_eq_iff] at he
  obtain ⟨⟨h1, h2⟩, h3, h4⟩ := he
  push_cast at *
  norm_num at h1 h2 h3 h4 h
  have k2 : l * x < 4.5 := by linarith
  have k3 : 3.5 ≤ l * y := by linarith
  have k4 : l * y * 4.5 ≤ l * x * 3.5 := by nlinarith
  linarith

/-- What the five beams count. -/
abbrev pastCornerTraces : List (List GCell × GCell) :=
  [([(5, 5), (6, 6), (7, 7), (8, 8)], (9, 9)),
   ([(5, 5), (6, 6), (7, 7), (8, 8), (9, 9), (10, 9), (11, 10)], (11, 10)),
   ([(5, 5), (6, 6), (7, 7), (8, 8), (9, 9), (10, 10), (11, 10), (12, 11)], (12, 11)),
   ([(5, 5), (6, 6), (7, 7), (8, 8), (9, 9), (10, 9), (11, 10), (12, 11), (13, 11), (14, 12)], (14, 12)),
   ([(5, 5), (6, 6), (7, 7), (8, 8), (9, 9), (10, 9), (11, 10), (12, 11), (13, 12), (14, 12), (15, 13)], (15, 13))]

/-- The code violates C118: a point is measured at (4.5, 4.5), no other beam has a point in its cell, and the map shows
the cell as free. -/
theorem c118_obstacle_reported_free : ∃ g m, (OccGrid.new 1 0.25).getMsg [pastCorner] = .ok (g, m) ∧
    (∃ q ∈ measured [pastCorner], square m.originX m.originY m.resolution (move q.1 q.2) = (9, 9)) ∧
    (∀ q ∈ measured [pastCorner], square m.originX m.originY m.resolution (move q.1 q.2) = (9, 9) ∨
      Misses m.originX m.originY m.resolution ⟨q.1.x, q.1.y⟩ (move q.1 q.2) (9, 9)) ∧
    9 < m.width ∧ 9 < m.height ∧ m.data[9 + 9 * m.width]? = some 0 := by
  have hmem : ∀ q ∈ measured [pastCorner], ∃ x y : ℝ, q = (⟨0.5, 0.5, 0⟩, ⟨x, y⟩) ∧ (x = 4 ∧ y = 4 ∨ x = 7 ∧ y = 5 ∨
      x = 8 ∧ y = 6 ∨ x = 10 ∧ y = 7 ∨ x = 11 ∧ y = 8) := by
    intro q hq
    rw [pastCorner_measured] at hq
    simp only [List.map_cons, List.map_nil, List.mem_cons, List.not_mem_nil, or_false] at hq
    rcases hq with rfl | rfl | rfl | rfl | rfl <;> exact ⟨_, _, rfl, by norm_num⟩
  have hcov : CoversPoints ⟨1, 0.25, 0, 12, 0, 9, 1⟩ [pastCorner] := by
    intro q hq
    obtain ⟨x, y, rfl, h⟩ := hmem q hq
    simp only [pastCorner_move, Inside]
    rcases h with ⟨rfl, rfl⟩ | ⟨rfl, rfl⟩ | ⟨rfl, rfl⟩ | ⟨rfl, rfl⟩ | ⟨rfl, rfl⟩ <;> norm_num
  have hpos : CoversPoses ⟨1, 0.25, 0, 12, 0, 9, 1⟩ [pastCorner] := by
    intro s hs
    rw [List.mem_singleton] at hs
    subst hs
    simp only [Inside, pastCorner]; norm_num
  have hmod : Moderate ⟨1, 0.25, 0, 12, 0, 9, 1⟩ := by unfold Moderate; norm_num
  have hren := covered_render (g := ⟨1, 0.25, 0, 12, 0, 9, 1⟩) one_pos (by norm_num) (by norm_num) hmod hcov hpos
  generalize hM : GridMsg.mk _ _ _ _ _ _ = m at hren
  have ho : m.originX = -5 ∧ m.originY = -5 ∧ m.resolution = 1 ∧ m.width = 22 ∧ m.height = 19 := by
    rw [← hM]
    refine ⟨by norm_num, by norm_num, rfl, ?_, ?_⟩
    · show side 0 12 1 = 22
      unfold side; norm_num; rfl
    · show side 0 9 1 = 19
      unfold side; norm_num; rfl
  obtain ⟨o1, o2, o3, o4, o5⟩ := ho
  obtain ⟨hlen, ts, hts, hval⟩ := c45_cell_values (g := ⟨1, 0.25, 0, 12, 0, 9, 1⟩) one_pos (by norm_num) (by norm_num) hmod hcov
    hpos hren
  have hsq : ∀ x y : ℤ, square (-5) (-5) 1 ⟨(x : ℝ) + 0.5, (y : ℝ) + 0.5⟩ = (x + 5, y + 5) := by
    intro x y
    unfold square
    simp only [Prod.mk.injEq, Int.floor_eq_iff]
    push_cast
    norm_num
    constructor <;> linarith
  have q1 : square (-5) (-5) 1 ⟨0.5, 0.5⟩ = (5, 5) := by simpa using hsq 0 0
  have q2 : ∀ x y : ℤ, square (-5) (-5) 1 (move ⟨0.5, 0.5, 0⟩ ⟨x, y⟩) = (x + 5, y + 5) := by
    intro x y; rw [pastCorner_move]; exact hsq x y
  have q3 : square (-5) (-5) 1 (move ⟨0.5, 0.5, 0⟩ ⟨4, 4⟩) = (9, 9) := by simpa using q2 4 4
  refine ⟨⟨1, 0.25, 0, 12, 0, 9, 1⟩, m, ?_, ?_, ?_, by omega, by omega, ?_⟩
  · rw [getMsg_eq, pastCorner_bounds, hren]; rfl
  · rw [o1, o2, o3, pastCorner_measured]
    exact ⟨_, List.mem_map.mpr ⟨⟨4, 4⟩, by simp, rfl⟩, q3⟩
  · rw [o1, o2, o3]
    intro q hq
    obtain ⟨x, y, rfl, h⟩ := hmem q hq
    simp only
    rcases h with ⟨rfl, rfl⟩ | h
    · exact Or.inl q3
    · right
      rw [pastCorner_move]
      rcases h with ⟨rfl, rfl⟩ | ⟨rfl, rfl⟩ | ⟨rfl, rfl⟩ | ⟨rfl, rfl⟩ <;> exact misses_nine (by norm_num) (by norm_num)
  · rw [o1, o2, o3, pastCorner_measured] at hts
    simp only [List.map_cons, List.map_nil] at hts
    have p1 : square (-5) (-5) 1 (move ⟨0.5, 0.5, 0⟩ ⟨7, 5⟩) = (12, 10) := by simpa using q2 7 5
    have p2 : square (-5) (-5) 1 (move ⟨0.5, 0.5, 0⟩ ⟨8, 6⟩) = (13, 11) := by simpa using q2 8 6
    have p3 : square (-5) (-5) 1 (move ⟨0.5, 0.5, 0⟩ ⟨10, 7⟩) = (15, 12) := by simpa using q2 10 7
    have p4 : square (-5) (-5) 1 (move ⟨0.5, 0.5, 0⟩ ⟨11, 8⟩) = (16, 13) := by simpa using q2 11 8
    have uniq : ∀ (s e : GCell) (t t'), Traced s e t → Traced s e t' → t' = t := fun s e t t' h h' => by
      rw [Ray.traced_iff] at h h'; rw [h, h']
    have hT : ts = pastCornerTraces := by
      rcases hts with _ | ⟨h1, hts⟩
      rcases hts with _ | ⟨h2, hts⟩
      rcases hts with _ | ⟨h3, hts⟩
      rcases hts with _ | ⟨h4, hts⟩
      rcases hts with _ | ⟨h5, hts⟩
      cases hts
      rw [q1] at h1 h2 h3 h4 h5
      rw [q3] at h1
      rw [p1] at h2
      rw [p2] at h3
      rw [p3] at h4
      rw [p4] at h5
      have g1 := uniq _ _ pastCornerTraces[0] _ ⟨20, by decide⟩ h1
      have g2 := uniq _ _ pastCornerTraces[1] _ ⟨20, by decide⟩ h2
      have g3 := uniq _ _ pastCornerTraces[2] _ ⟨20, by decide⟩ h3
      have g4 := uniq _ _ pastCornerTraces[3] _ ⟨20, by decide⟩ h4
      have g5 := uniq _ _ pastCornerTraces[4] _ ⟨20, by decide⟩ h5
      rw [g1, g2, g3, g4, g5]; rfl
    have := hval 9 9 (by omega) (by omega)
    rw [hT] at this
    rw [this]
    have c1 : pastCornerTraces.countP (fun t => t.2 = (((9 : ℕ) : ℤ), ((9 : ℕ) : ℤ))) = 1 := by decide
    have c2 : (pastCornerTraces.flatMap (·.1)).countP (fun c => c = (((9 : ℕ) : ℤ), ((9 : ℕ) : ℤ))) = 4 := by decide
    rw [c1, c2]
    unfold valueOf
    norm_num

end

end Ndt
