import Verif.Proof.DefaultSearch
import Mathlib.Tactic.IntervalCases

/-!
# C79, C80, C81: indices, search loops and grid bounds in double precision

All other properties are about exact reals. These are about the computations of Model/Rounded, where every operation is
rounded. `rnd` is the rounding of IEEE-754.
-/

namespace Ndt

open Spec Rounded

noncomputable section

/-! ### C79 -/

/-- **C79** Up to 2^51 points, the beams used for scoring have valid, strictly increasing indices starting at 0, for every
rounding to nearest. -/
theorem c79_beam_indices {rd : ℝ → ℝ} (h : RoundsToNearest rd) {n maxBeams : ℕ} (hn : n ≤ 2 ^ 51) :
    let m := min maxBeams n
    (∀ i, i < m → ∃ idx, Rounded.beamIndex rd n m i = .ok idx ∧ idx < n) ∧
    (0 < m → Rounded.beamIndex rd n m 0 = .ok 0) ∧
    (∀ i j a b, i < j → j < m → Rounded.beamIndex rd n m i = .ok a → Rounded.beamIndex rd n m j = .ok b → a < b) := by
  intro m
  have hmn : m ≤ n := min_le_right _ _
  have hnat : ∀ i, (⌊beamPos rd n m i⌋.toNat : ℤ) = ⌊beamPos rd n m i⌋ := fun i =>
    Int.toNat_of_nonneg (Int.floor_nonneg.mpr (beamPos_nonneg h))
  have hsucc : ∀ i, i + 1 < m → ⌊beamPos rd n m i⌋.toNat < ⌊beamPos rd n m (i + 1)⌋.toNat := by
    intro i hi
    have h1 := beamPos_succ h hn hmn hi
    have h2 : ⌊beamPos rd n m i⌋ + 1 ≤ ⌊beamPos rd n m (i + 1)⌋ := by
      rw [Int.le_floor]; push_cast; exact h1
    have := hnat i
    have := hnat (i + 1)
    omega
  refine ⟨?_, ?_, ?_⟩
  · intro i hi
    refine ⟨_, beamIndex_ok h hn hmn hi, ?_⟩
    have h1 := beamPos_lt h hn hmn hi
    have h2 : ⌊beamPos rd n m i⌋ < (n : ℤ) := by rw [Int.floor_lt]; push_cast; exact h1
    have := hnat i
    omega
  · intro hm
    rw [beamIndex_ok h hn hmn hm]
    have : beamPos rd n m 0 = 0 := by
      unfold beamPos
      rw [Nat.cast_zero, zero_mul, h.exact isDouble_zero]
    rw [this]; simp
  · intro i j a b hij hj ha hb
    rw [beamIndex_ok h hn hmn (by omega)] at ha
    rw [beamIndex_ok h hn hmn hj] at hb
    cases ha
    cases hb
    induction j, hij using Nat.le_induction with
    | base => exact hsucc i hj
    | succ j hij ih => exact (ih (by omega)).trans (hsucc j hj)

/-- The rounding of IEEE-754 is one of those the theorem is about; 360 points and 100 beams, as by default. -/
example : RoundsToNearest rnd ∧ (360 : ℕ) ≤ 2 ^ 51 ∧ min 100 360 = 100 := ⟨rnd_rounds, by norm_num, by norm_num⟩

/-- **C79** When there are no more points than beams, all of them are used, each once. -/
theorem c79_all_beams_used {rd : ℝ → ℝ} (h : RoundsToNearest rd) {n : ℕ} (hn : n ≤ 2 ^ 51) {i : ℕ} (hi : i < n) :
    Rounded.beamIndex rd n n i = .ok i := by
  rw [beamIndex_ok h hn le_rfl hi]
  have hn0 : (n : ℝ) ≠ 0 := by
    have : n ≠ 0 := by omega
    exact_mod_cast this
  have : beamPos rd n n i = i := by
    unfold beamPos
    rw [div_self hn0, h.exact isDouble_one, mul_one, h.exact (isDouble_nat (by omega))]
  rw [this]; simp

example : Rounded.beamIndex rnd 360 360 17 = .ok 17 := c79_all_beams_used rnd_rounds (by norm_num) (by norm_num)

/-- **C79** The grid made for a set of scans has a cell for every point whose distance from its scan's position, as computed
in double precision, is at most `range_max` along both axes; whatever the accuracy of cosine and sine. -/
theorem c79_in_range_points_land_in_the_map {rd : ℝ → ℝ} (h : RoundsToNearest rd) (co si : ℝ → ℝ) {res R : ℝ}
    {scans : List Scan} {g : NdtGrid} (hres : 0 < res) (hg : mapGrid rd res R scans = .ok g)
    (hsmall : g.sizeX * g.sizeY ≤ 2 ^ 31) {s : Scan} (hs : s ∈ scans) {q : Point}
    (hx : |turnX rd co si s.pose.theta q| ≤ R) (hy : |turnY rd co si s.pose.theta q| ≤ R) :
    ∃ i : ℤ, Rounded.getIndex rd g (Rounded.mapPoint rd co si s.pose q).x (Rounded.mapPoint rd co si s.pose q).y = .ok i ∧
      0 ≤ i ∧ i.toNat < g.cells.length := by
  obtain ⟨-, hb⟩ := Rounded.bbox_bounds (rd := rd) R scans
    { minX := dblMax, maxX := dblMin, minY := dblMax, maxY := dblMin }
  obtain ⟨b1, b2, b3, b4⟩ := hb s hs
  change (Rounded.bbox rd R scans).minX ≤ _ at b1
  change _ ≤ (Rounded.bbox rd R scans).maxX at b2
  change (Rounded.bbox rd R scans).minY ≤ _ at b3
  change _ ≤ (Rounded.bbox rd R scans).maxY at b4
  obtain ⟨n1, n2, gc, gx, gy, gl⟩ := newGrid_ok hres hg
  obtain ⟨x1, x2⟩ := abs_le.mp hx
  obtain ⟨y1, y2⟩ := abs_le.mp hy
  have px1 : rd (s.pose.x - R) ≤ (Rounded.mapPoint rd co si s.pose q).x := h.mono (by linarith)
  have px2 : (Rounded.mapPoint rd co si s.pose q).x ≤ rd (s.pose.x + R) := h.mono (by linarith)
  have py1 : rd (s.pose.y - R) ≤ (Rounded.mapPoint rd co si s.pose q).y := h.mono (by linarith)
  have py2 : (Rounded.mapPoint rd co si s.pose q).y ≤ rd (s.pose.y + R) := h.mono (by linarith)
  set x := (Rounded.mapPoint rd co si s.pose q).x
  set y := (Rounded.mapPoint rd co si s.pose q).y
  set b := Rounded.bbox rd R scans
  -- both sizes are at least one
  have one : ∀ {t : ℝ} {n : ℕ}, 0 ≤ t → toU64 (rd (rd (t / res) + 1)) = .ok n → 1 ≤ n := by
    intro t n ht hn
    have h0 : 0 ≤ rd (t / res) := h.nonneg (by positivity)
    have h1 : 1 ≤ rd (rd (t / res) + 1) := h.ge_of_ge isDouble_one (by linarith)
    have := toU64_ok (by linarith) hn
    have h2 : (1 : ℤ) ≤ ⌊rd (rd (t / res) + 1)⌋ := by rw [Int.le_floor]; push_cast; exact h1
    omega
  have sx1 := one (h.nonneg (by linarith)) n1
  have sy1 := one (h.nonneg (by linarith)) n2
  have hx31 : g.sizeX ≤ 2 ^ 31 := (Nat.le_mul_of_pos_right _ sy1).trans hsmall
  have hy31 : g.sizeY ≤ 2 ^ 31 := (Nat.le_mul_of_pos_left _ sx1).trans hsmall
  obtain ⟨kx, ex, lx⟩ := axis_ok h hres (by linarith) (by linarith : x ≤ b.maxX) n1 hx31
  obtain ⟨ky, ey, ly⟩ := axis_ok h hres (by linarith) (by linarith : y ≤ b.maxY) n2 hy31
  have hidx : ky * g.sizeX + kx < g.sizeX * g.sizeY := by
    have : (ky + 1) * g.sizeX ≤ g.sizeY * g.sizeX := Nat.mul_le_mul_right _ ly
    have e : (ky + 1) * g.sizeX = ky * g.sizeX + g.sizeX := by ring
    rw [e, Nat.mul_comm g.sizeY] at this
    omega
  have hmod : (ky * g.sizeX + kx) % 2 ^ 64 = ky * g.sizeX + kx := Nat.mod_eq_of_lt (by omega)
  refine ⟨((ky * g.sizeX + kx : ℕ) : ℤ), ?_, by positivity, ?_⟩
  · unfold Rounded.getIndex
    rw [gx, gy, gc, if_neg (by push Not; exact ⟨by linarith, by linarith⟩), ex, ey]
    simp only [Res.ok_bind]
    rw [if_neg (by push Not; exact ⟨lx, ly⟩), hmod, wrapI32_of_lt (by omega)]
    rfl
  · rw [gl, Int.toNat_natCast, Nat.mod_eq_of_lt (by omega)]
    exact hidx

/-- One scan at the origin, a quarter metre resolution, range one metre: nine by nine cells, and a point straight ahead. -/
example : ∃ g, mapGrid rnd 0.25 1 [Scan.new 0] = .ok g ∧ g.sizeX * g.sizeY ≤ 2 ^ 31 ∧
    |turnX rnd Real.cos Real.sin (Scan.new 0).pose.theta ⟨1, 0⟩| ≤ 1 ∧
    |turnY rnd Real.cos Real.sin (Scan.new 0).pose.theta ⟨1, 0⟩| ≤ 1 := by
  have r := rnd_rounds
  have hint : ∀ n : ℕ, n < 2 ^ 53 → rnd n = n := fun n hn => r.exact (isDouble_nat hn)
  have h0 : rnd 0 = 0 := rnd_zero
  have h1 : rnd 1 = 1 := r.exact isDouble_one
  have hm1 : rnd (-1) = -1 := r.exact (isDouble_neg isDouble_one)
  have h2 : rnd 2 = 2 := by simpa using hint 2 (by norm_num)
  have h8 : rnd 8 = 8 := by simpa using hint 8 (by norm_num)
  have h9 : rnd 9 = 9 := by simpa using hint 9 (by norm_num)
  have hmax : (-1 : ℝ) ≤ dblMax := by
    unfold dblMax
    have : (0 : ℝ) ≤ (2 - 2⁻¹ ^ 52) * 2 ^ 1023 := mul_nonneg (by norm_num) (by positivity)
    exact (by norm_num : (-1 : ℝ) ≤ 0).trans this
  have hmin : dblMin ≤ 1 := by
    unfold dblMin
    exact pow_le_one₀ (by norm_num) (by norm_num)
  have hb : Rounded.bbox rnd 1 [Scan.new 0] = ⟨-1, 1, -1, 1⟩ := by
    unfold Rounded.bbox
    simp only [List.foldl_cons, List.foldl_nil, Scan.new, Scan.getPose, Pose2d.zero, zero_sub, zero_add, hm1, h1,
      min_eq_left hmax, max_eq_left hmin]
  refine ⟨⟨0.25, 9, 9, -1, -1, List.replicate 81 Cell.new⟩, ?_, by norm_num, ?_, ?_⟩
  · unfold mapGrid
    rw [hb]
    unfold newGrid
    have e : (1 : ℝ) - -1 = 2 := by norm_num
    simp only [e, h2]
    have e2 : (Fl.fin 2 / Fl.fin 0.25 : Fl) = .fin 8 := by
      rw [Fl.fin_div (by norm_num)]; norm_num
    have e3 : (8 : ℝ) + 1 = 9 := by norm_num
    rw [e2]
    simp only [Fl.rounded_fin, h8, Fl.fin_add, e3, h9]
    have : toU64F (.fin 9) = .ok 9 := by
      show toU64 9 = _
      rw [toU64_of_nonneg (by norm_num) (by norm_num)]
      simp
    rw [this]
    rfl
  · simp [turnX, Scan.new, Pose2d.zero, h0, h1]
  · simp [turnY, Scan.new, Pose2d.zero, h0]

/-! ### C80 -/

/-- **C80** Every value a search loop visits lies in the window, for every rounding and every resolution that is not
negative. -/
theorem c80_within_window {rd : ℝ → ℝ} (h : RoundsToNearest rd) {size res : ℝ} (hs : IsDouble size) (hr : 0 ≤ res)
    {n : ℕ} (hv : Visits rd size res n) : -size ≤ searchVal rd size res n ∧ searchVal rd size res n < size :=
  ⟨searchVal_ge h hs hr n, hv n le_rfl⟩

/-- **C80** (partial) A search loop ends, after at most `4 * size / res` rounds, if the resolution is not below the precision
of the size. Without that it need not: `c80_tiny_resolution_hangs`. -/
theorem c80_ends_partial {rd : ℝ → ℝ} (h : RoundsToNearest rd) {size res : ℝ} (hs : IsDouble size) (h0 : 0 < size)
    (hr : 2⁻¹ ^ 51 * size ≤ res) (hr2 : 2⁻¹ ^ 1000 ≤ res) {n : ℕ} (hn : 4 * size / res ≤ n) :
    ¬ Visits rd size res n := by
  intro hv
  have hres : 0 < res := lt_of_lt_of_le (by positivity) hr2
  have h1 := searchVal_progress h hs h0 hr hr2 hv
  have h2 := hv n le_rfl
  rw [div_le_iff₀ hres] at hn
  linarith

/-- **C80** (refutation of termination) A positive resolution below the precision of the size is absorbed by the
addition: the loop never ends. -/
theorem c80_tiny_resolution_hangs {rd : ℝ → ℝ} (h : RoundsToNearest rd) {size res : ℝ} (hs : IsDouble size) (h0 : 0 < size)
    (hr : |res| < 2⁻¹ ^ 55 * size) (n : ℕ) : Visits rd size res n ∧ searchVal rd size res n = -size := by
  have hk := searchVal_stuck (res := res) h hs (by rwa [abs_of_pos h0])
  exact ⟨fun i _ => by rw [hk i]; linarith, hk n⟩

/-- A window of one radian and a resolution of 2^-60: each of the two. -/
example : IsDouble 1 ∧ (0 : ℝ) < 2⁻¹ ^ 60 ∧ |(2⁻¹ : ℝ) ^ 60| < 2⁻¹ ^ 55 * 1 :=
  ⟨isDouble_one, by positivity, by rw [abs_of_pos (by positivity)]; norm_num⟩

/-- The default parameters of the loops over x and y meet the hypotheses of termination. -/
example : IsDouble (rnd 0.05) ∧ 0 < rnd 0.05 ∧ 2⁻¹ ^ 51 * rnd 0.05 ≤ rnd 0.005 ∧ (2⁻¹ : ℝ) ^ 1000 ≤ rnd 0.005 := by
  refine ⟨isDouble_rnd _, ?_, ?_, ?_⟩
  · rw [rnd_size]; norm_num
  · rw [rnd_size, rnd_res]; norm_num
  · have h1 : (2⁻¹ : ℝ) ^ 1000 ≤ 2⁻¹ ^ 10 := pow_le_pow_of_le_one (by norm_num) (by norm_num) (by norm_num)
    have h2 : (2⁻¹ : ℝ) ^ 10 ≤ rnd 0.005 := by rw [rnd_res]; norm_num
    exact h1.trans h2

/-- **C80** With the default parameters the loops over x and y have 21 rounds, although twice the size is 20 times the
resolution. -/
theorem c80_default_rounds (n : ℕ) : Visits rnd (rnd 0.05) (rnd 0.005) n ↔ n ≤ 20 := by
  constructor
  · intro hv
    by_contra hn
    have := hv 21 (by omega)
    rw [default_val_21, rnd_size] at this
    norm_num at this
  · intro hn i hi
    have : i ≤ 20 := by omega
    interval_cases i
    · rw [default_val_0, rnd_size]; norm_num
    · rw [default_val_1, rnd_size]; norm_num
    · rw [default_val_2, rnd_size]; norm_num
    · rw [default_val_3, rnd_size]; norm_num
    · rw [default_val_4, rnd_size]; norm_num
    · rw [default_val_5, rnd_size]; norm_num
    · rw [default_val_6, rnd_size]; norm_num
    · rw [default_val_7, rnd_size]; norm_num
    · rw [default_val_8, rnd_size]; norm_num
    · rw [default_val_9, rnd_size]; norm_num
    · rw [default_val_10, rnd_size]; norm_num
    · rw [default_val_11, rnd_size]; norm_num
    · rw [default_val_12, rnd_size]; norm_num
    · rw [default_val_13, rnd_size]; norm_num
    · rw [default_val_14, rnd_size]; norm_num
    · rw [default_val_15, rnd_size]; norm_num
    · rw [default_val_16, rnd_size]; norm_num
    · rw [default_val_17, rnd_size]; norm_num
    · rw [default_val_18, rnd_size]; norm_num
    · rw [default_val_19, rnd_size]; norm_num
    · rw [default_val_20, rnd_size]; norm_num

/-- **C80** (refutation) With the default parameters the search never tries the uncorrected position: no offset visited is
zero, because the rounding errors of the additions do not cancel. -/
theorem c80_default_search_misses_zero : ¬ ∃ n, Visits rnd (rnd 0.05) (rnd 0.005) n ∧
    searchVal rnd (rnd 0.05) (rnd 0.005) n = 0 := by
  rintro ⟨n, hv, h0⟩
  have hn := (c80_default_rounds n).mp hv
  interval_cases n
  · rw [default_val_0] at h0; norm_num at h0
  · rw [default_val_1] at h0; norm_num at h0
  · rw [default_val_2] at h0; norm_num at h0
  · rw [default_val_3] at h0; norm_num at h0
  · rw [default_val_4] at h0; norm_num at h0
  · rw [default_val_5] at h0; norm_num at h0
  · rw [default_val_6] at h0; norm_num at h0
  · rw [default_val_7] at h0; norm_num at h0
  · rw [default_val_8] at h0; norm_num at h0
  · rw [default_val_9] at h0; norm_num at h0
  · rw [default_val_10] at h0; norm_num at h0
  · rw [default_val_11] at h0; norm_num at h0
  · rw [default_val_12] at h0; norm_num at h0
  · rw [default_val_13] at h0; norm_num at h0
  · rw [default_val_14] at h0; norm_num at h0
  · rw [default_val_15] at h0; norm_num at h0
  · rw [default_val_16] at h0; norm_num at h0
  · rw [default_val_17] at h0; norm_num at h0
  · rw [default_val_18] at h0; norm_num at h0
  · rw [default_val_19] at h0; norm_num at h0
  · rw [default_val_20] at h0; norm_num at h0

/-! ### C81 -/

/-- **C81** (partial: along one axis, for points within 2^27 cells and at most 2^27 updates) Whatever the rounding errors of
the bounds, every point that was part of an update gets a column (or row) of the grid. -/
theorem c81_points_inside_partial {rd : ℝ → ℝ} (h : RoundsToNearest rd) {res : ℝ} (hr : 2⁻¹ ^ 1000 ≤ res) (xss : List (List ℝ))
    (hx : ∀ xs ∈ xss, ∀ x ∈ xs, |x| ≤ 2 ^ 27 * res) (hn : xss.length ≤ 2 ^ 27)
    {xs : List ℝ} (hxs : xs ∈ xss) {x : ℝ} (hxx : x ∈ xs) :
    ∃ (w : ℕ) (c : ℤ), gridSize rd res (axisAfter rd res xss).1 (axisAfter rd res xss).2 = .ok w ∧
      gridCell rd res (gridOrigin rd res (axisAfter rd res xss).1) x = .ok c ∧ 0 ≤ c ∧ c < w := by
  have hres : 0 < res := lt_of_lt_of_le (by positivity) hr
  obtain ⟨a, c, ha0, hc0, ha, hc, hb, hcov⟩ := axisInv h hr (R := 2 ^ 27) le_rfl xss (by exact_mod_cast hx) hn
  obtain ⟨x1, x2⟩ := hcov xs hxs x hxx
  have hxR := hx xs hxs x hxx
  rw [hb]
  dsimp only
  obtain ⟨w, k, h1, h2, h3, h4, _, _⟩ := axis_cell h hr ha0 hc0 (by push_cast at ha; omega) (by push_cast at hc; omega) hxR x1 x2
  exact ⟨w, k, h1, h2, h3, h4⟩

/-- Two updates with the default resolution. -/
example : (2⁻¹ : ℝ) ^ 1000 ≤ 0.05 ∧ (∀ xs ∈ [[1, -2], [(3 : ℝ)]], ∀ x ∈ xs, |x| ≤ 2 ^ 27 * 0.05) := by
  constructor
  · exact (pow_le_pow_of_le_one (by norm_num) (by norm_num) (by norm_num : 5 ≤ 1000)).trans (by norm_num)
  · intro xs hxs x hx
    simp only [List.mem_cons, List.not_mem_nil, or_false] at hxs
    rcases hxs with rfl | rfl <;> simp only [List.mem_cons, List.not_mem_nil, or_false] at hx
    · rcases hx with rfl | rfl
      · rw [abs_of_pos (by norm_num)]; norm_num
      · rw [abs_of_neg (by norm_num)]; norm_num
    · subst hx
      rw [abs_of_pos (by norm_num)]; norm_num

/-- **C81** (refutation) Bounds that are aligned to the resolution are moved by the next update although nothing lies beyond
them: with the default resolution of 0.05 the bound -0.15 becomes -0.20. -/
theorem c81_aligned_bounds_move : ∃ x : ℝ,
    let once := updateAxis rnd (rnd 0.05) (0, 0) [x]
    (updateAxis rnd (rnd 0.05) once []).1 < once.1 := by
  have q1 : rnd (-0.12 / ((7205759403792794) / 2 ^ 57)) = (-5404319552844595) / 2 ^ 51 := by
    have := rnd_eval' (x := -0.12 / ((7205759403792794) / 2 ^ 57)) (k := -5404319552844595) 51 (by norm_num)
      (by right; constructor <;> norm_num) (by left; constructor <;> norm_num)
    rw [this]; norm_num
  have f1 : ⌊((-5404319552844595) / 2 ^ 51 : ℝ)⌋ = -3 := by
    rw [Int.floor_eq_iff]; constructor <;> norm_num
  have l1 : rnd (-3 * ((7205759403792794) / 2 ^ 57)) = (-5404319552844596) / 2 ^ 55 := by
    have := rnd_eval' (x := -3 * ((7205759403792794) / 2 ^ 57)) (k := -5404319552844596) 55 (by norm_num)
      (by right; constructor <;> norm_num) (by right; exact ⟨by norm_num, by decide⟩)
    rw [this]; norm_num
  have q2 : rnd ((-5404319552844596) / 2 ^ 55 / ((7205759403792794) / 2 ^ 57)) = (-6755399441055745) / 2 ^ 51 := by
    have := rnd_eval' (x := (-5404319552844596) / 2 ^ 55 / ((7205759403792794) / 2 ^ 57)) (k := -6755399441055745) 51
      (by norm_num) (by right; constructor <;> norm_num) (by left; constructor <;> norm_num)
    rw [this]; norm_num
  have f2 : ⌊((-6755399441055745) / 2 ^ 51 : ℝ)⌋ = -4 := by
    rw [Int.floor_eq_iff]; constructor <;> norm_num
  have l2 : rnd (-4 * ((7205759403792794) / 2 ^ 57)) = (-7205759403792794) / 2 ^ 55 := by
    have := rnd_eval' (x := -4 * ((7205759403792794) / 2 ^ 57)) (k := -7205759403792794) 55 (by norm_num)
      (by right; constructor <;> norm_num) (by left; constructor <;> norm_num)
    rw [this]; norm_num
  refine ⟨-0.12, ?_⟩
  have once : (updateAxis rnd (rnd 0.05) (0, 0) [-0.12]).1 = (-5404319552844596) / 2 ^ 55 := by
    simp only [updateAxis, List.foldl_cons, List.foldl_nil, floorTo]
    rw [min_eq_left (by norm_num), rnd_size, q1, f1]
    push_cast
    exact l1
  dsimp only
  have twice : (updateAxis rnd (rnd 0.05) (updateAxis rnd (rnd 0.05) (0, 0) [-0.12]) []).1 =
      floorTo rnd (rnd 0.05) (updateAxis rnd (rnd 0.05) (0, 0) [-0.12]).1 := rfl
  rw [twice, once]
  unfold floorTo
  rw [rnd_size, q2, f2]
  push_cast
  rw [l2]
  norm_num

end

end Ndt
