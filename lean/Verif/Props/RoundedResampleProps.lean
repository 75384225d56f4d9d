import Verif.Proof.RoundedResample
import Verif.Props.ResampleProps
import Verif.Proof.RoundedPose

/-! # C140: resampling in double precision -/

namespace Ndt

noncomputable section

open Spec Rounded

/-! ## Bins -/

/-- The bins along x and y, half a metre wide, are computed without error. -/
theorem c140_bins_of_places {rd : ℝ → ℝ} (hrd : RoundsToNearest rd) {x : ℝ} (hx : IsDouble x) :
    truncZ (rd (x / 0.5)) = truncZ (x / 0.5) := by
  rw [hrd.exact]
  obtain ⟨k, e, hk, he, rfl⟩ := hx
  refine ⟨k, e + 1, hk, by omega, ?_⟩
  rw [zpow_add₀ (by norm_num), zpow_one]
  norm_num
  ring

example : truncZ (rnd ((3.75 : ℝ) / 0.5)) = 7 := by
  rw [c140_bins_of_places rnd_rounds ⟨15, -2, by norm_num, by norm_num, by norm_num⟩]
  norm_num [truncZ]

/-- The bin computed for `x` is the bin of a number next to it. -/
theorem c140_bin_of_a_neighbour {rd : ℝ → ℝ} (hrd : RoundsToNearest rd) {s : ℝ} (hs : 0 < s) (x : ℝ) :
    ∃ x', |x' - x| ≤ 1.2e-16 * |x| + 1e-30 * s ∧ truncZ (rd (x / s)) = truncZ (x' / s) := by
  refine ⟨rd (x / s) * s, ?_, by rw [mul_div_assoc, div_self hs.ne', mul_one]⟩
  have h := rd_near hrd (le_refl |x / s|)
  have e : rd (x / s) * s - x = (rd (x / s) - x / s) * s := by field_simp
  rw [e, abs_mul, abs_of_pos hs]
  refine (mul_le_mul_of_nonneg_right h hs.le).trans (le_of_eq ?_)
  rw [abs_div, abs_of_pos hs]
  field_simp

/-- Numbers with the same computed bin, not the one at zero, differ by less than its size up to rounding. -/
theorem c140_same_bin {rd : ℝ → ℝ} (hrd : RoundsToNearest rd) {s : ℝ} (hs : 0 < s) {x y : ℝ}
    (h : truncZ (rd (x / s)) = truncZ (rd (y / s))) :
    |x - y| < 2 * s + (1.2e-16 * (|x| + |y|) + 2e-30 * s) ∧
    (truncZ (rd (x / s)) ≠ 0 → |x - y| < s + (1.2e-16 * (|x| + |y|) + 2e-30 * s)) := by
  obtain ⟨x', hx, ex⟩ := c140_bin_of_a_neighbour hrd hs x
  obtain ⟨y', hy, ey⟩ := c140_bin_of_a_neighbour hrd hs y
  have h1 := c108_same_bin_partial hs (x := x') (y := y') (by rw [← ex, ← ey, h])
  have e : |x - y| ≤ |x' - x| + |x' - y'| + |y' - y| := by
    have e1 := abs_add_le (x' - y' - (x' - x)) (y' - y)
    have e2 := abs_sub (x' - y') (x' - x)
    have : x' - y' - (x' - x) + (y' - y) = x - y := by ring
    rw [this] at e1
    linarith
  refine ⟨?_, fun h0 => ?_⟩
  · norm_num at hx hy ⊢
    linarith [h1.1]
  · have := h1.2 (by rw [← ex]; exact h0)
    norm_num at hx hy ⊢
    linarith

example : truncZ (rnd ((0.75 : ℝ) / 0.5)) = truncZ (rnd ((0.625 : ℝ) / 0.5)) ∧ truncZ (rnd ((0.75 : ℝ) / 0.5)) ≠ 0 := by
  rw [c140_bins_of_places rnd_rounds ⟨3, -2, by norm_num, by norm_num, by norm_num⟩,
    c140_bins_of_places rnd_rounds ⟨5, -3, by norm_num, by norm_num, by norm_num⟩]
  norm_num [truncZ]

/-! ## The number that the bound asks for -/

/-- The number of particles computed for `k` bins is the bound, rounded down, up to a relative error of 3e-15. -/
theorem c140_size {rd : ℝ → ℝ} (hrd : RoundsToNearest rd) {err z : ℝ} {k : ℕ} (hk : 1 < k) (hk2 : k ≤ 2 ^ 53)
    (he : 1e-6 ≤ err) (he2 : err ≤ 1e6) (hz : 0 ≤ z) (hV : kldBound err z k ≤ 2 ^ 63) :
    ∃ n, Rounded.kldSize rd err z k = .ok n ∧ (n : ℝ) ≤ kldBound err z k * (1 + 3e-15) ∧ kldBound err z k * (1 - 3e-15) < n + 1 :=
  kldSize_near hrd hk hk2 he he2 hz hV

/-- As long as the bound is less than 10^14 this is the exact model's number or one next to it. -/
theorem c140_size_off_by_one {rd : ℝ → ℝ} (hrd : RoundsToNearest rd) {err z : ℝ} {k : ℕ} (hk : 1 < k) (hk2 : k ≤ 2 ^ 53)
    (he : 1e-6 ≤ err) (he2 : err ≤ 1e6) (hz : 0 ≤ z) (hV : kldBound err z k ≤ 1e14) :
    ∃ n m, Rounded.kldSize rd err z k = .ok n ∧ Filter.kldSize err z k = .ok m ∧ n ≤ m + 1 ∧ m ≤ n + 1 := by
  obtain ⟨n, h1, h2, h3⟩ := c140_size hrd hk hk2 he he2 hz (hV.trans (by norm_num))
  obtain ⟨h4, h5⟩ := kldSize_eq (lt_of_lt_of_le (by norm_num) he) hz hk (lt_of_le_of_lt hV (by norm_num))
  refine ⟨n, _, h1, h4, ?_⟩
  set V := kldBound err z k
  have h6 : ((⌊V⌋.toNat : ℕ) : ℝ) = (⌊V⌋ : ℝ) := by exact_mod_cast Int.toNat_of_nonneg (Int.floor_nonneg.mpr h5)
  have f1 := Int.floor_le V
  have f2 := Int.lt_floor_add_one V
  norm_num at h2 h3 hV
  constructor
  · have : (n : ℝ) < ((⌊V⌋.toNat + 2 : ℕ) : ℝ) := by push_cast; rw [h6]; linarith
    have : n < ⌊V⌋.toNat + 2 := by exact_mod_cast this
    omega
  · have : ((⌊V⌋.toNat : ℕ) : ℝ) < ((n + 2 : ℕ) : ℝ) := by push_cast; rw [h6]; linarith
    have : ⌊V⌋.toNat < n + 2 := by exact_mod_cast this
    omega

/-- A bound on the bound. -/
theorem kldBound_le {err z : ℝ} {k : ℕ} (hk : 1 < k) (he : 0 < err) (hz : 0 ≤ z) :
    kldBound err z k ≤ (k : ℝ) / (2 * err) * (1 + z) ^ 3 := by
  unfold kldBound
  have hk1 : (1 : ℝ) ≤ k - 1 := by
    have : (2 : ℝ) ≤ k := by exact_mod_cast hk
    linarith
  have hq : (2 : ℝ) / (9 * (k - 1)) ≤ 1 := by rw [div_le_one (by linarith)]; linarith
  have hq0 : (0 : ℝ) ≤ 2 / (9 * (k - 1)) := by positivity
  have hs : Real.sqrt (2 / (9 * ((k : ℝ) - 1))) ≤ 1 := by rw [Real.sqrt_le_one]; exact hq
  have hs0 := Real.sqrt_nonneg (2 / (9 * ((k : ℝ) - 1)))
  have h1 : Real.sqrt (2 / (9 * ((k : ℝ) - 1))) * z ≤ 1 * z := mul_le_mul_of_nonneg_right hs hz
  have h2 := mul_nonneg hs0 hz
  have h3 : (1 - 2 / (9 * ((k : ℝ) - 1)) + Real.sqrt (2 / (9 * ((k : ℝ) - 1))) * z) ^ 3 ≤ (1 + z) ^ 3 :=
    pow_le_pow_left₀ (by linarith) (by linarith) 3
  refine mul_le_mul ?_ h3 (pow_nonneg (by linarith) 3) (by positivity)
  exact div_le_div_of_nonneg_right (by linarith) (by linarith)

/-- With the parameters of the mapper and 500 particles at most. -/
example : ∃ n m, Rounded.kldSize rnd 0.01 2.3 40 = .ok n ∧ Filter.kldSize 0.01 2.3 40 = .ok m ∧ n ≤ m + 1 ∧ m ≤ n + 1 :=
  c140_size_off_by_one rnd_rounds (by norm_num) (by norm_num) (by norm_num) (by norm_num) (by norm_num)
    ((kldBound_le (by norm_num) (by norm_num) (by norm_num)).trans (by norm_num))

/-! ## The particles drawn -/

/-- The number of particles drawn is within the limits. -/
theorem c140_within_limits {rd : ℝ → ℝ} {f : Filter} (hs : ∀ i, f.kd.cellSize i ≠ 0) {err z : ℝ} {draw : ℕ → ℕ} {rs : List Pose2d}
    {ws : List Fl} (h : resampled rd f err z draw = .ok (rs, ws)) :
    min f.minP f.maxP ≤ rs.length ∧ rs.length ≤ max f.minP f.maxP ∧ rs.length ≤ max 1 f.maxP ∧ ws.length = rs.length ∧
    ∀ i < rs.length, rs[i]? = f.particles[draw i]? ∧ ws[i]? = f.weights[draw i]? := by
  obtain ⟨kd, mx, hinv, h1, h2, h3, -⟩ := resampled_ok hs h
  exact ⟨by omega, h1, h2, hinv.len, hinv.drawn⟩

/-- If fewer than the most allowed were drawn then there are as many as the bound asks for, for the number of computed bins. -/
theorem c140_enough {rd : ℝ → ℝ} (hrd : RoundsToNearest rd) {f : Filter} (hs : ∀ i, f.kd.cellSize i ≠ 0) {err z : ℝ} {draw : ℕ → ℕ}
    {rs : List Pose2d} {ws : List Fl} (h : resampled rd f err z draw = .ok (rs, ws)) (hlt : rs.length < f.maxP)
    (hm : f.maxP ≤ 2 ^ 53) (he : 1e-6 ≤ err) (he2 : err ≤ 1e6) (hz : 0 ≤ z) :
    f.minP ≤ rs.length ∧
    let k := (rs.map (computedBin rd f.kd.cellSize)).toFinset.card
    1 < k ∧ (kldBound err z k ≤ 2 ^ 63 → kldBound err z k * (1 - 3e-15) < rs.length + 1) := by
  obtain ⟨kd, mx, hinv, -, -, h3, -⟩ := resampled_ok hs h
  refine ⟨by omega, ?_⟩
  intro k
  have hk : kd.getLeafCount = k := Rounded.leafCount_bins hs hinv
  have hkl : k ≤ rs.length := (List.toFinset_card_le _).trans (by simp)
  rcases hinv.bound with ⟨e1, -⟩ | ⟨h4, h5⟩
  · omega
  · rw [hk] at h4 h5
    refine ⟨h4, fun hV => ?_⟩
    obtain ⟨n, g1, -, g3⟩ := c140_size hrd h4 (by omega) he he2 hz hV
    rw [g1] at h5
    have e5 : n = mx := by injection h5
    have : (n : ℝ) ≤ rs.length := by exact_mod_cast (by omega : n ≤ rs.length)
    linarith

/-- When the particles drawn before the last lie in two computed bins or more, there are no more than the least number allowed and
the number that the bound asks for. -/
theorem c140_no_more_than_needed {rd : ℝ → ℝ} (hrd : RoundsToNearest rd) {f : Filter} (hs : ∀ i, f.kd.cellSize i ≠ 0) {err z : ℝ}
    {draw : ℕ → ℕ} {rs : List Pose2d} {ws : List Fl} (h : resampled rd f err z draw = .ok (rs, ws))
    (hm : f.maxP ≤ 2 ^ 53) (he : 1e-6 ≤ err) (he2 : err ≤ 1e6) (hz : 0 ≤ z) :
    let k := (rs.dropLast.map (computedBin rd f.kd.cellSize)).toFinset.card
    1 < k → kldBound err z k ≤ 2 ^ 63 → (rs.length : ℝ) ≤ max (f.minP : ℝ) (kldBound err z k * (1 + 3e-15)) := by
  intro k hk hV
  obtain ⟨kd, mx, -, -, h2, -, hw⟩ := resampled_ok hs h
  rcases hw with h0 | ⟨x, ws', kd', mx', hx, hinv, hlt⟩
  · rw [h0]; simp
  · have hkd : kd'.getLeafCount = k := Rounded.leafCount_bins hs hinv
    have hlen : rs.length = rs.dropLast.length + 1 := by
      conv_lhs => rw [hx]
      simp
    have hkl : k ≤ rs.dropLast.length := (List.toFinset_card_le _).trans (by simp)
    rcases hinv.bound with ⟨-, e⟩ | ⟨-, h5⟩
    · omega
    · rw [hkd] at h5
      obtain ⟨n, g1, g2, -⟩ := c140_size hrd hk (by omega) he he2 hz hV
      rw [g1] at h5
      have e5 : n = mx' := by injection h5
      have : rs.length ≤ max f.minP n := by omega
      rcases le_max_iff.mp this with h6 | h6
      · exact le_max_of_le_left (by exact_mod_cast h6)
      · exact le_max_of_le_right (le_trans (by exact_mod_cast h6) g2)

/-- Near the origin the computed bins fit. -/
theorem computedBin_fits {rd : ℝ → ℝ} (hrd : RoundsToNearest rd) {size : Fin 3 → ℝ} {p : Pose2d} (h : NearOrigin size p) (i : Fin 3) :
    |computedBin rd size p i| < 2 ^ 30 := by
  have key : ∀ {q : ℝ}, |q| ≤ 2 ^ 29 → |truncZ (rd q)| < 2 ^ 30 := by
    intro q hq
    have h1 := abs_le.mp hq
    have hd : IsDouble ((2 : ℝ) ^ 29) := ⟨1, 29, by norm_num, by norm_num, by norm_num⟩
    have h2 : rd q ≤ 2 ^ 29 := hrd.le_of_le hd h1.2
    have h3 : -2 ^ 29 ≤ rd q := hrd.ge_of_ge (isDouble_neg hd) h1.1
    rw [abs_lt]
    unfold truncZ
    split
    · constructor
      · rw [Int.lt_iff_add_one_le, Int.le_floor]; norm_num at h3 ⊢; linarith
      · rw [Int.floor_lt]; norm_num at h2 ⊢; linarith
    · constructor
      · rw [Int.lt_ceil]; norm_num at h3 ⊢; linarith
      · rw [Int.lt_iff_add_one_le, ← le_sub_iff_add_le, Int.ceil_le]; norm_num at h2 ⊢; linarith
  obtain ⟨h0, h1, h2⟩ := h
  fin_cases i
  · exact key h0
  · exact key h1
  · exact key h2

/-- Resampling meets no undefined behaviour. -/
theorem c140_no_fault {rd : ℝ → ℝ} (hrd : RoundsToNearest rd) {f : Filter} (hs : ∀ i, f.kd.cellSize i ≠ 0) {err z : ℝ} {draw : ℕ → ℕ}
    (hd : ∀ n, draw n < f.particles.length) (hlen : f.weights.length = f.particles.length)
    (hp : ∀ p ∈ f.particles, NearOrigin f.kd.cellSize p) (hm : f.maxP ≤ 2 ^ 30) (he : 1e-4 ≤ err) (he2 : err ≤ 1e6)
    (hz : 0 ≤ z) (hz2 : z ≤ 10) : ∃ rs ws, resampled rd f err z draw = .ok (rs, ws) := by
  obtain ⟨⟨rs, ws, kd⟩, h⟩ := Rounded.resampleLoop_total rd f err z draw f.kd.cellSize hs hd hlen
    (fun p hpm => computedBin_fits hrd (hp p hpm)) (fun k h1 h2 => by
      have hk : (k : ℝ) ≤ 2 ^ 30 := by exact_mod_cast (h2.trans (by omega) : k ≤ 2 ^ 30)
      have he0 : 0 < err := lt_of_lt_of_le (by norm_num) he
      obtain ⟨n, hn, -⟩ := c140_size hrd h1 (by omega) (le_trans (by norm_num) he) he2 hz (by
        refine (kldBound_le h1 he0 hz).trans ?_
        have a1 : (k : ℝ) / (2 * err) ≤ 2 ^ 30 / (2 * 1e-4) := div_le_div₀ (by norm_num) hk (by norm_num) (by linarith)
        have a2 : (1 + z) ^ 3 ≤ 11 ^ 3 := pow_le_pow_left₀ (by linarith) (by linarith) 3
        refine (mul_le_mul a1 a2 (by positivity) (by norm_num)).trans ?_
        norm_num)
      exact ⟨n, hn⟩) _ [] [] f.kd.clear f.maxP rfl (Rounded.loopInv_start rd f err z draw) (Or.inl rfl)
  exact ⟨rs, ws, by unfold resampled; rw [h]⟩

/-- Without rounding the model is the exact one. -/
theorem c140_exact (t : KdTree) (p : Pose2d) (err z : ℝ) {k : ℕ} (hk : 1 < k) :
    Rounded.keyOf id t p = t.keyOf p ∧ Rounded.kldSize id err z k = Filter.kldSize err z k := by
  have hid : ∀ x : Fl, Fl.rounded id x = x := by
    intro x; cases x <;> rfl
  have hn : (0 : ℝ) < ((k - 1 : ℕ) : ℝ) := by exact_mod_cast (by omega : 0 < k - 1)
  constructor
  · unfold Rounded.keyOf KdTree.keyOf
    simp only [hid]
  · unfold Rounded.kldSize Filter.kldSize
    simp only [hid, id]
    have hd : (9 : ℝ) * ((k - 1 : ℕ) : ℝ) ≠ 0 := by positivity
    have hq : ¬ 2 / (9 * ((k - 1 : ℕ) : ℝ)) < 0 := not_lt.mpr (by positivity)
    simp only [Fl.fin_mul, Fl.fin_div hd, Fl.fin_sub, Fl.sqrt, if_neg hq, Fl.fin_add]

/-! ## A concrete case -/

/-- A filter with particles at two places a metre apart. -/
def twoBins : Filter :=
  { motion := ⟨0.2, 0.2, 0.2, 0.2, 0.2⟩, minP := 100, maxP := 500, particles := [⟨0, 0, 0⟩, ⟨1, 0, 0⟩], weights := [.fin 0.5, .fin 0.5],
    mean := fun _ => .fin 0, cov := fun _ _ => .fin 0, kd := KdTree.new 0.5 0.5 (rnd 0.2671) }

theorem twoBins_size : ∀ i, twoBins.kd.cellSize i ≠ 0 := by
  have : rnd 0.2671 ≠ 0 := by
    have h := rd_near rnd_rounds (x := 0.2671) (X := 1) (by rw [abs_le]; constructor <;> norm_num)
    intro h0
    rw [h0, abs_le] at h
    norm_num at h
  intro i
  fin_cases i
  · show (0.5 : ℝ) ≠ 0; norm_num
  · show (0.5 : ℝ) ≠ 0; norm_num
  · exact this

/-- It is resampled, and less than the 500 particles allowed are drawn. -/
theorem twoBins_resampled : ∃ rs ws, resampled rnd twoBins 0.01 2.3 (· % 2) = .ok (rs, ws) ∧ 100 ≤ rs.length ∧ rs.length < 330 := by
  obtain ⟨rs, ws, h⟩ := c140_no_fault rnd_rounds twoBins_size (err := 0.01) (z := 2.3) (draw := (· % 2))
    (fun n => Nat.mod_lt _ (by norm_num)) rfl (by
      intro p hp
      have : p = ⟨0, 0, 0⟩ ∨ p = ⟨1, 0, 0⟩ := by simpa [twoBins] using hp
      have e0 : twoBins.kd.cellSize 0 = 0.5 := rfl
      have e1 : twoBins.kd.cellSize 1 = 0.5 := rfl
      unfold NearOrigin
      rw [e0, e1]
      rcases this with rfl | rfl <;> norm_num) (by norm_num [twoBins]) (by norm_num) (by norm_num) (by norm_num) (by norm_num)
  obtain ⟨h1, -, -, -, h2⟩ := c140_within_limits twoBins_size h
  have h1' : 100 ≤ rs.length := h1
  refine ⟨rs, ws, h, h1', ?_⟩
  have r0 : rs.dropLast[0]? = some ⟨0, 0, 0⟩ := by
    rw [List.getElem?_dropLast, if_pos (by omega)]; exact (h2 0 (by omega)).1
  have r1 : rs.dropLast[1]? = some ⟨1, 0, 0⟩ := by
    rw [List.getElem?_dropLast, if_pos (by omega)]; exact (h2 1 (by omega)).1
  have hmem : ∀ p ∈ rs.dropLast, p = ⟨0, 0, 0⟩ ∨ p = ⟨1, 0, 0⟩ := by
    intro p hp
    obtain ⟨i, hi, e⟩ := List.getElem_of_mem (List.dropLast_subset _ hp)
    have := (h2 i hi).1
    rw [List.getElem?_eq_getElem hi, e] at this
    have := List.mem_of_getElem? this.symm
    simpa [twoBins] using this
  have hne : computedBin rnd twoBins.kd.cellSize ⟨0, 0, 0⟩ ≠ computedBin rnd twoBins.kd.cellSize ⟨1, 0, 0⟩ := by
    intro e
    have e0 := congrFun e 0
    have : truncZ (rnd ((0 : ℝ) / 0.5)) = truncZ (rnd ((1 : ℝ) / 0.5)) := e0
    rw [c140_bins_of_places rnd_rounds isDouble_zero, c140_bins_of_places rnd_rounds isDouble_one] at this
    norm_num [truncZ] at this
  have hset : (rs.dropLast.map (computedBin rnd twoBins.kd.cellSize)).toFinset =
      {computedBin rnd twoBins.kd.cellSize ⟨0, 0, 0⟩, computedBin rnd twoBins.kd.cellSize ⟨1, 0, 0⟩} := by
    ext b
    simp only [List.mem_toFinset, List.mem_map, Finset.mem_insert, Finset.mem_singleton]
    constructor
    · rintro ⟨p, hp, rfl⟩
      rcases hmem p hp with rfl | rfl
      · exact Or.inl rfl
      · exact Or.inr rfl
    · rintro (rfl | rfl)
      · exact ⟨_, List.mem_of_getElem? r0, rfl⟩
      · exact ⟨_, List.mem_of_getElem? r1, rfl⟩
  have hmax := c140_no_more_than_needed rnd_rounds twoBins_size h (by norm_num [twoBins]) (by norm_num) (by norm_num) (by norm_num)
  simp only [hset, Finset.card_pair hne] at hmax
  have hb : kldBound 0.01 2.3 2 ≤ 329 := by
    unfold kldBound
    have hs : Real.sqrt (2 / (9 * (((2 : ℕ) : ℝ) - 1))) ≤ 0.4715 := by
      rw [Real.sqrt_le_left (by norm_num)]; norm_num
    have hs0 := Real.sqrt_nonneg (2 / (9 * (((2 : ℕ) : ℝ) - 1)))
    have h3 : (1 - 2 / (9 * (((2 : ℕ) : ℝ) - 1)) + Real.sqrt (2 / (9 * (((2 : ℕ) : ℝ) - 1))) * 2.3) ^ 3 ≤ 1.863 ^ 3 :=
      pow_le_pow_left₀ (by norm_num at hs0 ⊢; linarith) (by norm_num at hs ⊢; linarith) 3
    refine (mul_le_mul_of_nonneg_left h3 (by norm_num)).trans ?_
    norm_num
  have h4 := hmax (by norm_num) (hb.trans (by norm_num))
  have h5 : (rs.length : ℝ) < 330 := by
    refine lt_of_le_of_lt h4 (max_lt (by norm_num [twoBins]) ?_)
    norm_num at hb ⊢
    linarith
  exact_mod_cast h5

example : ∃ rs ws, resampled rnd twoBins 0.01 2.3 (· % 2) = .ok (rs, ws) ∧ rs.length < twoBins.maxP := by
  obtain ⟨rs, ws, h, -, h2⟩ := twoBins_resampled
  exact ⟨rs, ws, h, h2.trans (by norm_num [twoBins])⟩

end

end Ndt
