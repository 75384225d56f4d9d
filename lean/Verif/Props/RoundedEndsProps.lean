import Verif.Proof.RoundedEnds
import Verif.Proof.RoundedDemo
import Verif.Spec.RoundedPose

/-! # Property C129: making a map and matching in double precision come to an end without a fault -/

namespace Ndt

open Rounded

/-- **C129** A map of at least one scan can be made, and another scan matched against it: both functions return, whatever else is in the
scans. The hypotheses bound the sizes only: nothing further than `P` metres, and `P` metres not more than 2048 squares (512 m, with
squares of 25 cm). -/
theorem c129_map_and_match_return {rd co si : ℝ → ℝ} (hr : Spec.RoundsToNearest rd) (hcs : Spec.Accurate co si) (es : Mat2 ℝ → ℝ × ℝ)
    {P : ℝ} (hP : 1 ≤ P) {mt : Matcher} (hm : Spec.MapWithin P mt) (hw : Spec.SearchWithin P mt)
    {scans : List Scan} (hne : scans ≠ []) (hs : ∀ s ∈ scans, Spec.ScanWithin P s)
    {scan : Scan} (hscan : Spec.ScanWithin P scan) (hn : scan.points.length ≤ 2 ^ 51) (pose : Pose2d) (cov : Mat3F) :
    ∃ mt' r, addScans rd co si es mt scans = .ok mt' ∧ mt'.ndt ≠ none ∧ matchScan rd co si mt' scan pose cov = .ok r := by
  have h52 : (2⁻¹ : ℝ) ^ 52 ≤ 1 := pow_le_one₀ (by norm_num) (by norm_num)
  have hco : ∀ x, |co x| ≤ 2 := by
    intro x
    have h1 := abs_le.mp (hcs.cos x)
    have h2 := abs_le.mp (Real.abs_cos_le_one x)
    exact abs_le.mpr ⟨by linarith, by linarith⟩
  have hsi : ∀ x, |si x| ≤ 2 := by
    intro x
    have h1 := abs_le.mp (hcs.sin x)
    have h2 := abs_le.mp (Real.abs_sin_le_one x)
    exact abs_le.mpr ⟨by linarith, by linarith⟩
  have hsq := hm.squares
  obtain ⟨g, h1, gc, ox, oy, gl, gs⟩ := addScans_total (es := es) hr hco hsi hP hm hne hs
  have hmc : 2 ^ 11 * P ≤ 2 ^ 31 * g.cellSize := by
    rw [gc]
    norm_num at hsq ⊢
    linarith
  have hpos : 0 < g.cellSize := by
    norm_num at hmc
    linarith
  obtain ⟨r, h2⟩ := matchScan_total (mt := { mt with ndt := some g }) hr hco hsi hP rfl
    ⟨hw.linear, hw.linearP, hw.linearRes, hw.linearRes', hw.angular, hw.angularRes, hw.angularRes'⟩ hpos hmc ox oy gl gs
    hscan.points hn hscan.poseX hscan.poseY pose cov
  exact ⟨_, r, h1, by simp, h2⟩

/-- The cosine and sine of the C library, if rounded correctly, are accurate. -/
theorem accurate_demo : Spec.Accurate Demo.cosR Demo.sinR := by
  have key : ∀ y : ℝ, |y| ≤ 1 → |rnd y - y| ≤ 2⁻¹ ^ 52 := by
    intro y hy
    have h1 := rnd_rounds.error y
    have h2 : halfMin ≤ 2⁻¹ ^ 53 := halfMin_le (by norm_num)
    have h3 : (2⁻¹ : ℝ) ^ 53 * |y| ≤ 2⁻¹ ^ 53 * 1 := mul_le_mul_of_nonneg_left hy (by positivity)
    have h4 : (2⁻¹ : ℝ) ^ 52 = 2⁻¹ ^ 53 + 2⁻¹ ^ 53 := by norm_num
    rw [h4]
    linarith
  exact ⟨fun a => key _ (Real.abs_cos_le_one a), fun a => key _ (Real.abs_sin_le_one a)⟩

/-- The matcher with the default parameters (src/scan_matcher_ndt.cpp:38-43) and a range of ten metres. -/
noncomputable def defaultSearch : Matcher :=
  { resolution := 0.25, angularRes := rnd 0.0025, angularSize := rnd 0.1, linearRes := rnd 0.005, linearSize := rnd 0.05,
    laserMaxBeams := 100, rangeMax := 10, ndt := none }

/-- The default parameters and scans within 100 m meet the hypotheses of `c129_map_and_match_return`. -/
example : Spec.MapWithin 100 defaultSearch ∧ Spec.SearchWithin 100 defaultSearch ∧ Spec.ScanWithin 100 (Demo.scanOf [⟨3, -4⟩]) := by
  have up : ∀ x : ℝ, 2⁻¹ ^ 10 ≤ x → 2⁻¹ ^ 10 ≤ rnd x := fun x h => rnd_rounds.ge_of_ge (Demo.isDouble_inv_pow (by norm_num)) h
  have dn : ∀ x : ℝ, x ≤ 1 → rnd x ≤ 1 := fun x h => rnd_rounds.le_of_le isDouble_one h
  have small : ∀ x y : ℝ, x ≤ 1 → 2⁻¹ ^ 10 ≤ y → 2⁻¹ ^ 51 * rnd x ≤ rnd y := by
    intro x y hx hy
    refine le_trans ?_ (up y hy)
    refine (mul_le_mul_of_nonneg_left (dn x hx) (by positivity)).trans ?_
    norm_num
  have smaller : ∀ y : ℝ, 2⁻¹ ^ 10 ≤ y → 2⁻¹ ^ 1000 ≤ rnd y := fun y hy =>
    (pow_le_pow_of_le_one (by norm_num) (by norm_num) (by norm_num)).trans (up y hy)
  refine ⟨⟨by norm_num [defaultSearch], by norm_num [defaultSearch], by norm_num [defaultSearch]⟩, ?_, ?_⟩
  · refine ⟨isDouble_rnd _, (dn _ (by norm_num)).trans (by norm_num), small _ _ (by norm_num) (by norm_num), smaller _ (by norm_num),
      isDouble_rnd _, small _ _ (by norm_num) (by norm_num), smaller _ (by norm_num)⟩
  · refine ⟨?_, ?_, ?_⟩
    · simp [Demo.scanOf, Scan.new, Pose2d.zero]
    · simp [Demo.scanOf, Scan.new, Pose2d.zero]
    · intro p hp
      simp only [Demo.scanOf, List.mem_singleton] at hp
      subst hp
      norm_num [abs_le]

/-- **C129** (where it fails) With an angular resolution below 2^-55 of the window, zero for example, no match against any map returns. -/
theorem c129_tiny_resolution_never_returns {rd co si : ℝ → ℝ} (hr : Spec.RoundsToNearest rd) {mt : Matcher} {g : NdtGrid} (hg : mt.ndt = some g)
    (hs : Spec.IsDouble mt.angularSize) (h0 : 0 < mt.angularSize) (hres : |mt.angularRes| < 2⁻¹ ^ 55 * mt.angularSize)
    (scan : Scan) (pose : Pose2d) (cov : Mat3F) : matchScan rd co si mt scan pose cov = .error .hang := by
  have h : searchVals rd mt.angularSize mt.angularRes = .error .hang := by
    unfold searchVals
    rw [dif_neg]
    rintro ⟨n, hn⟩
    exact hn (c80_tiny_resolution_hangs hr hs h0 hres n).1
  unfold matchScan
  rw [hg]
  simp only [search, h, Res.error_bind]

/-- A resolution of zero, with the default window. -/
example : Spec.IsDouble (rnd 0.1) ∧ 0 < rnd 0.1 ∧ |(0 : ℝ)| < 2⁻¹ ^ 55 * rnd 0.1 := by
  have h : 2⁻¹ ^ 10 ≤ rnd 0.1 := rnd_rounds.ge_of_ge (Demo.isDouble_inv_pow (by norm_num)) (by norm_num)
  have h1 : 0 < rnd 0.1 := lt_of_lt_of_le (by positivity) h
  exact ⟨isDouble_rnd _, h1, by rw [abs_zero]; positivity⟩

end Ndt
