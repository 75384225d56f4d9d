import Verif.Proof.RoundedNormal
import Verif.Props.RoundedMatcherProps

/-! # Property C151: the score of a point in double precision -/

namespace Ndt

open Rounded

/-- **C151** The score that a cell gives a point, all of it computed in double precision (mean, covariance, eigenvalues, inverse, form and
exponential), is the normal distribution of the cell's points at that point, also where the narrow direction is limited and where
rounding decides whether it is. The points of the cell are within `B` of the origin and spread by a variance of at least `s`; the point
is within `2 R` of their mean in both coordinates. The error is at most `R^2 / s (4e-12 n B^2 / s + 7500 τ)`, where `τ` is the relative
error of the eigenvalues. -/
theorem c151_score_near {rd : ℝ → ℝ} (hr : Spec.RoundsToNearest rd) {B R s τ : ℝ} (hB : B ≤ 1e6) (hR : 0 < R) (hRB : R ≤ B) (hs : 1e-12 ≤ s)
    (hRs : s ≤ 4 * (R * R)) (ps : List Point) (hn : 5 ≤ ps.length) (hp : Spec.CoordsWithin B ps) (hsp : Spec.SpreadAtLeast s ps)
    {es : Mat2 ℝ → ℝ × ℝ} (hτ : 0 ≤ τ) (he : Spec.SolverWithin τ es) (p : Point) (hx : |p.x - Spec.avg (·.x) ps| ≤ 2 * R)
    (hy : |p.y - Spec.avg (·.y) ps| ≤ 2 * R) (hK : R * R / s * (4e-12 * (ps.length * (B * B / s)) + 7500 * τ) ≤ 0.02) :
    ∃ v, score rd (cellOf rd es ps) p = .fin v ∧
      |v - Spec.normalAt ps p| ≤ R * R / s * (4e-12 * (ps.length * (B * B / s)) + 7500 * τ) := by
  have : 0 < s := lt_of_lt_of_le (by norm_num) hs
  exact Rounded.score_near hr hB hR hRB hRs hs hn hp hsp hτ he hx hy (by field_simp) (by field_simp) hK

/-- **C151** For points that are nowhere far from the origin nothing need be known of the distance to the mean: `R = B`. -/
theorem c151_score_near_anywhere {rd : ℝ → ℝ} (hr : Spec.RoundsToNearest rd) {B s τ : ℝ} (hB : B ≤ 1e6) (hs : 1e-12 ≤ s) (ps : List Point)
    (hn : 5 ≤ ps.length) (hp : Spec.CoordsWithin B ps) (hsp : Spec.SpreadAtLeast s ps) {es : Mat2 ℝ → ℝ × ℝ} (hτ : 0 ≤ τ)
    (he : Spec.SolverWithin τ es) (p : Point) (hx : |p.x| ≤ B) (hy : |p.y| ≤ B)
    (hK : B * B / s * (4e-12 * (ps.length * (B * B / s)) + 7500 * τ) ≤ 0.02) :
    ∃ v, score rd (cellOf rd es ps) p = .fin v ∧
      |v - Spec.normalAt ps p| ≤ B * B / s * (4e-12 * (ps.length * (B * B / s)) + 7500 * τ) := by
  have hs0 : 0 < s := lt_of_lt_of_le (by norm_num) hs
  have hB00 : 0 ≤ B := (abs_nonneg _).trans hx
  have hBs := spread_le hs0 hB00 hn hp hsp
  have hB0 : 0 < B := by
    rcases hB00.lt_or_eq with h | h
    · exact h
    · rw [← h] at hBs
      linarith
  have near : ∀ {x a : ℝ}, |x| ≤ B → |a| ≤ B → |x - a| ≤ 2 * B := fun h1 h2 => (abs_sub _ _).trans (by linarith)
  exact c151_score_near hr hB hB0 le_rfl hs hBs ps hn hp hsp hτ he p (near hx (avg_abs_le hB00 fun p h => (hp p h).1))
    (near hy (avg_abs_le hB00 fun p h => (hp p h).2)) hK

/-- An exact solver. -/
theorem eigenvalues_within : Spec.SolverWithin 0 eigenvalues := by
  intro a b d _
  rw [eigenvalues_sym]
  have := eigMin_le_eigMax a b d
  simp [max_eq_right this, min_eq_left this]

/-- The hypotheses of both theorems: four corners and the middle. Five points suffice for eleven digits. -/
example : ∃ v, score rnd (cellOf rnd eigenvalues cornersAndMiddle) ⟨0.3, 0.7⟩ = .fin v ∧ |v - Real.exp (-0.29)| ≤ 2e-11 := by
  obtain ⟨v, h1, h2⟩ := c151_score_near_anywhere rnd_rounds (B := 1) (s := 1) (τ := 0) (by norm_num) (by norm_num) cornersAndMiddle
    (by simp [cornersAndMiddle]) cornersAndMiddle_within cornersAndMiddle_spread le_rfl eigenvalues_within ⟨0.3, 0.7⟩ (by norm_num [abs_le])
    (by norm_num [abs_le]) (by norm_num [cornersAndMiddle])
  refine ⟨v, h1, ?_⟩
  have e : Spec.normalAt cornersAndMiddle ⟨0.3, 0.7⟩ = Real.exp (-0.29) := by
    have c1 : Spec.sampleCov (·.x) (·.x) cornersAndMiddle = 1 := by norm_num [Spec.sampleCov, Spec.avg, cornersAndMiddle]
    have c2 : Spec.sampleCov (·.x) (·.y) cornersAndMiddle = 0 := by norm_num [Spec.sampleCov, Spec.avg, cornersAndMiddle]
    have c3 : Spec.sampleCov (·.y) (·.y) cornersAndMiddle = 1 := by norm_num [Spec.sampleCov, Spec.avg, cornersAndMiddle]
    have e1 : Spec.avg (·.x) cornersAndMiddle = 0 := by norm_num [Spec.avg, cornersAndMiddle]
    have e2 : Spec.avg (·.y) cornersAndMiddle = 0 := by norm_num [Spec.avg, cornersAndMiddle]
    unfold Spec.normalAt Spec.gauss Spec.limitedDet Spec.eigMin Spec.eigMax
    rw [c1, c2, c3, e1, e2]
    norm_num
  rw [e] at h2
  refine h2.trans ?_
  norm_num [cornersAndMiddle]

/-- **C151** The same for a map built from scans: the likelihood of a point is that of the normal distribution of the points in its square.
Points of the same square are no farther apart than its side `c`, nearly, so `c^2 / s (1.1e-12 n B^2 / s + 2000 τ)` bounds the error. -/
theorem c151_likelihood_near {rd co si : ℝ → ℝ} (hr : Spec.RoundsToNearest rd) {B s τ K : ℝ} (hB : B ≤ 1e6) (hs : 1e-12 ≤ s)
    {es : Mat2 ℝ → ℝ × ℝ} (hτ : 0 ≤ τ) (he : Spec.SolverWithin τ es) {mt mt' : Matcher} {scans : List Scan}
    (hm : addScans rd co si es mt scans = .ok mt') {g : NdtGrid} (hg : mt'.ndt = some g) (hc0 : 0 < mt.resolution) (hcB : mt.resolution ≤ B)
    (hsc : s ≤ mt.resolution * mt.resolution) (hsz : g.sizeX * g.sizeY ≤ 2 ^ 31) (hK0 : 0 ≤ K) (hK : K ≤ 0.02)
    (hsq : Spec.SquaresWithin rd co si g scans B s τ K) (p : Point) (v : Fl) (h : likelihood rd g p = .ok v) :
    ∃ x, v = .fin x ∧ |x - Spec.normalIn rd co si g scans p| ≤ K :=
  Rounded.likelihood_near hr hB hs hτ he hm hg hcB hsc hc0 hsz hK0 hK hsq h

/-- The squares of the map of four corners and the middle. -/
theorem corner_squares : ∃ g r, addScans rnd Demo.cosR Demo.sinR eigenvalues (Demo.matcher 4 10) [Demo.scanOf cornersAndMiddle] =
      .ok { Demo.matcher 4 10 with ndt := some g } ∧ g.sizeX * g.sizeY ≤ 2 ^ 31 ∧
      Spec.SquaresWithin rnd Demo.cosR Demo.sinR g [Demo.scanOf cornersAndMiddle] 4 1 0 1e-8 ∧
      matchScan rnd Demo.cosR Demo.sinR { Demo.matcher 4 10 with ndt := some g } (Demo.scanOf [⟨0.5, 0.5⟩]) Pose2d.zero
        (fun _ _ => .fin 0) = .ok r := by
  obtain ⟨g, r, h1, ⟨cells, hc⟩, h3, h4, h5⟩ := matched_corner
  refine ⟨g, r, h1, by rw [hc]; norm_num, ?_, h5⟩
  intro i hi
  by_cases h : i = 14
  · subst h
    rw [h4]
    refine ⟨fun p hp => ?_, cornersAndMiddle_spread, by rw [hc]; norm_num [cornersAndMiddle]⟩
    obtain ⟨a, b⟩ := cornersAndMiddle_within p hp
    exact ⟨a.trans (by norm_num), b.trans (by norm_num)⟩
  · rw [h3 i h] at hi
    simp at hi

/-- The hypotheses of `c151_likelihood_near`: any point of that map. -/
example : ∃ mt g, mt.ndt = some g ∧ addScans rnd Demo.cosR Demo.sinR eigenvalues (Demo.matcher 4 10) [Demo.scanOf cornersAndMiddle] = .ok mt ∧
    ∀ p v, likelihood rnd g p = .ok v →
      ∃ x, v = .fin x ∧ |x - Spec.normalIn rnd Demo.cosR Demo.sinR g [Demo.scanOf cornersAndMiddle] p| ≤ 1e-8 := by
  obtain ⟨g, r, h1, hsz, h2, h3⟩ := corner_squares
  exact ⟨_, g, rfl, h1, fun p v h => c151_likelihood_near rnd_rounds (by norm_num) (by norm_num) le_rfl eigenvalues_within h1 rfl
    (by norm_num [Demo.matcher]) (by norm_num [Demo.matcher]) (by norm_num [Demo.matcher]) hsz (by norm_num) (by norm_num) h2 p v h⟩

end Ndt
