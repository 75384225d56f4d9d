import Verif.Proof.NegVariance
import Verif.Proof.RoundedScore

/-! # Property C98: statistics and scores of a cell in double precision -/

namespace Ndt

open Rounded

/-- Four corners and the middle, the points of the examples. -/
def cornersAndMiddle : List Point := [⟨1, 1⟩, ⟨1, -1⟩, ⟨-1, 1⟩, ⟨-1, -1⟩, ⟨0, 0⟩]

theorem cornersAndMiddle_within : Spec.CoordsWithin 1 cornersAndMiddle := by
  intro p hp
  simp only [cornersAndMiddle, List.mem_cons, List.not_mem_nil, or_false] at hp
  rcases hp with rfl | rfl | rfl | rfl | rfl <;> norm_num

theorem cornersAndMiddle_spread : Spec.SpreadAtLeast 1 cornersAndMiddle := by
  intro v w
  simp only [Spec.sampleCov, Spec.avg, cornersAndMiddle, List.map_cons, List.map_nil, List.sum_cons, List.sum_nil,
    List.length_cons, List.length_nil]
  norm_num

theorem eigenvalues_accurate (a b d : ℝ) (h : 0 < Spec.eigMax a b d) :
    Spec.eigMax a b d / 2 ≤ max (eigenvalues ⟨a, b, b, d⟩).1 (eigenvalues ⟨a, b, b, d⟩).2 := by
  rw [eigenvalues_sym]
  exact le_max_of_le_right (by dsimp only; linarith)

/-- C98. Whatever the points, their mean computed in double precision is off by at most `6 n` times `2^-53` of the largest
coordinate, for up to `2^49` points. -/
theorem c98_mean_accurate {rd : ℝ → ℝ} (hr : Spec.RoundsToNearest rd) (B : ℝ) (hB : 2⁻¹ ^ 100 ≤ B) (ps : List Point)
    (hn : ps.length ≤ 2 ^ 49) (hp : Spec.CoordsWithin B ps) (es : Mat2 ℝ → ℝ × ℝ) :
    |(cellOf rd es ps).mean.x - Spec.avg (·.x) ps| ≤ 6 * ps.length * (2⁻¹ ^ 53 * B) ∧
    |(cellOf rd es ps).mean.y - Spec.avg (·.y) ps| ≤ 6 * ps.length * (2⁻¹ ^ 53 * B) ∧
    (cellOf rd es ps).n = ps.length := by
  have h := mean_errors hr hB hn hp
  have e : (cellOf rd es ps).mean = (ps.foldl (addPoint rd) Cell.new).mean ∧
      (cellOf rd es ps).n = (ps.foldl (addPoint rd) Cell.new).n := by
    unfold cellOf compute
    split
    · exact ⟨rfl, rfl⟩
    · exact ⟨rfl, rfl⟩
  rw [e.1, e.2]
  exact ⟨h.1, h.2, fold_n hr ps hn⟩

/-- The hypotheses of `c98_mean_accurate` for points as far out as a kilometre. -/
example : 2⁻¹ ^ 100 ≤ (1000 : ℝ) ∧ ([⟨1000, 5.3⟩, ⟨-1000, 7⟩] : List Point).length ≤ 2 ^ 49 ∧
    Spec.CoordsWithin 1000 [⟨1000, 5.3⟩, ⟨-1000, 7⟩] := by
  refine ⟨(pow_le_one₀ (by norm_num) (by norm_num)).trans (by norm_num), by norm_num, ?_⟩
  intro p hp
  simp only [List.mem_cons, List.not_mem_nil, or_false] at hp
  rcases hp with rfl | rfl <;> norm_num [abs_le]

/-- C98. The covariance computed in double precision is the sample covariance of the points, off by at most `80 n` times `2^-53`
of the square of the largest coordinate. -/
theorem c98_covariance_accurate {rd : ℝ → ℝ} (hr : Spec.RoundsToNearest rd) (B : ℝ) (hB : 2⁻¹ ^ 100 ≤ B) (ps : List Point)
    (hn : ps.length ≤ 2 ^ 49) (hn3 : 3 ≤ ps.length) (hp : Spec.CoordsWithin B ps) (es : Mat2 ℝ → ℝ × ℝ) :
    |(cellOf rd es ps).covariance.m00 - Spec.sampleCov (·.x) (·.x) ps| ≤ 80 * (ps.length * 2⁻¹ ^ 53 * (B * B)) ∧
    |(cellOf rd es ps).covariance.m01 - Spec.sampleCov (·.x) (·.y) ps| ≤ 80 * (ps.length * 2⁻¹ ^ 53 * (B * B)) ∧
    |(cellOf rd es ps).covariance.m11 - Spec.sampleCov (·.y) (·.y) ps| ≤ 80 * (ps.length * 2⁻¹ ^ 53 * (B * B)) ∧
    (cellOf rd es ps).covariance.m10 = (cellOf rd es ps).covariance.m01 := by
  have e : (cellOf rd es ps).covariance = covarianceOf rd (ps.foldl (addPoint rd) Cell.new) := by
    unfold cellOf compute
    rw [if_neg]
    rw [fold_valid, fold_n hr ps hn]
    have h3 : (3 : ℝ) ≤ ps.length := by exact_mod_cast hn3
    rintro (h | h)
    · exact absurd h (by decide)
    · linarith
  rw [e]
  exact cov_errors hr hB hn (by omega) hp rfl

/-- The hypotheses of `c98_covariance_accurate`. -/
example : 3 ≤ cornersAndMiddle.length ∧ cornersAndMiddle.length ≤ 2 ^ 49 ∧ Spec.CoordsWithin 1 cornersAndMiddle :=
  ⟨by decide, by simp [cornersAndMiddle], cornersAndMiddle_within⟩

/-- C98, short of cells whose points lie on a line up to rounding. A score is a number from zero to one if the points are spread in
every direction by a variance of at least `400 n` times `2^-53` of the square of the largest coordinate. Eigen's solver
need only find the larger eigenvalue up to a factor of two. Missing: cells that are spread less, where the computed
covariance can have a negative eigenvalue (`c98_score_can_be_infinite`). -/
theorem c98_score_at_most_one_partial {rd : ℝ → ℝ} (hr : Spec.RoundsToNearest rd) (B : ℝ) (hB : 2⁻¹ ^ 100 ≤ B)
    (hB2 : B ≤ 2 ^ 100) (ps : List Point) (hn : ps.length ≤ 2 ^ 49) (hn5 : 5 ≤ ps.length) (hp : Spec.CoordsWithin B ps)
    (hs : Spec.SpreadAtLeast (400 * (ps.length * 2⁻¹ ^ 53 * (B * B))) ps) (es : Mat2 ℝ → ℝ × ℝ)
    (he : ∀ a b d, 0 < Spec.eigMax a b d → Spec.eigMax a b d / 2 ≤ max (es ⟨a, b, b, d⟩).1 (es ⟨a, b, b, d⟩).2)
    (p : Point) (hx : |p.x| ≤ 2 ^ 100) (hy : |p.y| ≤ 2 ^ 100) :
    ∃ v, score rd (cellOf rd es ps) p = .fin v ∧ 0 ≤ v ∧ v ≤ 1 :=
  score_le_one hr hB hB2 hn hn5 hp hs he hx hy

/-- The hypotheses of `c98_score_at_most_one_partial`: four corners and the middle, IEEE rounding, an exact solver. -/
example : ∃ v, score rnd (cellOf rnd eigenvalues cornersAndMiddle) ⟨0.3, 0.7⟩ = .fin v ∧ 0 ≤ v ∧ v ≤ 1 := by
  refine c98_score_at_most_one_partial rnd_rounds 1 (pow_le_one₀ (by norm_num) (by norm_num)) (one_le_pow₀ (by norm_num)) _
    (by simp [cornersAndMiddle]) (by decide) cornersAndMiddle_within ?_ _ eigenvalues_accurate _ ?_ ?_
  · intro v w
    refine le_trans ?_ (cornersAndMiddle_spread v w)
    refine mul_le_mul_of_nonneg_right ?_ (by positivity)
    simp only [cornersAndMiddle, List.length_cons, List.length_nil]
    norm_num
  · norm_num [abs_le]
  · norm_num [abs_le]

/-- C98, refuted in general. Five points with the same `y` (5.3, in double precision) have a variance in `y` of zero.
With IEEE rounding the computed one is negative, and the point 12.5 cm to the side of them has an infinite score, where the exact
score is at most one. -/
theorem c98_score_can_be_infinite :
    ∃ (ps : List Point) (p : Point), Spec.CoordsWithin 6 ps ∧ 5 ≤ ps.length ∧ (∀ q ∈ ps, q.y = rnd 5.3) ∧ p.y = rnd 5.3 ∧ p.x = 0.125 ∧
      Spec.sampleCov (·.y) (·.y) ps = 0 ∧ 0 < Spec.sampleCov (·.x) (·.x) ps ∧
      (cellOf rnd eigenvalues ps).covariance.m11 < 0 ∧
      score rnd (cellOf rnd eigenvalues ps) p = .pinf := by
  refine ⟨NegVar.points, ⟨1 / 2 ^ 3, 5967269506265907 / 2 ^ 50⟩, ?_, by decide, ?_, NegVar.y_eq.symm, by norm_num, ?_, ?_, ?_, NegVar.score_eq⟩
  · intro p hp
    simp only [NegVar.points, List.mem_cons, List.not_mem_nil, or_false] at hp
    rcases hp with rfl | rfl | rfl | rfl | rfl <;> norm_num [abs_le]
  · intro p hp
    rw [NegVar.y_eq]
    simp only [NegVar.points, List.mem_cons, List.not_mem_nil, or_false] at hp
    rcases hp with rfl | rfl | rfl | rfl | rfl <;> rfl
  · simp only [Spec.sampleCov, Spec.avg, NegVar.points, List.map_cons, List.map_nil, List.sum_cons, List.sum_nil,
      List.length_cons, List.length_nil]
    norm_num
  · simp only [Spec.sampleCov, Spec.avg, NegVar.points, List.map_cons, List.map_nil, List.sum_cons, List.sum_nil,
      List.length_cons, List.length_nil]
    norm_num
  · rw [NegVar.cell_eq]
    norm_num

end Ndt
