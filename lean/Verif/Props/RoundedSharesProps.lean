import Verif.Proof.RoundedShares
import Verif.Props.RoundedGaussProps
import Verif.Props.RoundedWeighProps

/-! # Property C153: the weights of particles in double precision are those of exact arithmetic -/

namespace Ndt

open Rounded

/-- **C153** The score of a particle in double precision is minus the mean, over the beams, of the normal distributions of the squares in which
they end, up to `K + 4e-16 m`: `K` is the error of one likelihood (C151), `m` the number of beams. -/
theorem c153_score_near {rd co si : ℝ → ℝ} (hr : Spec.RoundsToNearest rd) {B s τ K : ℝ} (hB : B ≤ 1e6) (hs : 1e-12 ≤ s)
    {es : Mat2 ℝ → ℝ × ℝ} (hτ : 0 ≤ τ) (he : Spec.SolverWithin τ es) {mt mt' : Matcher} {scans : List Scan}
    (hm : addScans rd co si es mt scans = .ok mt') {g : NdtGrid} (hg : mt'.ndt = some g) (hc0 : 0 < mt.resolution) (hcB : mt.resolution ≤ B)
    (hsc : s ≤ mt.resolution * mt.resolution) (hsz : g.sizeX * g.sizeY ≤ 2 ^ 31) (hK0 : 0 ≤ K) (hK : K ≤ 0.02)
    (hsq : Spec.SquaresWithin rd co si g scans B s τ K) {points : List Point} (hp : points ≠ []) (hp2 : points.length ≤ 2 ^ 40)
    (hb : 0 < mt'.laserMaxBeams) {pose : Pose2d} {v : Fl} (h : scorePoints rd co si mt' points pose = .ok v) :
    ∃ x, v = .fin x ∧ |x + Spec.normalMean rd co si g scans points (min mt'.laserMaxBeams points.length) pose| ≤
      K + 4e-16 * (min mt'.laserMaxBeams points.length : ℕ) := by
  have hs0 : 0 < s := lt_of_lt_of_le (by norm_num) hs
  exact scorePoints_near hr hg (normalIn_range hs0 hsq) hK (fun p v h => likelihood_near hr hB hs hτ he hm hg hcB hsc hc0 hsz hK0 hK hsq h) hp hp2 hb h

/-- **C153** The weights that `measure` gives the particles in double precision are the shares of their exact scores, up to
`E = 3 n (K + 4e-16 m + 2e-16 n) / S` for `n` particles, `m` beams and a sum `S` of the exact scores. A particle whose exact score is better by
`2 (K + 4e-16 m)` does not have the smaller weight. The mean position is the mean of the particles, weighted with those shares,
up to `2 n E` times the largest coordinate. -/
theorem c153_weights_near {rd co si : ℝ → ℝ} (hr : Spec.RoundsToNearest rd) {B s τ K : ℝ} (hB : B ≤ 1e6) (hs : 1e-12 ≤ s)
    {es : Mat2 ℝ → ℝ × ℝ} (hτ : 0 ≤ τ) (he : Spec.SolverWithin τ es) {mt mt' : Matcher} {scans : List Scan}
    (hm : addScans rd co si es mt scans = .ok mt') {g : NdtGrid} (hg : mt'.ndt = some g) (hc0 : 0 < mt.resolution) (hcB : mt.resolution ≤ B)
    (hsc : s ≤ mt.resolution * mt.resolution) (hsz : g.sizeX * g.sizeY ≤ 2 ^ 31) (hK0 : 0 ≤ K) (hK : K ≤ 0.01)
    (hsq : Spec.SquaresWithin rd co si g scans B s τ K) {points : List Point} (hp : points ≠ []) (hp2 : points.length ≤ 2 ^ 40)
    (hb : 0 < mt'.laserMaxBeams) {particles : List Pose2d} (hn : particles.length ≤ 2 ^ 40) {r : Weighed}
    (h : measure rd co si mt' points particles = .ok r) {f : Pose2d → ℝ} {δ E X : ℝ}
    (hf : f = Spec.normalMean rd co si g scans points (min mt'.laserMaxBeams points.length))
    (hδ : δ = K + 4e-16 * (min mt'.laserMaxBeams points.length : ℕ)) (hS : 0 < (particles.map f).sum)
    (hE : E = 3 * (particles.length * (δ + 2e-16 * particles.length) / (particles.map f).sum)) (hE1 : E ≤ 0.01)
    (hX : 1e-200 ≤ X) (hps : ∀ a ∈ particles, |a.x| ≤ X ∧ |a.y| ≤ X) :
    (∃ w : Pose2d → ℝ, r.weights = particles.map (fun a => .fin (w a)) ∧ (∀ a ∈ particles, |w a - Spec.shareOf f particles a| ≤ E) ∧
      ∀ a ∈ particles, ∀ b ∈ particles, f b + 2 * δ ≤ f a → w b ≤ w a) ∧
    ∃ x y, r.meanX = .fin x ∧ r.meanY = .fin y ∧
      |x - (particles.map fun a => Spec.shareOf f particles a * a.x).sum| ≤ particles.length * (2 * (E * X)) ∧
      |y - (particles.map fun a => Spec.shareOf f particles a * a.y).sum| ≤ particles.length * (2 * (E * X)) := by
  have hs0 : 0 < s := lt_of_lt_of_le (by norm_num) hs
  have hK2 : K ≤ 0.02 := hK.trans (by norm_num)
  have hrange : ∀ a, 0 ≤ f a ∧ f a ≤ 1 := fun a => by
    rw [hf]
    exact normalMean_range (normalIn_range hs0 hsq) _ _ a
  have hscore : ∀ a ∈ particles, ∀ v, scorePoints rd co si mt' points a = .ok v → ∃ x, v = .fin x ∧ |x + f a| ≤ δ := fun a _ v hv => by
    rw [hδ, hf]
    exact c153_score_near hr hB hs hτ he hm hg hc0 hcB hsc hsz hK0 hK2 hsq hp hp2 hb hv
  have hm40 : ((min mt'.laserMaxBeams points.length : ℕ) : ℝ) ≤ 2 ^ 40 := by exact_mod_cast (min_le_right _ _).trans hp2
  have hm0 : (0 : ℝ) ≤ (min mt'.laserMaxBeams points.length : ℕ) := Nat.cast_nonneg _
  generalize ((min mt'.laserMaxBeams points.length : ℕ) : ℝ) = m at *
  have hδ0 : 0 ≤ δ := by
    rw [hδ]
    norm_num
    linarith
  have hδ1 : δ ≤ 0.02 := by
    rw [hδ]
    norm_num at hm40 hK ⊢
    linarith
  exact weights_near hr hn h hrange hδ0 hδ1 hscore hS hE hE1 hX hps

/-- Two particles weighed with a scan of one point in the map of four corners and the middle. -/
theorem corner_measure : ∃ g r, addScans rnd Demo.cosR Demo.sinR eigenvalues (Demo.matcher 4 10) [Demo.scanOf cornersAndMiddle] =
      .ok { Demo.matcher 4 10 with ndt := some g } ∧ g.sizeX * g.sizeY ≤ 2 ^ 31 ∧
      Spec.SquaresWithin rnd Demo.cosR Demo.sinR g [Demo.scanOf cornersAndMiddle] 4 1 0 1e-8 ∧ (∃ cells, g = ⟨4, 6, 6, -10, -10, cells⟩) ∧
      Spec.pointsIn rnd Demo.cosR Demo.sinR g [Demo.scanOf cornersAndMiddle] 14 = cornersAndMiddle ∧
      (∀ x y : ℝ, -1 ≤ x → x ≤ 1 → -1 ≤ y → y ≤ 1 → ∀ cells, getIndex rnd ⟨4, 6, 6, -10, -10, cells⟩ x y = .ok ((14 : ℕ) : ℤ)) ∧
      measure rnd Demo.cosR Demo.sinR { Demo.matcher 4 10 with ndt := some g } [⟨0, 0⟩] [Pose2d.zero, ⟨1, 0, 0⟩] = .ok r := by
  obtain ⟨g, -, h1, hsz, h2, -⟩ := corner_squares
  obtain ⟨g', h1', ⟨cells, hc⟩, -, -, h4, idx⟩ := corner_map
  rw [h1] at h1'
  cases h1'
  have hmw : Spec.MapWithin 100 (Demo.matcher 4 10) := ⟨by norm_num [Demo.matcher], by norm_num [Demo.matcher], by norm_num [Demo.matcher]⟩
  obtain ⟨mt', r, e1, e2⟩ := c130_returns rnd_rounds accurate_demo eigenvalues (P := 100) (by norm_num) hmw (scans := [Demo.scanOf cornersAndMiddle]) (by simp)
    (demoScan_within _ (by
      intro p hp
      obtain ⟨a, b⟩ := cornersAndMiddle_within p hp
      exact ⟨a.trans (by norm_num), b.trans (by norm_num)⟩))
    (points := [⟨0, 0⟩]) (by
      intro p hp
      rw [List.mem_singleton.mp hp]
      norm_num) (by simp) (particles := [Pose2d.zero, ⟨1, 0, 0⟩]) (by
      intro a ha
      simp only [List.mem_cons, List.not_mem_nil, or_false] at ha
      rcases ha with rfl | rfl <;> norm_num [Pose2d.zero])
  rw [h1] at e1
  cases e1
  exact ⟨g, r, h1, hsz, h2, ⟨cells, hc⟩, h4, idx, e2⟩

theorem beam_single (p : Point) : beam rnd [p] 1 0 = .ok p := by
  obtain ⟨i, e, hlt⟩ := (c79_beam_indices rnd_rounds (n := [p].length) (maxBeams := 1) (by norm_num)).1 0 (by norm_num)
  have hm1 : min 1 [p].length = 1 := rfl
  rw [hm1] at e
  have hi : i = 0 := by
    have : i < 1 := hlt
    omega
  subst hi
  unfold beam
  rw [e]
  rfl

/-- The hypotheses of both theorems: the map of four corners and the middle, a scan of one point at the robot, and two particles, one of which is a
metre off. The mean is off by `1 / (1 + √e)`, nearly. -/
example : ∃ mt r x, addScans rnd Demo.cosR Demo.sinR eigenvalues (Demo.matcher 4 10) [Demo.scanOf cornersAndMiddle] = .ok mt ∧
    measure rnd Demo.cosR Demo.sinR mt [⟨0, 0⟩] [Pose2d.zero, ⟨1, 0, 0⟩] = .ok r ∧ r.meanX = .fin x ∧
    |x - Real.exp (-0.5) / (1 + Real.exp (-0.5))| ≤ 1e-6 := by
  obtain ⟨g, r, h1, hsz, h2, ⟨cells, hc⟩, h4, idx, e2⟩ := corner_measure
  have hbeam := beam_single
  have hco : Demo.cosR 0 = 1 := by unfold Demo.cosR; rw [Real.cos_zero]; exact rnd_rounds.exact isDouble_one
  have hsi : Demo.sinR 0 = 0 := by unfold Demo.sinR; rw [Real.sin_zero]; exact rnd_zero
  have hnorm : ∀ x : ℝ, -1 ≤ x → x ≤ 1 → Spec.normalIn rnd Demo.cosR Demo.sinR g [Demo.scanOf cornersAndMiddle] ⟨x, 0⟩ = Real.exp (-(x * x) / 2) := by
    intro x a b
    have hi : getIndex rnd g x 0 = .ok ((14 : ℕ) : ℤ) := by
      rw [hc]
      exact idx x 0 a b (by norm_num) (by norm_num) cells
    unfold Spec.normalIn
    simp only [hi]
    rw [Int.toNat_natCast, h4, if_pos ⟨by positivity, by simp [cornersAndMiddle]⟩]
    have c1 : Spec.sampleCov (·.x) (·.x) cornersAndMiddle = 1 := by norm_num [Spec.sampleCov, Spec.avg, cornersAndMiddle]
    have c2 : Spec.sampleCov (·.x) (·.y) cornersAndMiddle = 0 := by norm_num [Spec.sampleCov, Spec.avg, cornersAndMiddle]
    have c3 : Spec.sampleCov (·.y) (·.y) cornersAndMiddle = 1 := by norm_num [Spec.sampleCov, Spec.avg, cornersAndMiddle]
    have e1 : Spec.avg (·.x) cornersAndMiddle = 0 := by norm_num [Spec.avg, cornersAndMiddle]
    have e2 : Spec.avg (·.y) cornersAndMiddle = 0 := by norm_num [Spec.avg, cornersAndMiddle]
    unfold Spec.normalAt Spec.gauss Spec.limitedDet Spec.eigMin Spec.eigMax
    rw [c1, c2, c3, e1, e2]
    norm_num
    ring_nf
  have hmean : ∀ x : ℝ, -1 ≤ x → x ≤ 1 → Spec.IsDouble x →
      Spec.normalMean rnd Demo.cosR Demo.sinR g [Demo.scanOf cornersAndMiddle] [⟨0, 0⟩] 1 ⟨x, 0, 0⟩ = Real.exp (-(x * x) / 2) := by
    intro x a b hd
    unfold Spec.normalMean
    simp only [List.range_one, List.map_cons, List.map_nil, hbeam]
    unfold mapPoint turnX turnY
    simp only [hco, hsi, mul_one, mul_zero, rnd_zero, sub_zero, add_zero, rnd_rounds.exact hd, hnorm x a b]
    simp
  have m0 : Spec.normalMean rnd Demo.cosR Demo.sinR g [Demo.scanOf cornersAndMiddle] [⟨0, 0⟩] 1 Pose2d.zero = 1 := by
    have := hmean 0 (by norm_num) (by norm_num) isDouble_zero
    norm_num at this
    exact this
  have m1 : Spec.normalMean rnd Demo.cosR Demo.sinR g [Demo.scanOf cornersAndMiddle] [⟨0, 0⟩] 1 ⟨1, 0, 0⟩ = Real.exp (-0.5) := by
    rw [hmean 1 (by norm_num) le_rfl isDouble_one]
    norm_num
  have em : min (Demo.matcher 4 10).laserMaxBeams [(⟨0, 0⟩ : Point)].length = 1 := by simp [Demo.matcher]
  have hpos := Real.exp_pos (-0.5)
  have hsum : ([Pose2d.zero, ⟨1, 0, 0⟩].map
      (Spec.normalMean rnd Demo.cosR Demo.sinR g [Demo.scanOf cornersAndMiddle] [⟨0, 0⟩] 1)).sum = 1 + Real.exp (-0.5) := by
    simp only [List.map_cons, List.map_nil, List.sum_cons, List.sum_nil, m0, m1, add_zero]
  have hE : 3 * (((2 : ℕ) : ℝ) * (1e-8 + 4e-16 * ((1 : ℕ) : ℝ) + 2e-16 * ((2 : ℕ) : ℝ)) / (1 + Real.exp (-0.5))) ≤ 1e-7 := by
    generalize Real.exp (-0.5) = e at *
    have : ((2 : ℕ) : ℝ) * (1e-8 + 4e-16 * ((1 : ℕ) : ℝ) + 2e-16 * ((2 : ℕ) : ℝ)) / (1 + e) ≤ 3e-8 := by
      rw [div_le_iff₀ (by linarith)]
      norm_num
      linarith
    norm_num at this ⊢
    linarith
  obtain ⟨-, x, y, hx, -, hx2, -⟩ := c153_weights_near rnd_rounds (by norm_num) (by norm_num) le_rfl eigenvalues_within h1 rfl (by norm_num [Demo.matcher])
    (by norm_num [Demo.matcher]) (by norm_num [Demo.matcher]) hsz (by norm_num) (by norm_num) h2 (by simp) (by simp) (by norm_num [Demo.matcher]) (by simp) e2
    (f := Spec.normalMean rnd Demo.cosR Demo.sinR g [Demo.scanOf cornersAndMiddle] [⟨0, 0⟩] 1) (δ := 1e-8 + 4e-16 * ((1 : ℕ) : ℝ)) (X := 1)
    (congrArg (Spec.normalMean rnd Demo.cosR Demo.sinR g [Demo.scanOf cornersAndMiddle] [⟨0, 0⟩]) em.symm)
    (congrArg (fun k : ℕ => 1e-8 + 4e-16 * (k : ℝ)) em.symm) (by rw [hsum]; linarith) rfl (by
      rw [hsum]
      exact hE.trans (by norm_num)) (by norm_num) (by
      intro a ha
      simp only [List.mem_cons, List.not_mem_nil, or_false] at ha
      rcases ha with rfl | rfl <;> norm_num [Pose2d.zero])
  refine ⟨_, r, x, h1, e2, hx, ?_⟩
  have et : ([Pose2d.zero, ⟨1, 0, 0⟩].map fun a : Pose2d => Spec.shareOf (Spec.normalMean rnd Demo.cosR Demo.sinR g [Demo.scanOf cornersAndMiddle] [⟨0, 0⟩] 1)
      [Pose2d.zero, ⟨1, 0, 0⟩] a * a.x).sum = Real.exp (-0.5) / (1 + Real.exp (-0.5)) := by
    unfold Spec.shareOf
    rw [hsum]
    simp only [List.map_cons, List.map_nil, List.sum_cons, List.sum_nil, m1]
    simp [Pose2d.zero]
  rw [et] at hx2
  refine hx2.trans ?_
  rw [hsum]
  have h2l : [Pose2d.zero, (⟨1, 0, 0⟩ : Pose2d)].length = 2 := rfl
  rw [h2l]
  generalize 3 * (((2 : ℕ) : ℝ) * (1e-8 + 4e-16 * ((1 : ℕ) : ℝ) + 2e-16 * ((2 : ℕ) : ℝ)) / (1 + Real.exp (-0.5))) = E at *
  norm_num at hE ⊢
  linarith

end Ndt
