import Verif.Proof.RoundedSquares
import Verif.Props.RoundedSharesProps

/-! # Property C154: points are put into the right squares, and weights follow from the exact positions -/

namespace Ndt

open Rounded

/-- **C154** A point of a scan that is moved into the map in double precision is where it should be, up to `2e-15` of the largest coordinate. -/
theorem c154_moved_near {rd co si : ℝ → ℝ} (hr : Spec.RoundsToNearest rd) (hcs : Spec.Accurate co si) {P : ℝ} (hP : 1 ≤ P) {pose : Pose2d} {p : Point}
    (hx : |pose.x| ≤ P) (hy : |pose.y| ≤ P) (px : |p.x| ≤ P) (py : |p.y| ≤ P) :
    |(mapPoint rd co si pose p).x - (Spec.move pose p).x| ≤ 2e-15 * P ∧ |(mapPoint rd co si pose p).y - (Spec.move pose p).y| ≤ 2e-15 * P :=
  (moved_near hr hcs hP hx hy px py).1

/-- **C154** So its square is the one in which it is in exact arithmetic (or none, outside the map), unless it is within `5e-15 P` of a line between
squares. -/
theorem c154_right_square {rd co si : ℝ → ℝ} (hr : Spec.RoundsToNearest rd) (hcs : Spec.Accurate co si) {P : ℝ} (hP : 1 ≤ P) {g : NdtGrid}
    (hc : 0 < g.cellSize) (hPc : 7 * P ≤ 2 ^ 31 * g.cellSize) (hox : |g.originX| ≤ 3 * P) (hoy : |g.originY| ≤ 3 * P) (hsz : g.sizeX * g.sizeY ≤ 2 ^ 31)
    {pose : Pose2d} {p : Point} (hx : |pose.x| ≤ P) (hy : |pose.y| ≤ P) (px : |p.x| ≤ P) (py : |p.y| ≤ P)
    (hl : Spec.ClearOfLines g (5e-15 * P) (Spec.move pose p)) :
    getIndex rd g (mapPoint rd co si pose p).x (mapPoint rd co si pose p).y = .ok (Spec.squareAt g (Spec.move pose p)) := by
  obtain ⟨⟨h1, h2⟩, h3, h4⟩ := moved_near hr hcs hP hx hy px py
  exact index_eq hr hP hc hPc hox hoy hsz h3 h4 h1 h2 hl

/-- **C154** The points that a square of the map holds are those that are in it in exact arithmetic, if none is near a line. -/
theorem c154_points_of_a_square {rd co si : ℝ → ℝ} (hr : Spec.RoundsToNearest rd) (hcs : Spec.Accurate co si) {P : ℝ} (hP : 1 ≤ P) {g : NdtGrid}
    (hc : 0 < g.cellSize) (hPc : 7 * P ≤ 2 ^ 31 * g.cellSize) (hox : |g.originX| ≤ 3 * P) (hoy : |g.originY| ≤ 3 * P) (hsz : g.sizeX * g.sizeY ≤ 2 ^ 31)
    {scans : List Scan} (hs : ∀ s ∈ scans, Spec.ScanWithin P s) (hl : ∀ s ∈ scans, ∀ p ∈ s.points, Spec.ClearOfLines g (5e-15 * P) (Spec.move s.pose p)) (i : ℕ) :
    Spec.pointsIn rd co si g scans i =
      scans.flatMap fun s => (s.points.filter fun p => decide (Spec.squareAt g (Spec.move s.pose p) = i)).map (mapPoint rd co si s.pose) := by
  unfold Spec.pointsIn
  rw [List.filter_flatMap]
  refine List.flatMap_congr fun s hs' => ?_
  rw [List.filter_map]
  congr 1
  refine List.filter_congr fun p hp => ?_
  obtain ⟨a, b, c⟩ := hs s hs'
  rw [Function.comp, c154_right_square hr hcs hP hc hPc hox hoy hsz a b (c p hp).1 (c p hp).2 (hl s hs' p hp)]
  simp

/-- **C154** The likelihood of a point of a scan, moved and scored in double precision, is the normal distribution of the points in the square where
the point is in exact arithmetic, up to `K + 6.2e-15 c P / s` for squares of side `c`. -/
theorem c154_likelihood_near {rd co si : ℝ → ℝ} (hr : Spec.RoundsToNearest rd) (hcs : Spec.Accurate co si) {B s τ K P : ℝ} (hB : B ≤ 1e6) (hs : 1e-12 ≤ s)
    {es : Mat2 ℝ → ℝ × ℝ} (hτ : 0 ≤ τ) (he : Spec.SolverWithin τ es) {mt mt' : Matcher} {scans : List Scan}
    (hm : addScans rd co si es mt scans = .ok mt') {g : NdtGrid} (hg : mt'.ndt = some g) (hc0 : 0 < mt.resolution) (hcB : mt.resolution ≤ B)
    (hsc : s ≤ mt.resolution * mt.resolution) (hsz : g.sizeX * g.sizeY ≤ 2 ^ 31) (hK0 : 0 ≤ K) (hK : K ≤ 0.02)
    (hsq : Spec.SquaresWithin rd co si g scans B s τ K) (hP : 1 ≤ P) (hPc : 7 * P ≤ 2 ^ 31 * mt.resolution) (hox : |g.originX| ≤ 3 * P) (hoy : |g.originY| ≤ 3 * P)
    {pose : Pose2d} {p : Point} (hx : |pose.x| ≤ P) (hy : |pose.y| ≤ P) (px : |p.x| ≤ P) (py : |p.y| ≤ P)
    (hl : Spec.ClearOfLines g (5e-15 * P) (Spec.move pose p)) {v : Fl} (h : likelihood rd g (mapPoint rd co si pose p) = .ok v) :
    ∃ x, v = .fin x ∧ |x - Spec.normalOf rd co si g scans (Spec.move pose p)| ≤ K + 6.2e-15 * (mt.resolution * P / s) := by
  have h3 := normalOf_moved hr hcs hs hm hg hc0 hsc hsz hsq hP hPc hox hoy hx hy px py hl
  obtain ⟨x, hx, hx2⟩ := c151_likelihood_near hr hB hs hτ he hm hg hc0 hcB hsc hsz hK0 hK hsq _ v h
  refine ⟨x, hx, ?_⟩
  have h4 := abs_le.mp hx2
  have h5 := abs_le.mp h3
  rw [abs_le]
  constructor <;> linarith

/-- **C154** C153 with positions in exact arithmetic: the beams are turned and moved by the particles' poses and fall into squares without rounding. None
of them may be near a line. -/
theorem c154_weights_near {rd co si : ℝ → ℝ} (hr : Spec.RoundsToNearest rd) (hcs : Spec.Accurate co si) {B s τ K P : ℝ} (hB : B ≤ 1e6) (hs : 1e-12 ≤ s)
    {es : Mat2 ℝ → ℝ × ℝ} (hτ : 0 ≤ τ) (he : Spec.SolverWithin τ es) {mt mt' : Matcher} {scans : List Scan}
    (hm : addScans rd co si es mt scans = .ok mt') {g : NdtGrid} (hg : mt'.ndt = some g) (hc0 : 0 < mt.resolution) (hcB : mt.resolution ≤ B)
    (hsc : s ≤ mt.resolution * mt.resolution) (hsz : g.sizeX * g.sizeY ≤ 2 ^ 31) (hK0 : 0 ≤ K) (hK : K ≤ 0.02)
    (hsq : Spec.SquaresWithin rd co si g scans B s τ K) (hP : 1 ≤ P) (hPc : 7 * P ≤ 2 ^ 31 * mt.resolution) (hox : |g.originX| ≤ 3 * P) (hoy : |g.originY| ≤ 3 * P)
    {points : List Point} (hp : points ≠ []) (hp2 : points.length ≤ 2 ^ 40) (hpts : ∀ p ∈ points, |p.x| ≤ P ∧ |p.y| ≤ P)
    (hb : 0 < mt'.laserMaxBeams) {particles : List Pose2d} (hn : particles.length ≤ 2 ^ 40) (hps : ∀ a ∈ particles, |a.x| ≤ P ∧ |a.y| ≤ P)
    (hl : ∀ a ∈ particles, ∀ p ∈ points, Spec.ClearOfLines g (5e-15 * P) (Spec.move a p)) {r : Weighed}
    (h : measure rd co si mt' points particles = .ok r) {f : Pose2d → ℝ} {δ E : ℝ}
    (hf : f = Spec.normalSeen rd co si g scans points (min mt'.laserMaxBeams points.length))
    (hδ : δ = K + 4e-16 * (min mt'.laserMaxBeams points.length : ℕ) + 6.2e-15 * (mt.resolution * P / s)) (hδ1 : δ ≤ 0.02) (hS : 0 < (particles.map f).sum)
    (hE : E = 3 * (particles.length * (δ + 2e-16 * particles.length) / (particles.map f).sum)) (hE1 : E ≤ 0.01) :
    (∃ w : Pose2d → ℝ, r.weights = particles.map (fun a => .fin (w a)) ∧ (∀ a ∈ particles, |w a - Spec.shareOf f particles a| ≤ E) ∧
      ∀ a ∈ particles, ∀ b ∈ particles, f b + 2 * δ ≤ f a → w b ≤ w a) ∧
    ∃ x y, r.meanX = .fin x ∧ r.meanY = .fin y ∧
      |x - (particles.map fun a => Spec.shareOf f particles a * a.x).sum| ≤ particles.length * (2 * (E * P)) ∧
      |y - (particles.map fun a => Spec.shareOf f particles a * a.y).sum| ≤ particles.length * (2 * (E * P)) := by
  have hs0 : 0 < s := lt_of_lt_of_le (by norm_num) hs
  have hL : 0 ≤ 6.2e-15 * (mt.resolution * P / s) := by positivity
  have hrange : ∀ a, 0 ≤ f a ∧ f a ≤ 1 := fun a => by
    rw [hf]
    exact normalSeen_range hs0 hsq _ _ a
  have hscore : ∀ a ∈ particles, ∀ v, scorePoints rd co si mt' points a = .ok v → ∃ x, v = .fin x ∧ |x + f a| ≤ δ := by
    intro a ha v hv
    obtain ⟨x, hx, hx2⟩ := c153_score_near hr hB hs hτ he hm hg hc0 hcB hsc hsz hK0 hK hsq hp hp2 hb hv
    refine ⟨x, hx, ?_⟩
    have hnear := normalSeen_near (m := min mt'.laserMaxBeams points.length) (rd := rd) (co := co) (si := si) (g := g) (scans := scans) (points := points) (pose := a) hL
      (fun p hp => normalOf_moved hr hcs hs hm hg hc0 hsc hsz hsq hP hPc hox hoy (hps a ha).1 (hps a ha).2 (hpts p hp).1 (hpts p hp).2 (hl a ha p hp))
    rw [hδ, hf]
    rw [abs_le] at hx2 hnear ⊢
    constructor <;> linarith
  have hδ0 : 0 ≤ δ := by
    rw [hδ]
    positivity
  exact weights_near hr hn h hrange hδ0 hδ1 hscore hS hE hE1 (by norm_num; linarith) hps

/-- The lines of the map of four corners and the middle are at -2, 2 and so on. -/
theorem corner_lines (cells : List Cell) {p : Point} (hx : |p.x| ≤ 1) (hy : |p.y| ≤ 1) : Spec.ClearOfLines ⟨4, 6, 6, -10, -10, cells⟩ (5e-15 * 10) p := by
  have key : ∀ (x : ℝ) (k : ℤ), |x| ≤ 1 → 5e-15 * 10 ≤ |x - (-10 + k * 4)| := by
    intro x k hx
    have hx2 := abs_le.mp hx
    rcases le_or_gt k 2 with h | h
    · have : (k : ℝ) ≤ 2 := by exact_mod_cast h
      refine le_trans ?_ (le_abs_self _)
      norm_num
      linarith
    · have : (3 : ℝ) ≤ k := by exact_mod_cast h
      refine le_trans ?_ (neg_le_abs _)
      norm_num
      linarith
  exact fun k => ⟨key p.x k hx, key p.y k hy⟩

/-- The hypotheses of the theorems: the particles and the map of `corner_measure`. The particle at the robot has at least half of the weight. -/
example : ∃ mt r, addScans rnd Demo.cosR Demo.sinR eigenvalues (Demo.matcher 4 10) [Demo.scanOf cornersAndMiddle] = .ok mt ∧
    measure rnd Demo.cosR Demo.sinR mt [⟨0, 0⟩] [Pose2d.zero, ⟨1, 0, 0⟩] = .ok r ∧
    ∃ w₁ w₂ : ℝ, r.weights = [.fin w₁, .fin w₂] ∧ 0.49 ≤ w₁ := by
  obtain ⟨g, r, h1, hsz, h2, ⟨cells, hc⟩, h4, idx, e2⟩ := corner_measure
  have hz : Spec.move Pose2d.zero ⟨0, 0⟩ = ⟨0, 0⟩ := by simp [Spec.move, Pose2d.zero]
  have hz1 : Spec.move ⟨1, 0, 0⟩ ⟨0, 0⟩ = ⟨1, 0⟩ := by simp [Spec.move]
  have hsquare : Spec.squareAt g ⟨0, 0⟩ = 14 := by
    have h25 : ⌊(10 : ℝ) / 4⌋ = 2 := by
      rw [Int.floor_eq_iff]
      norm_num
    rw [hc]
    unfold Spec.squareAt
    simp only [zero_sub, neg_neg, h25]
    norm_num
  have f0 : Spec.normalSeen rnd Demo.cosR Demo.sinR g [Demo.scanOf cornersAndMiddle] [⟨0, 0⟩] 1 Pose2d.zero = 1 := by
    unfold Spec.normalSeen
    simp only [List.range_one, List.map_cons, List.map_nil, beam_single, hz]
    unfold Spec.normalOf
    have e14 : (14 : ℤ).toNat = 14 := rfl
    simp only [hsquare, e14, h4]
    rw [if_pos ⟨by norm_num, by simp [cornersAndMiddle]⟩]
    have e1 : Spec.avg (·.x) cornersAndMiddle = 0 := by norm_num [Spec.avg, cornersAndMiddle]
    have e2 : Spec.avg (·.y) cornersAndMiddle = 0 := by norm_num [Spec.avg, cornersAndMiddle]
    unfold Spec.normalAt Spec.gauss
    simp [e1, e2]
  obtain ⟨f1, f2⟩ := normalSeen_range (by norm_num) h2 [⟨0, 0⟩] 1 ⟨1, 0, 0⟩
  have em : min (Demo.matcher 4 10).laserMaxBeams [(⟨0, 0⟩ : Point)].length = 1 := by simp [Demo.matcher]
  have hS : 1 ≤ ([Pose2d.zero, ⟨1, 0, 0⟩].map (Spec.normalSeen rnd Demo.cosR Demo.sinR g [Demo.scanOf cornersAndMiddle] [⟨0, 0⟩] 1)).sum ∧
      ([Pose2d.zero, ⟨1, 0, 0⟩].map (Spec.normalSeen rnd Demo.cosR Demo.sinR g [Demo.scanOf cornersAndMiddle] [⟨0, 0⟩] 1)).sum ≤ 2 := by
    simp only [List.map_cons, List.map_nil, List.sum_cons, List.sum_nil, f0, add_zero]
    constructor <;> linarith
  have hE : ∀ S : ℝ, 1 ≤ S → 3 * (((2 : ℕ) : ℝ) * (1e-8 + 4e-16 * ((1 : ℕ) : ℝ) + 6.2e-15 * (4 * 10 / 1) + 2e-16 * ((2 : ℕ) : ℝ)) / S) ≤ 0.01 := by
    intro S hS
    have : ((2 : ℕ) : ℝ) * (1e-8 + 4e-16 * ((1 : ℕ) : ℝ) + 6.2e-15 * (4 * 10 / 1) + 2e-16 * ((2 : ℕ) : ℝ)) / S ≤ 0.001 := by
      rw [div_le_iff₀ (by linarith)]
      norm_num
      linarith
    norm_num at this ⊢
    linarith
  have hcl : ∀ a ∈ [Pose2d.zero, (⟨1, 0, 0⟩ : Pose2d)], ∀ p ∈ [(⟨0, 0⟩ : Point)], Spec.ClearOfLines g (5e-15 * 10) (Spec.move a p) := by
    intro a ha p hp
    rw [List.mem_singleton.mp hp, hc]
    simp only [List.mem_cons, List.not_mem_nil, or_false] at ha
    rcases ha with rfl | rfl
    · rw [hz]
      exact corner_lines _ (by norm_num) (by norm_num)
    · rw [hz1]
      exact corner_lines _ (by norm_num) (by norm_num)
  obtain ⟨⟨w, w1, w2, -⟩, -⟩ := c154_weights_near rnd_rounds accurate_demo (by norm_num) (by norm_num) le_rfl eigenvalues_within h1 rfl (by norm_num [Demo.matcher])
    (by norm_num [Demo.matcher]) (by norm_num [Demo.matcher]) hsz (by norm_num) (by norm_num) h2 (P := 10) (by norm_num) (by norm_num [Demo.matcher])
    (by rw [hc]; norm_num) (by rw [hc]; norm_num) (by simp) (by simp) (by simp) (by norm_num [Demo.matcher]) (by simp) (by
      intro a ha
      simp only [List.mem_cons, List.not_mem_nil, or_false] at ha
      rcases ha with rfl | rfl <;> norm_num [Pose2d.zero]) hcl e2
    (f := Spec.normalSeen rnd Demo.cosR Demo.sinR g [Demo.scanOf cornersAndMiddle] [⟨0, 0⟩] 1) (δ := 1e-8 + 4e-16 * ((1 : ℕ) : ℝ) + 6.2e-15 * (4 * 10 / 1))
    (congrArg (Spec.normalSeen rnd Demo.cosR Demo.sinR g [Demo.scanOf cornersAndMiddle] [⟨0, 0⟩]) em.symm)
    (congrArg (fun k : ℕ => 1e-8 + 4e-16 * (k : ℝ) + 6.2e-15 * (4 * 10 / 1)) em.symm) (by norm_num) (by linarith [hS.1]) rfl (hE _ hS.1)
  refine ⟨_, r, h1, e2, w Pose2d.zero, w ⟨1, 0, 0⟩, w1, ?_⟩
  have h5 := (abs_le.mp ((w2 Pose2d.zero (by simp)).trans (hE _ hS.1))).1
  have h6 : 1 / 2 ≤ Spec.shareOf (Spec.normalSeen rnd Demo.cosR Demo.sinR g [Demo.scanOf cornersAndMiddle] [⟨0, 0⟩] 1) [Pose2d.zero, ⟨1, 0, 0⟩] Pose2d.zero := by
    unfold Spec.shareOf
    rw [f0]
    exact one_div_le_one_div_of_le (by linarith [hS.1]) hS.2
  norm_num at h5 h6 ⊢
  linarith

end Ndt
