import Verif.Proof.RoundedOffsets
import Verif.Props.RoundedSquaresProps
import Verif.Props.RoundedBestProps

/-! # Property C155: the offset that is chosen in double precision is nearly the best one in exact arithmetic -/

namespace Ndt

open Rounded

/-- **C155** A beam that is turned and shifted to an offset in double precision is where it should be, up to `5e-15` of the largest coordinate. -/
theorem c155_beam_near {rd co si : ℝ → ℝ} (hr : Spec.RoundsToNearest rd) (hcs : Spec.Accurate co si) {P : ℝ} (hP : 1 ≤ P) {pose o : Pose2d} {points : List Point}
    {m : ℕ} (hx : |pose.x| ≤ P) (hy : |pose.y| ≤ P) (hθ : |pose.theta| ≤ 4) (ox : |o.x| ≤ P) (oy : |o.y| ≤ P) (oθ : |o.theta| ≤ 4)
    (hpts : ∀ p ∈ points, |p.x| ≤ P ∧ |p.y| ≤ P) {outer : List Point} (h : outerPoints rd co si points m pose o.theta = .ok outer) :
    ∀ q ∈ outer, ∃ p ∈ points, |rd (q.x + o.x) - (Spec.move (Spec.offBy pose o) p).x| ≤ 5e-15 * P ∧
      |rd (q.y + o.y) - (Spec.move (Spec.offBy pose o) p).y| ≤ 5e-15 * P := by
  intro q hq
  unfold outerPoints at h
  obtain ⟨i, -, hi⟩ := mapM_mem h q hq
  cases hb : beam rd points m i with
  | error e => rw [hb] at hi; cases hi
  | ok p =>
    rw [hb] at hi
    cases hi
    have hp := beam_mem hb
    exact ⟨p, hp, (beamAt_near hr hcs hP hx hy hθ ox oy oθ (hpts p hp).1 (hpts p hp).2).1⟩

/-- **C155** C152 with positions in exact arithmetic: summed over the beams, the normal distributions of the squares at the exact positions of the beams are
at no other offset of the search larger by more than twice `m (K + 1.6e-14 c P / s + 2e-16 m)`. No beam may be within `1.25e-14 P` of a line
between squares. -/
theorem c155_nearly_best {rd co si : ℝ → ℝ} (hr : Spec.RoundsToNearest rd) (hcs : Spec.Accurate co si) {B s τ K P : ℝ} (hB : B ≤ 1e6) (hs : 1e-12 ≤ s)
    {es : Mat2 ℝ → ℝ × ℝ} (hτ : 0 ≤ τ) (he : Spec.SolverWithin τ es) {mt mt' : Matcher} {scans : List Scan}
    (hm : addScans rd co si es mt scans = .ok mt') {g : NdtGrid} (hg : mt'.ndt = some g) (hc0 : 0 < mt.resolution) (hcB : mt.resolution ≤ B)
    (hsc : s ≤ mt.resolution * mt.resolution) (hsz : g.sizeX * g.sizeY ≤ 2 ^ 31) (hK0 : 0 ≤ K) (hK : K ≤ 0.02)
    (hsq : Spec.SquaresWithin rd co si g scans B s τ K) (hP : 1 ≤ P) (hPc : 18 * P ≤ 2 ^ 31 * mt.resolution) (hox : |g.originX| ≤ 7 * P) (hoy : |g.originY| ≤ 7 * P)
    {scan : Scan} (hp : scan.points.length ≤ 2 ^ 40) (hpts : ∀ p ∈ scan.points, |p.x| ≤ P ∧ |p.y| ≤ P) (hx : |scan.pose.x| ≤ P) (hy : |scan.pose.y| ≤ P)
    (hθ : |scan.pose.theta| ≤ 4) (hw : Spec.WindowWithin P mt')
    (hl : ∀ i j k, Spec.Tried rd mt' i j k → ∀ p ∈ scan.points, Spec.ClearOfLines g (1.25e-14 * P) (Spec.move (Spec.offBy scan.pose (Spec.offsetOf rd mt' i j k)) p))
    {pose : Pose2d} {cov : Mat3F} {r : Matcher.MatchResult} (h : matchScan rd co si mt' scan pose cov = .ok r) :
    let m := min mt'.laserMaxBeams scan.points.length
    let exact := fun i j k => Spec.normalsSeen rd co si g scans scan.points m (Spec.offBy scan.pose (Spec.offsetOf rd mt' i j k))
    let L := 1.6e-14 * (mt.resolution * P / s)
    (r.pose = pose ∧ ∀ i j k, Spec.Tried rd mt' i j k → exact i j k ≤ m * (K + L + 2e-16 * m)) ∨
      ∃ i j k x, Spec.Tried rd mt' i j k ∧ r.pose = Spec.offsetOf rd mt' i j k ∧ r.score = .fin x ∧ |x + exact i j k / m| ≤ K + L + 4e-16 * m ∧
        ∀ i' j' k', Spec.Tried rd mt' i' j' k' → exact i' j' k' ≤ exact i j k + 2 * (m * (K + L + 2e-16 * m)) := by
  intro m exact L
  have hs0 : 0 < s := lt_of_lt_of_le (by norm_num) hs
  have hL : 0 ≤ L := by positivity
  have near : ∀ i j k, Spec.Tried rd mt' i j k →
      |Spec.normalSum rd co si g scans scan.points m scan.pose (Spec.offsetOf rd mt' i j k) - exact i j k| ≤ m * L := by
    intro i j k ht
    obtain ⟨o1, o2, o3⟩ := offset_within hr hw ht
    refine normalsSeen_near ?_ fun p hp => normalOf_beamAt hr hcs hs hm hg hc0 hsc hsz hsq hP hPc hox hoy hx hy hθ o1 o2 o3 (hpts p hp).1 (hpts p hp).2 (hl i j k ht p hp)
    obtain ⟨v, hv⟩ := (c128_best_of_the_offsets hg h).1 i j k ht
    simp only [Spec.likelihoodAt] at hv
    change (outerPoints rd co si scan.points m scan.pose (Spec.offsetOf rd mt' i j k).theta >>= fun outer => _) = _ at hv
    cases ho : outerPoints rd co si scan.points m scan.pose (Spec.offsetOf rd mt' i j k).theta with
    | error e => rw [ho] at hv; cases hv
    | ok outer => exact ⟨outer, rfl⟩
  have hmL : (m : ℝ) * (K + L + 2e-16 * m) = m * (K + 2e-16 * m) + m * L := by ring
  rw [hmL]
  rcases c152_nearly_best hr hB hs hτ he hm hg hc0 hcB hsc hsz hK0 hK hsq hp h with ⟨h1, h2⟩ | ⟨i, j, k, x, ht, h1, h2, h3, h4⟩
  · refine Or.inl ⟨h1, fun i j k ht => ?_⟩
    have a1 := (abs_le.mp (near i j k ht)).1
    have a2 := h2 i j k ht
    linarith
  · refine Or.inr ⟨i, j, k, x, ht, h1, h2, ?_, fun i' j' k' ht' => ?_⟩
    · have a1 := near i j k ht
      have hm0 : (0 : ℝ) ≤ m := Nat.cast_nonneg _
      have a2 : |Spec.normalSum rd co si g scans scan.points m scan.pose (Spec.offsetOf rd mt' i j k) / m - exact i j k / m| ≤ L := by
        rcases hm0.eq_or_lt with h0 | h0
        · rw [← h0]
          simpa using hL
        · rw [← sub_div, abs_div, abs_of_pos h0, div_le_iff₀ h0]
          linarith
      have h3' : |x + Spec.normalSum rd co si g scans scan.points m scan.pose (Spec.offsetOf rd mt' i j k) / m| ≤ K + 4e-16 * m := h3
      rw [abs_le] at a2 h3' ⊢
      constructor <;> linarith
    · have a1 := (abs_le.mp (near i j k ht)).2
      have a2 := (abs_le.mp (near i' j' k' ht')).1
      have a3 := h4 i' j' k' ht'
      linarith

/-- **C155** An offset of the search that is better in exact arithmetic than every other one by more than the errors is the one that is chosen. -/
theorem c155_clear_winner {rd co si : ℝ → ℝ} (hr : Spec.RoundsToNearest rd) (hcs : Spec.Accurate co si) {B s τ K P : ℝ} (hB : B ≤ 1e6) (hs : 1e-12 ≤ s)
    {es : Mat2 ℝ → ℝ × ℝ} (hτ : 0 ≤ τ) (he : Spec.SolverWithin τ es) {mt mt' : Matcher} {scans : List Scan}
    (hm : addScans rd co si es mt scans = .ok mt') {g : NdtGrid} (hg : mt'.ndt = some g) (hc0 : 0 < mt.resolution) (hcB : mt.resolution ≤ B)
    (hsc : s ≤ mt.resolution * mt.resolution) (hsz : g.sizeX * g.sizeY ≤ 2 ^ 31) (hK0 : 0 ≤ K) (hK : K ≤ 0.02)
    (hsq : Spec.SquaresWithin rd co si g scans B s τ K) (hP : 1 ≤ P) (hPc : 18 * P ≤ 2 ^ 31 * mt.resolution) (hox : |g.originX| ≤ 7 * P) (hoy : |g.originY| ≤ 7 * P)
    {scan : Scan} (hp : scan.points.length ≤ 2 ^ 40) (hpts : ∀ p ∈ scan.points, |p.x| ≤ P ∧ |p.y| ≤ P) (hx : |scan.pose.x| ≤ P) (hy : |scan.pose.y| ≤ P)
    (hθ : |scan.pose.theta| ≤ 4) (hw : Spec.WindowWithin P mt')
    (hl : ∀ i j k, Spec.Tried rd mt' i j k → ∀ p ∈ scan.points, Spec.ClearOfLines g (1.25e-14 * P) (Spec.move (Spec.offBy scan.pose (Spec.offsetOf rd mt' i j k)) p))
    {pose : Pose2d} {cov : Mat3F} {r : Matcher.MatchResult} (h : matchScan rd co si mt' scan pose cov = .ok r) {m : ℕ}
    (em : m = min mt'.laserMaxBeams scan.points.length) {i j k : ℕ} (ht : Spec.Tried rd mt' i j k)
    (hpos : m * (K + 1.6e-14 * (mt.resolution * P / s) + 2e-16 * m) <
      Spec.normalsSeen rd co si g scans scan.points m (Spec.offBy scan.pose (Spec.offsetOf rd mt' i j k)))
    (hbest : ∀ i' j' k', Spec.Tried rd mt' i' j' k' → (i', j', k') ≠ (i, j, k) →
      Spec.normalsSeen rd co si g scans scan.points m (Spec.offBy scan.pose (Spec.offsetOf rd mt' i' j' k')) +
        2 * (m * (K + 1.6e-14 * (mt.resolution * P / s) + 2e-16 * m)) <
      Spec.normalsSeen rd co si g scans scan.points m (Spec.offBy scan.pose (Spec.offsetOf rd mt' i j k))) :
    r.pose = Spec.offsetOf rd mt' i j k := by
  subst em
  rcases c155_nearly_best hr hcs hB hs hτ he hm hg hc0 hcB hsc hsz hK0 hK hsq hP hPc hox hoy hp hpts hx hy hθ hw hl h with ⟨-, h2⟩ | ⟨i', j', k', x, ht', h1, -, -, h2⟩
  · exact absurd (h2 i j k ht) (not_le.mpr hpos)
  · by_cases e : (i', j', k') = (i, j, k)
    · cases e
      exact h1
    · exact absurd (h2 i j k ht) (not_le.mpr (hbest i' j' k' ht' e))

/-- The lines of the map of four corners and the middle are far from its middle square. -/
theorem corner_lines_far (cells : List Cell) {p : Point} (hx : |p.x| ≤ 1) (hy : |p.y| ≤ 1) : Spec.ClearOfLines ⟨4, 6, 6, -10, -10, cells⟩ (1.25e-14 * 10) p := by
  have key : ∀ (x : ℝ) (k : ℤ), |x| ≤ 1 → 1.25e-14 * 10 ≤ |x - (-10 + k * 4)| := by
    intro x k hx
    have hx2 := abs_le.mp hx
    rcases le_or_gt k 2 with h | h
    · have : (k : ℝ) ≤ 2 := by exact_mod_cast h
      refine le_trans ?_ (le_abs_self _)
      norm_num
      linarith
    · have : (3 : ℝ) ≤ k := by exact_mod_cast h
      refine le_trans ?_ (neg_le_abs _)
      norm_num
      linarith
  exact fun k => ⟨key p.x k hx, key p.y k hy⟩

/-- The normal distribution of the four corners and the middle, near the middle. -/
theorem corner_normal {rd co si : ℝ → ℝ} {cells : List Cell} {scans : List Scan} (h : Spec.pointsIn rd co si ⟨4, 6, 6, -10, -10, cells⟩ scans 14 = cornersAndMiddle)
    {p : Point} (hx : |p.x| ≤ 1) (hy : |p.y| ≤ 1) : 0.2 ≤ Spec.normalOf rd co si ⟨4, 6, 6, -10, -10, cells⟩ scans p := by
  have fl : ∀ x : ℝ, |x| ≤ 1 → ⌊(x - -10) / 4⌋ = 2 := by
    intro x hx
    have := abs_le.mp hx
    rw [Int.floor_eq_iff]
    constructor
    · rw [le_div_iff₀ (by norm_num)]
      norm_num
      linarith
    · rw [div_lt_iff₀ (by norm_num)]
      norm_num
      linarith
  have hsquare : Spec.squareAt ⟨4, 6, 6, -10, -10, cells⟩ p = 14 := by
    unfold Spec.squareAt
    simp only [fl p.x hx, fl p.y hy]
    norm_num
  unfold Spec.normalOf
  have e14 : (14 : ℤ).toNat = 14 := rfl
  simp only [hsquare, e14, h]
  rw [if_pos ⟨by norm_num, by simp [cornersAndMiddle]⟩]
  have c1 : Spec.sampleCov (·.x) (·.x) cornersAndMiddle = 1 := by norm_num [Spec.sampleCov, Spec.avg, cornersAndMiddle]
  have c2 : Spec.sampleCov (·.x) (·.y) cornersAndMiddle = 0 := by norm_num [Spec.sampleCov, Spec.avg, cornersAndMiddle]
  have c3 : Spec.sampleCov (·.y) (·.y) cornersAndMiddle = 1 := by norm_num [Spec.sampleCov, Spec.avg, cornersAndMiddle]
  have e1 : Spec.avg (·.x) cornersAndMiddle = 0 := by norm_num [Spec.avg, cornersAndMiddle]
  have e2 : Spec.avg (·.y) cornersAndMiddle = 0 := by norm_num [Spec.avg, cornersAndMiddle]
  have h2 : (0.2 : ℝ) ≤ Real.exp (-1) := by
    have h3 := Real.add_one_le_exp (-(1 / 2) : ℝ)
    have h4 : Real.exp (-1) = Real.exp (-(1 / 2)) * Real.exp (-(1 / 2)) := by
      rw [← Real.exp_add]
      norm_num
    rw [h4]
    norm_num at h3 ⊢
    nlinarith
  refine h2.trans ?_
  unfold Spec.normalAt Spec.gauss Spec.limitedDet Spec.eigMin Spec.eigMax
  rw [c1, c2, c3, e1, e2]
  apply Real.exp_le_exp.mpr
  have a1 := (sq_le_one_iff_abs_le_one _).mpr hx
  have a2 := (sq_le_one_iff_abs_le_one _).mpr hy
  norm_num
  nlinarith

/-- The hypotheses of the theorems: a point matched with the map of four corners and the middle. -/
example : ∃ mt r, matchScan rnd Demo.cosR Demo.sinR mt (Demo.scanOf [⟨0.5, 0.5⟩]) Pose2d.zero (fun _ _ => .fin 0) = .ok r ∧
    Spec.Tried rnd mt 0 0 0 ∧ r.pose = Spec.offsetOf rnd mt 0 0 0 := by
  obtain ⟨g, r, h1, hsz, h2, h3⟩ := corner_squares
  obtain ⟨g', r', h1', -, -, ⟨cells, hc⟩, h4, -⟩ := corner_measure
  rw [h1] at h1'
  cases h1'
  have h0 : Visits rnd Demo.tiny (2 * Demo.tiny) 0 := by
    intro i hi
    have : i = 0 := by omega
    subst this
    show -Demo.tiny < Demo.tiny
    linarith [Demo.tiny_pos]
  have only : ∀ n, Visits rnd Demo.tiny (2 * Demo.tiny) n → n = 0 := by
    intro n hn
    by_contra hne
    have h1 := hn 1 (by omega)
    simp only [searchVal] at h1
    have e : -Demo.tiny + 2 * Demo.tiny = Demo.tiny := by ring
    rw [e, rnd_rounds.exact Demo.isDouble_tiny] at h1
    exact lt_irrefl _ h1
  have t0 := Demo.tiny_pos
  have t1 : Demo.tiny ≤ 0.1 := by norm_num [Demo.tiny]
  have ht : Spec.Tried rnd { Demo.matcher 4 10 with ndt := some g } 0 0 0 := ⟨h0, h0, h0⟩
  have hpos : |(Spec.move (Spec.offBy Pose2d.zero ⟨-Demo.tiny, -Demo.tiny, -Demo.tiny⟩) ⟨0.5, 0.5⟩).x| ≤ 1 ∧
      |(Spec.move (Spec.offBy Pose2d.zero ⟨-Demo.tiny, -Demo.tiny, -Demo.tiny⟩) ⟨0.5, 0.5⟩).y| ≤ 1 := by
    have a1 := abs_le.mp (Real.abs_cos_le_one (0 + -Demo.tiny))
    have a2 : |Real.sin (0 + -Demo.tiny)| ≤ Demo.tiny := Real.abs_sin_le_abs.trans (by rw [zero_add, abs_neg, abs_of_pos t0])
    have a3 := abs_le.mp a2
    simp only [Spec.move, Spec.offBy, Pose2d.zero]
    norm_num at t1
    constructor <;> rw [abs_le] <;> constructor <;> norm_num at a1 a3 ⊢ <;> linarith
  have hlines : ∀ i j k, Spec.Tried rnd { Demo.matcher 4 10 with ndt := some g } i j k → ∀ p ∈ (Demo.scanOf [⟨0.5, 0.5⟩]).points,
      Spec.ClearOfLines g (1.25e-14 * 10) (Spec.move (Spec.offBy Pose2d.zero (Spec.offsetOf rnd { Demo.matcher 4 10 with ndt := some g } i j k)) p) := by
    rintro i j k ⟨t1, t2, t3⟩ p hp
    cases only i t1
    cases only j t2
    cases only k t3
    simp only [Demo.scanOf, List.mem_singleton] at hp
    subst hp
    rw [hc]
    exact corner_lines_far _ hpos.1 hpos.2
  have hw : Spec.WindowWithin 10 { Demo.matcher 4 10 with ndt := some g } :=
    ⟨Demo.isDouble_tiny, Demo.isDouble_tiny, by show 0 ≤ 2 * Demo.tiny; linarith, by show 0 ≤ 2 * Demo.tiny; linarith,
      by show Demo.tiny ≤ 10; norm_num at t1; linarith, by show Demo.tiny ≤ 4; norm_num at t1; linarith⟩
  have em : min (Demo.matcher 4 10).laserMaxBeams (Demo.scanOf [⟨0.5, 0.5⟩]).points.length = 1 := by simp [Demo.matcher, Demo.scanOf]
  refine ⟨_, r, h3, ht, c155_clear_winner rnd_rounds accurate_demo (by norm_num) (by norm_num) le_rfl eigenvalues_within h1 rfl (by norm_num [Demo.matcher])
    (by norm_num [Demo.matcher]) (by norm_num [Demo.matcher]) hsz (by norm_num) (by norm_num) h2 (P := 10) (by norm_num) (by norm_num [Demo.matcher])
    (by rw [hc]; norm_num) (by rw [hc]; norm_num) (by simp [Demo.scanOf]) (by
      intro p hp
      simp only [Demo.scanOf, List.mem_singleton] at hp
      subst hp
      norm_num [abs_le]) (by simp [Demo.scanOf, Scan.new, Pose2d.zero]) (by simp [Demo.scanOf, Scan.new, Pose2d.zero]) (by simp [Demo.scanOf, Scan.new, Pose2d.zero]) hw hlines h3 (m := 1) em.symm ht ?_ ?_⟩
  · have e : Spec.normalsSeen rnd Demo.cosR Demo.sinR g [Demo.scanOf cornersAndMiddle] [⟨0.5, 0.5⟩] 1
        (Spec.offBy Pose2d.zero ⟨-Demo.tiny, -Demo.tiny, -Demo.tiny⟩) =
        Spec.normalOf rnd Demo.cosR Demo.sinR g [Demo.scanOf cornersAndMiddle] (Spec.move (Spec.offBy Pose2d.zero ⟨-Demo.tiny, -Demo.tiny, -Demo.tiny⟩) ⟨0.5, 0.5⟩) := by
      unfold Spec.normalsSeen
      simp only [List.range_one, List.map_cons, List.map_nil, beam_single, List.sum_cons, List.sum_nil, add_zero]
    show ((1 : ℕ) : ℝ) * (1e-8 + 1.6e-14 * (4 * 10 / 1) + 2e-16 * ((1 : ℕ) : ℝ)) < Spec.normalsSeen rnd Demo.cosR Demo.sinR g [Demo.scanOf cornersAndMiddle] [⟨0.5, 0.5⟩] 1
        (Spec.offBy Pose2d.zero ⟨-Demo.tiny, -Demo.tiny, -Demo.tiny⟩)
    rw [e]
    rw [hc] at h4 ⊢
    refine lt_of_lt_of_le ?_ (corner_normal h4 hpos.1 hpos.2)
    norm_num
  · rintro i j k ⟨t1, t2, t3⟩ hne
    cases only i t1
    cases only j t2
    cases only k t3
    exact absurd rfl hne

end Ndt
