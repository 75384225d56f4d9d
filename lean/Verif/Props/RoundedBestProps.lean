import Verif.Props.RoundedGaussProps

/-! # Property C152: the offset that is chosen in double precision -/

namespace Ndt

open Rounded

/-- **C152** The offset that `matchScan` chooses in double precision is the best one up to the errors of the scores: summed over the beams, the
normal distributions of the squares, in exact arithmetic, are at no other offset larger by more than twice `m (K + 2e-16 m)`, where `K`
is the error of one likelihood (C151) and `m` the number of beams. The score that is returned is minus their mean, up to `K + 4e-16 m`.
If the caller's pose stays, no offset has a sum of more than `m (K + 2e-16 m)`. -/
theorem c152_nearly_best {rd co si : ℝ → ℝ} (hr : Spec.RoundsToNearest rd) {B s τ K : ℝ} (hB : B ≤ 1e6) (hs : 1e-12 ≤ s)
    {es : Mat2 ℝ → ℝ × ℝ} (hτ : 0 ≤ τ) (he : Spec.SolverWithin τ es) {mt mt' : Matcher} {scans : List Scan}
    (hm : addScans rd co si es mt scans = .ok mt') {g : NdtGrid} (hg : mt'.ndt = some g) (hc0 : 0 < mt.resolution) (hcB : mt.resolution ≤ B)
    (hsc : s ≤ mt.resolution * mt.resolution) (hsz : g.sizeX * g.sizeY ≤ 2 ^ 31) (hK0 : 0 ≤ K) (hK : K ≤ 0.02)
    (hsq : Spec.SquaresWithin rd co si g scans B s τ K) {scan : Scan} (hp : scan.points.length ≤ 2 ^ 40) {pose : Pose2d} {cov : Mat3F}
    {r : Matcher.MatchResult} (h : matchScan rd co si mt' scan pose cov = .ok r) :
    let m := min mt'.laserMaxBeams scan.points.length
    let exact := fun i j k => Spec.normalSum rd co si g scans scan.points m scan.pose (Spec.offsetOf rd mt' i j k)
    (r.pose = pose ∧ ∀ i j k, Spec.Tried rd mt' i j k → exact i j k ≤ m * (K + 2e-16 * m)) ∨
      ∃ i j k x, Spec.Tried rd mt' i j k ∧ r.pose = Spec.offsetOf rd mt' i j k ∧ r.score = .fin x ∧ |x + exact i j k / m| ≤ K + 4e-16 * m ∧
        ∀ i' j' k', Spec.Tried rd mt' i' j' k' → exact i' j' k' ≤ exact i j k + 2 * (m * (K + 2e-16 * m)) := by
  intro m exact
  have hs0 : 0 < s := lt_of_lt_of_le (by norm_num) hs
  have hm40 : m ≤ 2 ^ 40 := (min_le_right _ _).trans hp
  have near : ∀ i j k v, Spec.likelihoodAt rd co si g scan.points m scan.pose (Spec.offsetOf rd mt' i j k) = .ok v →
      ∃ x, v = .fin x ∧ |x - exact i j k| ≤ m * (K + 2e-16 * m) := fun i j k v hv =>
    likelihoodAt_near hr (normalIn_range hs0 hsq) hK0 hK (fun p v h => likelihood_near hr hB hs hτ he hm hg hcB hsc hc0 hsz hK0 hK hsq h) hm40 hv
  have hmR : (m : ℝ) ≤ 2 ^ 40 := by exact_mod_cast hm40
  obtain ⟨hall, hb⟩ := c128_best_of_the_offsets hg h
  rcases hb with ⟨h1, -, h3⟩ | ⟨i, j, k, v, ht, h1, h2, h3, h4, h5⟩
  · refine Or.inl ⟨h1, fun i j k ht => ?_⟩
    obtain ⟨v, hv⟩ := hall i j k ht
    obtain ⟨x, rfl, hx⟩ := near i j k v hv
    have : ¬ (0 < x) := h3 i j k _ ht hv
    linarith [(abs_le.mp hx).1]
  · right
    obtain ⟨x, rfl, hx⟩ := near i j k v h2
    have hx0 : 0 < x := h3
    have hrange : 0 ≤ exact i j k ∧ exact i j k ≤ m := normalSum_range (normalIn_range hs0 hsq) _ _ _ _
    have hm1 : 1 ≤ m := by
      by_contra hh
      have h0 : (m : ℝ) = 0 := by
        have : m = 0 := by omega
        exact_mod_cast this
      rw [h0, zero_mul] at hx
      rw [h0] at hrange
      linarith [(abs_le.mp hx).2]
    have hmR1 : (1 : ℝ) ≤ m := by exact_mod_cast hm1
    have hmd : rd m = m := hr.exact (isDouble_nat (by omega))
    refine ⟨i, j, k, rd (-x / m), ht, h1, ?_, ?_, fun i' j' k' ht' => ?_⟩
    · rw [h4]
      show Fl.rounded rd (-Fl.fin x / Fl.fin (rd m)) = _
      rw [hmd, Fl.fin_neg, Fl.fin_div (by linarith), Fl.rounded_fin]
    · have hm0 : (0 : ℝ) < m := by linarith
      have hKm : K + 2e-16 * m ≤ 0.03 := by
        have aux : ∀ z : ℝ, z ≤ 2 ^ 40 → K + 2e-16 * z ≤ 0.03 := by
          intro z hz
          norm_num at hz hK ⊢
          linarith
        exact aux m hmR
      have e1 : |x / m - exact i j k / m| ≤ K + 2e-16 * m := by
        rw [← sub_div, abs_div, abs_of_pos hm0, div_le_iff₀ hm0]
        linarith
      have e2 : 0 ≤ exact i j k / m ∧ exact i j k / m ≤ 1 := ⟨div_nonneg hrange.1 hm0.le, (div_le_one hm0).mpr hrange.2⟩
      have e3 : -x / m = -(x / m) := neg_div _ _
      rw [e3]
      generalize x / m = q at *
      generalize exact i j k / m = e at *
      have hq : |-q| ≤ 1.05 := by
        rw [abs_le] at e1 ⊢
        norm_num at e1 hKm ⊢
        constructor <;> linarith
      have e4 := rd_far hr hq (by norm_num)
      rw [abs_le] at e1 e4 ⊢
      norm_num at e1 e4 ⊢
      constructor <;> linarith
    · obtain ⟨v', hv'⟩ := hall i' j' k' ht'
      obtain ⟨x', rfl, hx'⟩ := near i' j' k' v' hv'
      have : ¬ (x < x') := (h5 i' j' k' _ ht' hv').1
      linarith [(abs_le.mp hx').1, (abs_le.mp hx).2]

/-- **C152** So an offset that is better than all others by more than that is the one that is chosen. -/
theorem c152_clear_winner {rd co si : ℝ → ℝ} (hr : Spec.RoundsToNearest rd) {B s τ K : ℝ} (hB : B ≤ 1e6) (hs : 1e-12 ≤ s)
    {es : Mat2 ℝ → ℝ × ℝ} (hτ : 0 ≤ τ) (he : Spec.SolverWithin τ es) {mt mt' : Matcher} {scans : List Scan}
    (hm : addScans rd co si es mt scans = .ok mt') {g : NdtGrid} (hg : mt'.ndt = some g) (hc0 : 0 < mt.resolution) (hcB : mt.resolution ≤ B)
    (hsc : s ≤ mt.resolution * mt.resolution) (hsz : g.sizeX * g.sizeY ≤ 2 ^ 31) (hK0 : 0 ≤ K) (hK : K ≤ 0.02)
    (hsq : Spec.SquaresWithin rd co si g scans B s τ K) {scan : Scan} (hp : scan.points.length ≤ 2 ^ 40) {pose : Pose2d} {cov : Mat3F}
    {r : Matcher.MatchResult} (h : matchScan rd co si mt' scan pose cov = .ok r) {i j k : ℕ} (ht : Spec.Tried rd mt' i j k)
    (hpos : (min mt'.laserMaxBeams scan.points.length : ℕ) * (K + 2e-16 * (min mt'.laserMaxBeams scan.points.length : ℕ)) <
      Spec.normalSum rd co si g scans scan.points (min mt'.laserMaxBeams scan.points.length) scan.pose (Spec.offsetOf rd mt' i j k))
    (hbest : ∀ i' j' k', Spec.Tried rd mt' i' j' k' → (i', j', k') ≠ (i, j, k) →
      Spec.normalSum rd co si g scans scan.points (min mt'.laserMaxBeams scan.points.length) scan.pose (Spec.offsetOf rd mt' i' j' k') +
        2 * ((min mt'.laserMaxBeams scan.points.length : ℕ) * (K + 2e-16 * (min mt'.laserMaxBeams scan.points.length : ℕ))) <
      Spec.normalSum rd co si g scans scan.points (min mt'.laserMaxBeams scan.points.length) scan.pose (Spec.offsetOf rd mt' i j k)) :
    r.pose = Spec.offsetOf rd mt' i j k := by
  rcases c152_nearly_best hr hB hs hτ he hm hg hc0 hcB hsc hsz hK0 hK hsq hp h with ⟨-, h2⟩ | ⟨i', j', k', x, ht', h1, -, -, h2⟩
  · exact absurd (h2 i j k ht) (not_le.mpr hpos)
  · by_cases e : (i', j', k') = (i, j, k)
    · cases e
      exact h1
    · exact absurd (h2 i j k ht) (not_le.mpr (hbest i' j' k' ht' e))

/-- The hypotheses of both theorems: a point matched with the map of four corners and the middle. -/
example : ∃ mt r, matchScan rnd Demo.cosR Demo.sinR mt (Demo.scanOf [⟨0.5, 0.5⟩]) Pose2d.zero (fun _ _ => .fin 0) = .ok r ∧
    Spec.Tried rnd mt 0 0 0 ∧ r.pose = Spec.offsetOf rnd mt 0 0 0 := by
  obtain ⟨g, r, h1, hsz, h2, h3⟩ := corner_squares
  obtain ⟨g', h1', ⟨cells, hc⟩, hcell, -, -, idx⟩ := corner_map
  rw [h1] at h1'
  cases h1'
  have h0 : Visits rnd Demo.tiny (2 * Demo.tiny) 0 := by
    intro i hi
    have : i = 0 := by omega
    subst this
    show -Demo.tiny < Demo.tiny
    linarith [Demo.tiny_pos]
  have only : ∀ n, Visits rnd Demo.tiny (2 * Demo.tiny) n → n = 0 := by
    intro n hn
    by_contra hne
    have h1 := hn 1 (by omega)
    simp only [searchVal] at h1
    have e : -Demo.tiny + 2 * Demo.tiny = Demo.tiny := by ring
    rw [e, rnd_rounds.exact Demo.isDouble_tiny] at h1
    exact lt_irrefl _ h1
  have ht : Spec.Tried rnd { Demo.matcher 4 10 with ndt := some g } 0 0 0 := ⟨h0, h0, h0⟩
  refine ⟨_, r, h3, ht, c152_clear_winner rnd_rounds (by norm_num) (by norm_num) le_rfl eigenvalues_within h1 rfl (by norm_num [Demo.matcher]) (by norm_num [Demo.matcher])
      (by norm_num [Demo.matcher]) hsz (by norm_num) (by norm_num) h2
    (by simp [Demo.scanOf]) h3 ht ?_ ?_⟩
  · have hplain : Demo.Plain 0.5 := by
      refine ⟨?_, by norm_num [abs_of_pos], by norm_num [abs_of_pos]⟩
      have := Demo.isDouble_inv_pow (n := 1) (by norm_num)
      norm_num at this ⊢
      exact this
    obtain ⟨v, v1, v2⟩ := c151_score_near_anywhere rnd_rounds (B := 1) (s := 1) (τ := 0) (by norm_num) (by norm_num) cornersAndMiddle
      (by simp [cornersAndMiddle]) cornersAndMiddle_within cornersAndMiddle_spread le_rfl eigenvalues_within ⟨0.5, 0.5⟩ (by norm_num [abs_le])
      (by norm_num [abs_le]) (by norm_num [cornersAndMiddle])
    have hlik : likelihood rnd g ⟨0.5, 0.5⟩ = .ok (.fin v) := by
      unfold likelihood
      rw [hc] at hcell ⊢
      rw [idx 0.5 0.5 (by norm_num) (by norm_num) (by norm_num) (by norm_num)]
      simp only [Res.ok_bind]
      rw [if_pos (by positivity), Int.toNat_natCast, hcell]
      simp only [v1, Res.pure_eq]
    have e : Spec.normalAt cornersAndMiddle ⟨0.5, 0.5⟩ = Real.exp (-0.25) := by
      have c1 : Spec.sampleCov (·.x) (·.x) cornersAndMiddle = 1 := by norm_num [Spec.sampleCov, Spec.avg, cornersAndMiddle]
      have c2 : Spec.sampleCov (·.x) (·.y) cornersAndMiddle = 0 := by norm_num [Spec.sampleCov, Spec.avg, cornersAndMiddle]
      have c3 : Spec.sampleCov (·.y) (·.y) cornersAndMiddle = 1 := by norm_num [Spec.sampleCov, Spec.avg, cornersAndMiddle]
      have e1 : Spec.avg (·.x) cornersAndMiddle = 0 := by norm_num [Spec.avg, cornersAndMiddle]
      have e2 : Spec.avg (·.y) cornersAndMiddle = 0 := by norm_num [Spec.avg, cornersAndMiddle]
      unfold Spec.normalAt Spec.gauss Spec.limitedDet Spec.eigMin Spec.eigMax
      rw [c1, c2, c3, e1, e2]
      norm_num
    have hv : (7 : ℝ) / 10 ≤ v := by
      have h4 := Real.add_one_le_exp (-0.25 : ℝ)
      have h5 := (abs_le.mp v2).1
      rw [e] at h5
      norm_num [cornersAndMiddle] at h4 h5 ⊢
      linarith
    have hl := Demo.likelihoodAt_eq g (p := ⟨0.5, 0.5⟩) hplain hplain
    rw [hlik, Res.ok_bind, Fl.fin_add, zero_add, Fl.rounded_fin] at hl
    obtain ⟨x, hx, hx2⟩ := likelihoodAt_near rnd_rounds (normalIn_range (by norm_num) h2) (by norm_num) (by norm_num)
      (fun p v h => c151_likelihood_near rnd_rounds (by norm_num) (by norm_num) le_rfl eigenvalues_within h1 rfl (by norm_num [Demo.matcher]) (by norm_num [Demo.matcher])
      (by norm_num [Demo.matcher]) hsz (by norm_num) (by norm_num) h2 p v h)
      (m := 1) (by norm_num) (points := [⟨0.5, 0.5⟩]) (pose := Pose2d.zero) (o := ⟨-Demo.tiny, -Demo.tiny, -Demo.tiny⟩) hl
    cases hx
    have h7 : (1 : ℝ) / 2 ≤ rnd v := rnd_rounds.ge_of_ge (by have := hplain.1; norm_num at this ⊢; exact this) (by linarith)
    have h8 := (abs_le.mp hx2).2
    have em : min (Demo.matcher 4 10).laserMaxBeams (Demo.scanOf [⟨0.5, 0.5⟩]).points.length = 1 := by simp [Demo.matcher, Demo.scanOf]
    show ((min (Demo.matcher 4 10).laserMaxBeams (Demo.scanOf [⟨0.5, 0.5⟩]).points.length : ℕ) : ℝ) *
      (1e-8 + 2e-16 * (min (Demo.matcher 4 10).laserMaxBeams (Demo.scanOf [⟨0.5, 0.5⟩]).points.length : ℕ)) <
      Spec.normalSum rnd Demo.cosR Demo.sinR g [Demo.scanOf cornersAndMiddle] [⟨0.5, 0.5⟩]
        (min (Demo.matcher 4 10).laserMaxBeams (Demo.scanOf [⟨0.5, 0.5⟩]).points.length) Pose2d.zero ⟨-Demo.tiny, -Demo.tiny, -Demo.tiny⟩
    rw [em]
    generalize Spec.normalSum rnd _ _ _ _ _ _ _ _ = S at *
    norm_num at h7 h8 ⊢
    linarith
  · rintro i' j' k' ⟨t1, t2, t3⟩ hne
    exact absurd (by rw [only _ t1, only _ t2, only _ t3]) hne

end Ndt
