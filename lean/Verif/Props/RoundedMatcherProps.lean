import Verif.Proof.RoundedDemo
import Verif.Props.RoundedCellProps
import Verif.Props.RoundingProps
import Verif.Props.MapperProps

/-! # Property C128: matching in double precision -/

namespace Ndt

open Rounded Mapper

theorem Fl.neg_lt_neg' {v v' : Fl} (h : v < v') : -v' < -v := by
  cases v <;> cases v' <;> first | exact h | trivial | skip
  rename_i x y
  have hx : x < y := h
  exact (neg_lt_neg hx : -y < -x)

/-- **C128** Whatever the rounding and the accuracy of cosine and sine: `matchScan` returns the first of the offsets whose score, as it is
computed, no other offset exceeds, and that score divided by the number of beams. If no offset has a positive likelihood, the caller's
pose stays as it is and the score is zero (NaN for a scan without points). -/
theorem c128_best_of_the_offsets {rd co si : ℝ → ℝ} {mt : Matcher} {g : NdtGrid} (hg : mt.ndt = some g) {scan : Scan}
    {pose : Pose2d} {cov : Mat3F} {r : Matcher.MatchResult} (h : matchScan rd co si mt scan pose cov = .ok r) :
    let m := min mt.laserMaxBeams scan.points.length
    let lik := fun i j k => Spec.likelihoodAt rd co si g scan.points m scan.pose (Spec.offsetOf rd mt i j k)
    (∀ i j k, Spec.Tried rd mt i j k → ∃ v, lik i j k = .ok v) ∧
    ((r.pose = pose ∧ r.score = Fl.rounded rd (.fin 0 / .fin (rd m)) ∧
        ∀ i j k v, Spec.Tried rd mt i j k → lik i j k = .ok v → ¬ (.fin 0 < v)) ∨
      ∃ i j k v, Spec.Tried rd mt i j k ∧ r.pose = Spec.offsetOf rd mt i j k ∧ lik i j k = .ok v ∧ .fin 0 < v ∧
        r.score = Fl.rounded rd (-v / .fin (rd m)) ∧
        ∀ i' j' k' v', Spec.Tried rd mt i' j' k' → lik i' j' k' = .ok v' →
          ¬ (v < v') ∧ (Spec.Before (i', j', k') (i, j, k) → v' ≠ v)) := by
  intro m lik
  obtain ⟨a, hs, e1, e2⟩ := matchScan_ok hg h
  obtain ⟨hall, A, B, hA, hB, imp⟩ := search_improved hs
  have hmem : ∀ i j k, Spec.Tried rd mt i j k → (i, j, k) ∈ triples A B := by
    rintro i j k ⟨t1, t2, t3⟩
    have h1 := (hA i).mpr t1
    exact mem_triples.mpr ⟨h1, (hB (by omega) j).mpr t2, (hB (by omega) k).mpr t3⟩
  have hval : ∀ i j k v, lik i j k = .ok v →
      -valueOf (Spec.likelihoodAt rd co si g scan.points m scan.pose (Spec.offsetOf rd mt i j k)) = -v := by
    intro i j k v hv
    have : Spec.likelihoodAt rd co si g scan.points m scan.pose (Spec.offsetOf rd mt i j k) = .ok v := hv
    rw [this]
    rfl
  refine ⟨hall, ?_⟩
  rcases imp.src with ⟨s1, s2⟩ | ⟨s1, l1, ⟨i, j, k⟩, l2, hl, s2, s3, s4⟩
  · left
    refine ⟨e2.trans s2, by rw [e1, s1], fun i j k v ht hv hpos => ?_⟩
    have := imp.least _ (hmem i j k ht)
    rw [hval i j k v hv, s1] at this
    refine this ?_
    cases v with
    | nan => exact hpos
    | pinf => trivial
    | ninf => exact hpos
    | fin x =>
      have hx : (0 : ℝ) < x := hpos
      exact (neg_lt_zero.mpr hx : -x < 0)
  · right
    have ht : Spec.Tried rd mt i j k := by
      have hm : ((i, j, k) : ℕ × ℕ × ℕ) ∈ triples A B := by rw [hl]; simp
      obtain ⟨m1, m2, m3⟩ := mem_triples.mp hm
      exact ⟨(hA i).mp m1, (hB (by omega) j).mp m2, (hB (by omega) k).mp m3⟩
    obtain ⟨v, hv⟩ := hall i j k ht
    have s3' : a.best = -v := s3.trans (hval i j k v hv)
    refine ⟨i, j, k, v, ht, e2.trans s2, hv, ?_, by rw [e1, s3'], ?_⟩
    · rw [s3'] at s1
      cases v with
      | nan => exact s1
      | pinf => trivial
      | ninf => exact s1
      | fin x =>
        have hx : -x < 0 := s1
        exact (neg_lt_zero.mp hx : (0 : ℝ) < x)
    · intro i' j' k' v' ht' hv'
      constructor
      · intro hlt
        have := imp.least _ (hmem i' j' k' ht')
        rw [hval i' j' k' v' hv', s3'] at this
        refine this ?_
        exact Fl.neg_lt_neg' hlt
      · intro hb he
        have hm := hmem i' j' k' ht'
        have hp := triples_sorted A B
        rw [hl] at hm hp
        rcases List.mem_append.mp hm with hm | hm
        · refine s4 _ hm ?_
          rw [hval i' j' k' v' hv', he]
          exact (hval i j k v hv).symm
        · have hp2 := (List.pairwise_append.mp hp).2.1
          rcases List.mem_cons.mp hm with hm | hm
          · rw [hm] at hb
            exact before_asymm hb hb
          · exact before_asymm hb ((List.pairwise_cons.mp hp2).1 _ hm)

/-- **C128** The offset is within the window, exactly: from `-size` up to but without `size`. -/
theorem c128_within_the_window {rd co si : ℝ → ℝ} (hr : Spec.RoundsToNearest rd) {mt : Matcher} {g : NdtGrid} (hg : mt.ndt = some g)
    (hl : Spec.IsDouble mt.linearSize) (hl2 : 0 ≤ mt.linearRes) (ha : Spec.IsDouble mt.angularSize) (ha2 : 0 ≤ mt.angularRes)
    {scan : Scan} {pose : Pose2d} {cov : Mat3F} {r : Matcher.MatchResult} (h : matchScan rd co si mt scan pose cov = .ok r) :
    r.pose = pose ∨
      (-mt.linearSize ≤ r.pose.x ∧ r.pose.x < mt.linearSize ∧ -mt.linearSize ≤ r.pose.y ∧ r.pose.y < mt.linearSize ∧
        -mt.angularSize ≤ r.pose.theta ∧ r.pose.theta < mt.angularSize) := by
  rcases (c128_best_of_the_offsets hg h).2 with ⟨e, -⟩ | ⟨i, j, k, v, ⟨t1, t2, t3⟩, e, -⟩
  · exact Or.inl e
  · right
    rw [e]
    obtain ⟨a1, a2⟩ := c80_within_window hr ha ha2 t1
    obtain ⟨b1, b2⟩ := c80_within_window hr hl hl2 t2
    obtain ⟨c1, c2⟩ := c80_within_window hr hl hl2 t3
    exact ⟨b1, b2, c1, c2, a1, a2⟩

/-- **C128** (partial) The score is a number from -1 to 0, exactly, if in every square of the map with five points or more the points are
spread in every direction by a variance of at least `400 n` times `2^-53` of the square of the largest coordinate. Missing: squares
spread less, where the score can be infinite (`c128_score_can_be_infinite`). -/
theorem c128_score_in_range_partial {rd co si : ℝ → ℝ} (hr : Spec.RoundsToNearest rd) {es : Mat2 ℝ → ℝ × ℝ}
    (he : ∀ a b d, 0 < Spec.eigMax a b d → Spec.eigMax a b d / 2 ≤ max (es ⟨a, b, b, d⟩).1 (es ⟨a, b, b, d⟩).2)
    {mt mt' : Matcher} {scans : List Scan} (hm : addScans rd co si es mt scans = .ok mt') {g : NdtGrid} (hg : mt'.ndt = some g)
    (hres : 0 < mt.resolution) (hres2 : mt.resolution ≤ 2 ^ 30) (hox : |g.originX| ≤ 2 ^ 60) (hoy : |g.originY| ≤ 2 ^ 60)
    (B : ℝ) (hB : 2⁻¹ ^ 100 ≤ B) (hB2 : B ≤ 2 ^ 100)
    (hsq : ∀ i, 5 ≤ (Spec.pointsIn rd co si g scans i).length →
      (Spec.pointsIn rd co si g scans i).length ≤ 2 ^ 49 ∧ Spec.CoordsWithin B (Spec.pointsIn rd co si g scans i) ∧
      Spec.SpreadAtLeast (400 * ((Spec.pointsIn rd co si g scans i).length * 2⁻¹ ^ 53 * (B * B))) (Spec.pointsIn rd co si g scans i))
    {scan : Scan} (hp : scan.points ≠ []) (hp2 : scan.points.length < 2 ^ 53) (hb : 0 < mt.laserMaxBeams)
    {pose : Pose2d} {cov : Mat3F} {r : Matcher.MatchResult} (h : matchScan rd co si mt' scan pose cov = .ok r) :
    ∃ x, r.score = .fin x ∧ -1 ≤ x ∧ x ≤ 0 := by
  obtain ⟨g', e, gc, hcell⟩ := addScans_cells hm
  subst e
  cases Option.some.inj hg
  have hlik : ∀ p v, likelihood rd g p = .ok v → Upto 1 v := by
    refine likelihood_upto hr (by rw [gc]; exact hres) (by rw [gc]; exact hres2) hox hoy ?_
    intro i c hc p px py
    rw [hcell i c hc]
    rcases Nat.lt_or_ge (Spec.pointsIn rd co si g scans i).length 5 with hn | hn
    · have e : (cellOf rd es (Spec.pointsIn rd co si g scans i)).n = (Spec.pointsIn rd co si g scans i).length := by
        have e2 : (cellOf rd es (Spec.pointsIn rd co si g scans i)).n =
            ((Spec.pointsIn rd co si g scans i).foldl (addPoint rd) Cell.new).n := by
          unfold cellOf compute
          split <;> rfl
        rw [e2]
        exact fold_n hr _ (by omega)
      refine ⟨0, ?_, le_rfl, zero_le_one⟩
      unfold score
      rw [if_pos]
      rw [e]
      exact_mod_cast hn
    · obtain ⟨h1, h2, h3⟩ := hsq i hn
      exact c98_score_at_most_one_partial hr B hB hB2 _ h1 hn h2 h3 es he p px py
  have hpos : 0 < scan.points.length := List.length_pos_iff.mpr hp
  have hm0 : 0 < min mt.laserMaxBeams scan.points.length := lt_min hb hpos
  have hm1 : min mt.laserMaxBeams scan.points.length < 2 ^ 53 := lt_of_le_of_lt (min_le_right _ _) hp2
  have hmd : rd (min mt.laserMaxBeams scan.points.length : ℕ) = (min mt.laserMaxBeams scan.points.length : ℕ) :=
    hr.exact (isDouble_nat hm1)
  have hmr : (0 : ℝ) < (min mt.laserMaxBeams scan.points.length : ℕ) := by exact_mod_cast hm0
  rcases (c128_best_of_the_offsets rfl h).2 with ⟨-, e, -⟩ | ⟨i, j, k, v, -, -, hv, -, e, -⟩
  · refine ⟨0, ?_, by norm_num, le_rfl⟩
    rw [e, hmd, Fl.fin_div hmr.ne', Fl.rounded_fin, zero_div, hr.exact isDouble_zero]
  · obtain ⟨x, rfl, x0, x1⟩ := likelihoodAt_upto hr hlik hm1 hv
    refine ⟨rd (-x / (min mt.laserMaxBeams scan.points.length : ℕ)), ?_, ?_, ?_⟩
    · rw [e, hmd, Fl.fin_neg, Fl.fin_div hmr.ne', Fl.rounded_fin]
    · refine hr.ge_of_ge (isDouble_neg isDouble_one) ?_
      rw [le_div_iff₀ hmr]
      change x ≤ _ at x1
      linarith
    · exact hr.le_of_le isDouble_zero (div_nonpos_of_nonpos_of_nonneg (by linarith) hmr.le)

/-! ### A scan and a map -/

/-- Four corners and the middle of one square, seen from the origin. -/
theorem corner_map : ∃ g, addScans rnd Demo.cosR Demo.sinR eigenvalues (Demo.matcher 4 10) [Demo.scanOf cornersAndMiddle] =
      .ok { Demo.matcher 4 10 with ndt := some g } ∧ (∃ cells, g = ⟨4, 6, 6, -10, -10, cells⟩) ∧
      g.cells[14]? = some (cellOf rnd eigenvalues cornersAndMiddle) ∧
      (∀ j, j ≠ 14 → Spec.pointsIn rnd Demo.cosR Demo.sinR g [Demo.scanOf cornersAndMiddle] j = []) ∧
      Spec.pointsIn rnd Demo.cosR Demo.sinR g [Demo.scanOf cornersAndMiddle] 14 = cornersAndMiddle ∧
      ∀ x y : ℝ, -1 ≤ x → x ≤ 1 → -1 ≤ y → y ≤ 1 → ∀ cells, getIndex rnd ⟨4, 6, 6, -10, -10, cells⟩ x y = .ok ((14 : ℕ) : ℤ) := by
  have nat : ∀ n : ℕ, n < 2 ^ 53 → Spec.IsDouble n := fun n hn => isDouble_nat hn
  have col : ∀ x : ℝ, -1 ≤ x → x ≤ 1 → toU32F (Fl.rounded rnd (.fin (rnd (x - -10)) / .fin 4)) = .ok 2 := by
    intro x h1 h2
    refine Demo.axis_at (lo := (9 : ℕ)) (hi := (11 : ℕ)) (top := 11 / 4) (by norm_num) (nat 9 (by norm_num)) (nat 11 (by norm_num))
      ?_ ?_ ?_ ?_ ?_ ?_ (by norm_num)
    · have := isDouble_dyadic (k := 11) (e := -2) (by norm_num) (by norm_num)
      norm_num at this ⊢
      exact this
    all_goals norm_num
    all_goals linarith
  have idx : ∀ x y : ℝ, -1 ≤ x → x ≤ 1 → -1 ≤ y → y ≤ 1 → ∀ cells, getIndex rnd ⟨4, 6, 6, -10, -10, cells⟩ x y = .ok ((14 : ℕ) : ℤ) := by
    intro x y x1 x2 y1 y2 cells
    exact Demo.getIndex_at (by linarith) (by linarith) (col x x1 x2) (col y y1 y2) (by norm_num) (by norm_num) (by norm_num)
  have hgrid : mapGrid rnd 4 10 [Demo.scanOf cornersAndMiddle] = .ok ⟨4, 6, 6, -10, -10, List.replicate (6 * 6 % 2 ^ 64) Cell.new⟩ := by
    refine Demo.mapGrid_eq (q := 5) _ (by norm_num) (by norm_num) (by norm_num) ?_ ?_ (by norm_num) ?_ ?_ (by norm_num) (by norm_num)
      (by norm_num)
    · simpa using nat 10 (by norm_num)
    · have := nat 20 (by norm_num)
      norm_num at this ⊢
      exact this
    · simpa using nat 5 (by norm_num)
    · have := nat 6 (by norm_num)
      norm_num at this ⊢
      exact this
  have hd : ∀ p ∈ cornersAndMiddle, Spec.IsDouble p.x ∧ Spec.IsDouble p.y := by
    have h1 := isDouble_one
    have h2 := isDouble_neg isDouble_one
    intro p hp
    simp only [cornersAndMiddle, List.mem_cons, List.not_mem_nil, or_false] at hp
    rcases hp with rfl | rfl | rfl | rfl | rfl
    · exact ⟨h1, h1⟩
    · exact ⟨h1, h2⟩
    · exact ⟨h2, h1⟩
    · exact ⟨h2, h2⟩
    · exact ⟨isDouble_zero, isDouble_zero⟩
  obtain ⟨g, h1, ⟨cells, hc⟩, h2, h3, h4⟩ := Demo.addScans_one (i := 14) (es := eigenvalues) hgrid (by norm_num) hd (by
    intro p hp cells
    have := cornersAndMiddle_within p hp
    obtain ⟨a1, a2⟩ := abs_le.mp this.1
    obtain ⟨b1, b2⟩ := abs_le.mp this.2
    exact idx p.x p.y a1 a2 b1 b2 cells)
  exact ⟨g, h1, ⟨cells, hc⟩, h2, h3, h4, idx⟩

/-- Four corners and the middle of one square, seen from the origin, and one more point to be matched. -/
theorem matched_corner : ∃ g r, addScans rnd Demo.cosR Demo.sinR eigenvalues (Demo.matcher 4 10) [Demo.scanOf cornersAndMiddle] =
      .ok { Demo.matcher 4 10 with ndt := some g } ∧ (∃ cells, g = ⟨4, 6, 6, -10, -10, cells⟩) ∧
      (∀ j, j ≠ 14 → Spec.pointsIn rnd Demo.cosR Demo.sinR g [Demo.scanOf cornersAndMiddle] j = []) ∧
      Spec.pointsIn rnd Demo.cosR Demo.sinR g [Demo.scanOf cornersAndMiddle] 14 = cornersAndMiddle ∧
      matchScan rnd Demo.cosR Demo.sinR { Demo.matcher 4 10 with ndt := some g } (Demo.scanOf [⟨0.5, 0.5⟩]) Pose2d.zero
        (fun _ _ => .fin 0) = .ok r := by
  obtain ⟨g, h1, ⟨cells, hc⟩, h2, h3, h4, idx⟩ := corner_map
  have hplain : Demo.Plain 0.5 := by
    refine ⟨?_, by norm_num [abs_of_pos], by norm_num [abs_of_pos]⟩
    have := Demo.isDouble_inv_pow (n := 1) (by norm_num)
    norm_num at this ⊢
    exact this
  have hlik : likelihood rnd g ⟨0.5, 0.5⟩ = .ok (score rnd (cellOf rnd eigenvalues cornersAndMiddle) ⟨0.5, 0.5⟩) := by
    unfold likelihood
    rw [hc] at h2 ⊢
    rw [idx 0.5 0.5 (by norm_num) (by norm_num) (by norm_num) (by norm_num)]
    simp only [Res.ok_bind]
    rw [if_pos (by positivity), Int.toNat_natCast, h2]
    rfl
  obtain ⟨r, hr, -⟩ := Demo.matchScan_eq (res := 4) (range := 10) (p := ⟨0.5, 0.5⟩) hplain hplain hlik Pose2d.zero (fun _ _ => .fin 0)
  exact ⟨g, r, h1, ⟨cells, hc⟩, h3, h4, hr⟩

/-- The hypotheses of `c128_score_in_range_partial` (and of the theorems before it): its conclusion for that scan and map. -/
example : ∃ mt r, matchScan rnd Demo.cosR Demo.sinR mt (Demo.scanOf [⟨0.5, 0.5⟩]) Pose2d.zero (fun _ _ => .fin 0) = .ok r ∧
    (∃ x, r.score = .fin x ∧ -1 ≤ x ∧ x ≤ 0) := by
  obtain ⟨g, r, h1, ⟨cells, hc⟩, h3, h4, h5⟩ := matched_corner
  refine ⟨_, r, h5, c128_score_in_range_partial rnd_rounds eigenvalues_accurate h1 rfl (by norm_num [Demo.matcher])
    (by norm_num [Demo.matcher]) (by rw [hc]; norm_num [abs_le]) (by rw [hc]; norm_num [abs_le]) 1
    (pow_le_one₀ (by norm_num) (by norm_num)) (one_le_pow₀ (by norm_num)) ?_ (by simp [Demo.scanOf]) (by simp [Demo.scanOf])
    (by norm_num [Demo.matcher]) h5⟩
  intro i hi
  by_cases h : i = 14
  · subst h
    rw [h4]
    refine ⟨by simp [cornersAndMiddle], cornersAndMiddle_within, ?_⟩
    intro v w
    refine le_trans ?_ (cornersAndMiddle_spread v w)
    refine mul_le_mul_of_nonneg_right ?_ (by positivity)
    simp only [cornersAndMiddle, List.length_cons, List.length_nil]
    norm_num
  · rw [h3 i h] at hi
    simp at hi

/-- The window of that search is one of those of `c128_within_the_window`. -/
example : Spec.IsDouble (Demo.matcher 4 10).linearSize ∧ 0 ≤ (Demo.matcher 4 10).linearRes ∧ Spec.IsDouble (Demo.matcher 4 10).angularSize ∧
    0 ≤ (Demo.matcher 4 10).angularRes ∧ Spec.Tried rnd (Demo.matcher 4 10) 0 0 0 := by
  have h0 : Visits rnd Demo.tiny (2 * Demo.tiny) 0 := by
    intro i hi
    have : i = 0 := by omega
    subst this
    show -Demo.tiny < Demo.tiny
    linarith [Demo.tiny_pos]
  exact ⟨Demo.isDouble_tiny, by have := Demo.tiny_pos; show 0 ≤ 2 * Demo.tiny; linarith, Demo.isDouble_tiny,
    by have := Demo.tiny_pos; show 0 ≤ 2 * Demo.tiny; linarith, h0, h0, h0⟩

/-- Five points with the same `y` (5.3, in double precision) make a map, with a resolution of a quarter metre as by default, in which a
point 12.5 cm beside them has an infinite likelihood. -/
theorem line_map : ∃ g, addScans rnd Demo.cosR Demo.sinR eigenvalues (Demo.matcher 0.25 6.0625) [Demo.scanOf NegVar.points] =
      .ok { Demo.matcher 0.25 6.0625 with ndt := some g } ∧ likelihood rnd g ⟨0.125, rnd 5.3⟩ = .ok .pinf ∧
      ∀ p ∈ NegVar.points, Spec.IsDouble p.x ∧ -1 / 2 ^ 14 ≤ p.x ∧ p.x ≤ 1 / 8 ∧ p.y = rnd 5.3 := by
  have dy : ∀ (k : ℤ) (e : ℕ), |k| < 2 ^ 53 → e ≤ 1074 → Spec.IsDouble (k / 2 ^ e) := by
    intro k e hk he
    have := isDouble_dyadic (k := k) (e := -(e : ℤ)) hk (by omega)
    rwa [zpow_neg, zpow_natCast, ← div_eq_mul_inv] at this
  have colx : ∀ x : ℝ, -1 / 2 ^ 14 ≤ x → x ≤ 1 / 8 → toU32F (Fl.rounded rnd (.fin (rnd (x - -6.0625)) / .fin 0.25)) = .ok 24 := by
    intro x h1 h2
    refine Demo.axis_at (lo := 97 / 2 ^ 4 - 1 / 2 ^ 4) (hi := (99 : ℤ) / 2 ^ 4) (top := (99 : ℤ) / 2 ^ 2) (by norm_num) ?_
      (dy _ _ (by norm_num) (by norm_num)) (dy _ _ (by norm_num) (by norm_num)) ?_ ?_ ?_ ?_ ?_ (by norm_num)
    · have := dy 6 0 (by norm_num) (by norm_num)
      norm_num at this ⊢
      exact this
    all_goals norm_num at h1 h2 ⊢
    all_goals linarith
  have hy53 : rnd 5.3 = 5967269506265907 / 2 ^ 50 := NegVar.y_eq
  have coly : toU32F (Fl.rounded rnd (.fin (rnd (rnd 5.3 - -6.0625)) / .fin 0.25)) = .ok 45 := by
    refine Demo.axis_at (lo := (45 : ℤ) / 2 ^ 2) (hi := (91 : ℤ) / 2 ^ 3) (top := (91 : ℤ) / 2 ^ 1) (by norm_num)
      (dy _ _ (by norm_num) (by norm_num)) (dy _ _ (by norm_num) (by norm_num)) (dy _ _ (by norm_num) (by norm_num)) ?_ ?_ ?_ ?_ ?_
      (by norm_num)
    all_goals try rw [hy53]
    all_goals norm_num
  have idx : ∀ x : ℝ, -1 / 2 ^ 14 ≤ x → x ≤ 1 / 8 → ∀ cells,
      getIndex rnd ⟨0.25, 49, 49, -6.0625, -6.0625, cells⟩ x (rnd 5.3) = .ok ((2229 : ℕ) : ℤ) := by
    intro x x1 x2 cells
    exact Demo.getIndex_at (a := 24) (b := 45) (by norm_num at x1 ⊢; linarith) (by rw [hy53]; norm_num) (colx x x1 x2) coly
      (by norm_num) (by norm_num) (by norm_num)
  have hgrid : mapGrid rnd 0.25 6.0625 [Demo.scanOf NegVar.points] =
      .ok ⟨0.25, 49, 49, -6.0625, -6.0625, List.replicate (49 * 49 % 2 ^ 64) Cell.new⟩ := by
    refine Demo.mapGrid_eq (q := 97 / 2) _ (by norm_num) (by norm_num) (by norm_num) ?_ ?_ (by norm_num) ?_ ?_ (by norm_num) (by norm_num)
      (by norm_num)
    · have := dy 97 4 (by norm_num) (by norm_num)
      norm_num at this ⊢
      exact this
    · have := dy 97 3 (by norm_num) (by norm_num)
      norm_num at this ⊢
      exact this
    · have := dy 97 1 (by norm_num) (by norm_num)
      norm_num at this ⊢
      exact this
    · have := dy 99 1 (by norm_num) (by norm_num)
      norm_num at this ⊢
      exact this
  have hpts : ∀ p ∈ NegVar.points, Spec.IsDouble p.x ∧ -1 / 2 ^ 14 ≤ p.x ∧ p.x ≤ 1 / 8 ∧ p.y = rnd 5.3 := by
    have d1 := dy 1 14 (by norm_num) (by norm_num)
    have d2 := dy (-1) 14 (by norm_num) (by norm_num)
    have d0 := isDouble_zero
    push_cast at d1 d2
    intro p hp
    rw [hy53]
    simp only [NegVar.points, List.mem_cons, List.not_mem_nil, or_false] at hp
    rcases hp with rfl | rfl | rfl | rfl | rfl
    · exact ⟨d0, by norm_num, by norm_num, rfl⟩
    · exact ⟨d0, by norm_num, by norm_num, rfl⟩
    · exact ⟨d0, by norm_num, by norm_num, rfl⟩
    · exact ⟨d1, by norm_num, by norm_num, rfl⟩
    · exact ⟨d2, by norm_num, by norm_num, rfl⟩
  have hd : ∀ p ∈ NegVar.points, Spec.IsDouble p.x ∧ Spec.IsDouble p.y := fun p hp =>
    ⟨(hpts p hp).1, by rw [(hpts p hp).2.2.2]; exact isDouble_rnd _⟩
  obtain ⟨g, h1, ⟨cells, hc⟩, h2, -, -⟩ := Demo.addScans_one (i := 2229) (es := eigenvalues) hgrid (by norm_num) hd (by
    intro p hp cells
    obtain ⟨-, a1, a2, a3⟩ := hpts p hp
    rw [a3]
    exact idx p.x a1 a2 cells)
  have hlik : likelihood rnd g ⟨0.125, rnd 5.3⟩ = .ok .pinf := by
    unfold likelihood
    rw [hc] at h2 ⊢
    rw [idx 0.125 (by norm_num) (by norm_num)]
    simp only [Res.ok_bind]
    rw [if_pos (by positivity), Int.toNat_natCast, h2]
    have := NegVar.score_eq
    rw [← hy53, show (1 / 2 ^ 3 : ℝ) = 0.125 by norm_num] at this
    simp only [this, Res.pure_eq]
  exact ⟨g, h1, hlik, hpts⟩

/-- **C128** (refuted in general) Five points with the same `y` (5.3, in double precision) make a map, with a resolution of a quarter metre as by
default, in which a point 12.5 cm beside them has a score of minus infinity. The covariance that comes with it is NaN throughout. -/
theorem c128_score_can_be_infinite : ∃ (ps : List Point) (p : Point) (mt : Matcher) (r : Matcher.MatchResult),
    (∀ q ∈ ps, |q.x| ≤ 6 ∧ q.y = rnd 5.3) ∧ p = ⟨0.125, rnd 5.3⟩ ∧
    addScans rnd Demo.cosR Demo.sinR eigenvalues (Demo.matcher 0.25 6.0625) [Demo.scanOf ps] = .ok mt ∧
    matchScan rnd Demo.cosR Demo.sinR mt (Demo.scanOf [p]) Pose2d.zero (fun _ _ => .fin 0) = .ok r ∧
    r.score = .ninf ∧ ∀ i j, r.covariance i j = .nan := by
  obtain ⟨g, h1, hlik, hpts⟩ := line_map
  have hy53 : rnd 5.3 = 5967269506265907 / 2 ^ 50 := NegVar.y_eq
  have hpx : Demo.Plain 0.125 := by
    refine ⟨?_, by norm_num [abs_of_pos], by norm_num [abs_of_pos]⟩
    have := Demo.isDouble_inv_pow (n := 3) (by norm_num)
    norm_num at this ⊢
    exact this
  have hpy : Demo.Plain (rnd 5.3) := by
    refine ⟨isDouble_rnd _, ?_, ?_⟩ <;> rw [hy53] <;> norm_num [abs_of_pos]
  obtain ⟨r, r1, r2, r3⟩ := Demo.matchScan_infinite (res := 0.25) (range := 6.0625) (p := ⟨0.125, rnd 5.3⟩) hpx hpy hlik Pose2d.zero
    (fun _ _ => .fin 0)
  refine ⟨NegVar.points, ⟨0.125, rnd 5.3⟩, _, r, ?_, rfl, h1, r1, r2, r3⟩
  intro q hq
  obtain ⟨-, a1, a2, a3⟩ := hpts q hq
  refine ⟨abs_le.mpr ⟨?_, ?_⟩, a3⟩
  · norm_num at a1 ⊢; linarith
  · linarith

/-- **C128** (what an infinite score does) A score of minus infinity from the match of a new scan makes the typical response minus infinity, and
from then on no loop closure is accepted, whatever the scores. -/
theorem c128_no_loops_afterwards (p : Params) (s t : Sys) (es : List Event) (h : Spec.Exec p Spec.Any s es t) (typical : ℝ)
    (hn : s.typical = typicalResponse (.fin typical) .ninf) : s.typical = .ninf ∧ ∀ score : Fl, ¬ (score < t.typical) := by
  have hm : (Fl.fin 0.05 * .ninf : Fl) = .ninf := by
    show Fl.infMul false 0.05 = _
    unfold Fl.infMul
    rw [if_neg (by norm_num), if_neg (by norm_num)]
  have hm2 : (Fl.fin 0.95 * .ninf : Fl) = .ninf := by
    show Fl.infMul false 0.95 = _
    unfold Fl.infMul
    rw [if_neg (by norm_num), if_neg (by norm_num)]
  have h0 : s.typical = .ninf := by
    rw [hn]
    unfold typicalResponse
    rw [hm]
    rfl
  have key : t.typical = .ninf ∨ t.typical = .nan := by
    refine Exec.inv (I := fun s => s.typical = .ninf ∨ s.typical = .nan) ?_ h (Or.inl h0)
    intro s e s' hI _ ht
    cases ht with
    | localMatched score correction cov scan back odom hi hb =>
      rcases hI with hI | hI
      · simp only [typicalResponse, hI, hm2]
        generalize (Fl.fin 0.05 * score : Fl) = z
        cases z
        · exact Or.inr rfl
        · exact Or.inr rfl
        · exact Or.inl rfl
        · exact Or.inl rfl
      · right
        simp only [typicalResponse, hI, Fl.mul_nan, Fl.nan_add]
    | laserIgnored msg mount odom odomEnd hi =>
      obtain ⟨r, l, g, m, e, -⟩ := setup_cases p msg mount s
      rw [e]; exact hI
    | laserScan msg mount odom odomEnd points hi hgo hinit ht =>
      obtain ⟨r, l, g, m, e, -⟩ := setup_cases p msg mount s
      rw [e]; exact hI
    | configureFlags action bag hi hl =>
      obtain ⟨en, ini, e, -⟩ := configureMapping_frame action s
      rw [e]; exact hI
    | load action bag g hi hl hg =>
      obtain ⟨en, ini, e, -⟩ := configureMapping_frame action s
      rw [e]; exact hI
    | loopReject score correction cov q cand hi hs =>
      obtain ⟨n, l, e⟩ := afterAttempt_frame q s
      rw [e]; exact hI
    | loopPush q c hi =>
      obtain ⟨n, l, e⟩ := afterAttempt_frame q { s with constraints := s.constraints ++ [c], update := true }
      rw [e]; exact hI
    | pubTf hi =>
      obtain ⟨x, e⟩ := pubTf_frame s
      rw [e]; exact hI
    | _ => exact hI
  refine ⟨h0, fun score => ?_⟩
  rcases key with e | e <;> rw [e]
  · cases score <;> exact id
  · exact Fl.lt_nan score

/-- The typical response at the start, -0.5, and a score of minus infinity. -/
example : typicalResponse (.fin (-0.5)) .ninf = .ninf := by
  have hm : (Fl.fin 0.05 * .ninf : Fl) = .ninf := by
    show Fl.infMul false 0.05 = _
    unfold Fl.infMul
    rw [if_neg (by norm_num), if_neg (by norm_num)]
  unfold typicalResponse
  rw [hm]
  rfl

end Ndt
