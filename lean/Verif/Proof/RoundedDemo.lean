import Mathlib.Analysis.SpecialFunctions.Trigonometric.Bounds
import Verif.Proof.RoundedMatcher
import Verif.Proof.NegVariance

/-!
# Helper lemmas: matching one point in double precision

A search with one round, by an offset so small that it changes no coordinate. The functions of the C library are rounded correctly.
-/

namespace Ndt.Rounded.Demo

open Spec

noncomputable section

/-- The cosine of the C library, rounded correctly. -/
def cosR (x : ℝ) : ℝ := rnd (Real.cos x)

/-- The sine of the C library, rounded correctly. -/
def sinR (x : ℝ) : ℝ := rnd (Real.sin x)

/-- The size of the window. -/
def tiny : ℝ := 2⁻¹ ^ 100

theorem tiny_pos : 0 < tiny := by unfold tiny; positivity

theorem isDouble_inv_pow {n : ℕ} (h : n ≤ 1074) : IsDouble (2⁻¹ ^ n) := by
  have := isDouble_dyadic (k := 1) (e := -(n : ℤ)) (by norm_num) (by omega)
  rwa [Int.cast_one, one_mul, zpow_neg, zpow_natCast, ← inv_pow] at this

theorem isDouble_tiny : IsDouble tiny := isDouble_inv_pow (by norm_num)

/-- A search with one round. -/
def matcher (res range : ℝ) : Matcher :=
  { resolution := res, angularRes := 2 * tiny, angularSize := tiny, linearRes := 2 * tiny, linearSize := tiny,
    laserMaxBeams := 100, rangeMax := range, ndt := none }

theorem searchVals_tiny : searchVals rnd tiny (2 * tiny) = .ok [-tiny] := by
  classical
  have h1 : ¬ Visits rnd tiny (2 * tiny) 1 := by
    intro h
    have := h 1 le_rfl
    simp only [searchVal] at this
    have e : -tiny + 2 * tiny = tiny := by ring
    rw [e, rnd_rounds.exact isDouble_tiny] at this
    exact lt_irrefl _ this
  have h0 : Visits rnd tiny (2 * tiny) 0 := by
    intro i hi
    have : i = 0 := by omega
    subst this
    show -tiny < tiny
    linarith [tiny_pos]
  unfold searchVals
  rw [dif_pos ⟨1, h1⟩]
  have : Nat.find (⟨1, h1⟩ : ∃ n, ¬ Visits rnd tiny (2 * tiny) n) = 1 := by
    rw [Nat.find_eq_iff]
    refine ⟨h1, fun n hn => ?_⟩
    have : n = 0 := by omega
    subst this
    exact fun h => h h0
  rw [this]
  rfl

/-- A coordinate that the offsets do not change. -/
def Plain (x : ℝ) : Prop := IsDouble x ∧ 2⁻¹ ^ 20 ≤ |x| ∧ |x| ≤ 2 ^ 10

theorem absorbs_small {x t : ℝ} (hx : Plain x) (ht : |t| ≤ 2⁻¹ ^ 90) : rnd (x + t) = x := by
  refine rnd_rounds.absorbs hx.1 (ht.trans_lt ?_)
  have : (2⁻¹ : ℝ) ^ 90 < 2⁻¹ ^ 55 * 2⁻¹ ^ 20 := by norm_num
  exact this.trans_le (mul_le_mul_of_nonneg_left hx.2.1 (by positivity))

theorem cos_tiny : cosR (-tiny) = 1 := by
  unfold cosR
  rw [Real.cos_neg]
  have h1 := Real.cos_le_one tiny
  have h2 := Real.one_sub_sq_div_two_le_cos (x := tiny)
  have e : Real.cos tiny = 1 + (Real.cos tiny - 1) := by ring
  rw [e]
  refine rnd_rounds.absorbs isDouble_one ?_
  rw [abs_one, abs_of_nonpos (by linarith), mul_one]
  have : tiny ^ 2 / 2 < 2⁻¹ ^ 55 := by unfold tiny; norm_num
  linarith

theorem sin_tiny : |sinR (-tiny)| ≤ tiny := by
  unfold sinR
  have h := Real.abs_sin_le_abs (x := -tiny)
  rw [abs_neg, abs_of_pos tiny_pos, abs_le] at h
  rw [abs_le]
  exact ⟨rnd_rounds.ge_of_ge (isDouble_neg isDouble_tiny) h.1, rnd_rounds.le_of_le isDouble_tiny h.2⟩

theorem small_product {y s : ℝ} (hy : Plain y) (hs : |s| ≤ tiny) : |rnd (y * s)| ≤ 2⁻¹ ^ 90 := by
  have h : |y * s| ≤ 2⁻¹ ^ 90 := by
    rw [abs_mul]
    calc |y| * |s| ≤ 2 ^ 10 * tiny := by
          exact mul_le_mul hy.2.2 hs (abs_nonneg _) (by positivity)
      _ = 2⁻¹ ^ 90 := by unfold tiny; norm_num
  rw [abs_le] at h ⊢
  exact ⟨rnd_rounds.ge_of_ge (isDouble_neg (isDouble_inv_pow (by norm_num))) h.1,
    rnd_rounds.le_of_le (isDouble_inv_pow (by norm_num)) h.2⟩

/-- A scan at the origin. -/
def scanOf (ps : List Point) : Scan := { Scan.new 0 with points := ps }

theorem likelihoodAt_eq (g : NdtGrid) {p : Point} (hx : Plain p.x) (hy : Plain p.y) :
    (outerPoints rnd cosR sinR [p] 1 Pose2d.zero (-tiny) >>= fun outer => shiftedScore rnd g outer (-tiny) (-tiny)) =
      (likelihood rnd g p >>= fun v => (.ok (Fl.rounded rnd (.fin 0 + v)) : Res Fl)) := by
  have hb : beam rnd [p] 1 0 = .ok p := by
    unfold beam beamIndex
    have h1 : rnd 1 = 1 := rnd_rounds.exact isDouble_one
    simp only [List.length_cons, List.length_nil, Nat.cast_zero, zero_add, Nat.cast_one, rnd_zero, zero_mul]
    have : toU64F (.fin 0) = .ok 0 := by
      show toU64 0 = _
      rw [toU64_of_nonneg le_rfl (by norm_num)]
      simp
    rw [this]
    rfl
  have ht : rnd (0 + -tiny) = -tiny := by
    rw [zero_add]; exact rnd_rounds.exact (isDouble_neg isDouble_tiny)
  have st := sin_tiny
  have hX : rnd (turnX rnd cosR sinR (-tiny) p + 0) = p.x := by
    unfold turnX
    rw [cos_tiny, mul_one, rnd_rounds.exact hx.1, sub_eq_add_neg, absorbs_small hx (by rw [abs_neg]; exact small_product hy st),
      add_zero, rnd_rounds.exact hx.1]
  have hY : rnd (turnY rnd cosR sinR (-tiny) p + 0) = p.y := by
    unfold turnY
    rw [cos_tiny, mul_one, rnd_rounds.exact hy.1, add_comm (rnd (p.x * _)) p.y, absorbs_small hy (small_product hx st),
      add_zero, rnd_rounds.exact hy.1]
  have ho : outerPoints rnd cosR sinR [p] 1 Pose2d.zero (-tiny) = .ok [p] := by
    unfold outerPoints
    simp only [List.range_one, List.mapM_cons, List.mapM_nil, hb, Res.ok_bind, Pose2d.zero, ht, hX, hY]
    rfl
  rw [ho, Res.ok_bind]
  have ht2 : |-tiny| ≤ 2⁻¹ ^ 90 := by
    rw [abs_neg, abs_of_pos tiny_pos]; unfold tiny; norm_num
  unfold shiftedScore likelihoodPoints
  simp only [List.map_cons, List.map_nil, absorbs_small hx ht2, absorbs_small hy ht2, List.foldlM_cons, List.foldlM_nil]
  cases likelihood rnd g p <;> rfl

/-- What the search makes of one point. -/
theorem matchScan_eq {g : NdtGrid} {res range : ℝ} {p : Point} (hx : Plain p.x) (hy : Plain p.y) {v : Fl}
    (hv : likelihood rnd g p = .ok v) (pose : Pose2d) (cov : Mat3F) :
    let a := update rnd (-tiny) (-tiny) (-tiny) (-Fl.rounded rnd (.fin 0 + v))
      { best := .fin 0, pose, k := fun _ _ => .fin 0, u := fun _ => .fin 0, s := .fin 0 }
    ∃ r, matchScan rnd cosR sinR { matcher res range with ndt := some g } (scanOf [p]) pose cov = .ok r ∧
      r.score = Fl.rounded rnd (a.best / .fin (rnd 1)) ∧ r.pose = a.pose ∧
      ∀ i j, r.covariance i j = Fl.rounded rnd (Fl.rounded rnd (Fl.rounded rnd (.fin 1 / a.s) * a.k i j) +
        Fl.rounded rnd (Fl.rounded rnd (Fl.rounded rnd (.fin 1 / Fl.rounded rnd (a.s * a.s)) * a.u i) * a.u j)) := by
  intro a
  have h := likelihoodAt_eq g hx hy
  rw [hv] at h
  simp only [Res.ok_bind] at h
  unfold matchScan search
  simp only [matcher, searchVals_tiny, Res.ok_bind, List.foldlM_cons, List.foldlM_nil, scanOf, Scan.new, Scan.getPoints,
    Scan.getPose, List.length_cons, List.length_nil]
  cases ho : outerPoints rnd cosR sinR [p] (min 100 (0 + 1)) Pose2d.zero (-tiny) with
  | error e =>
    have : outerPoints rnd cosR sinR [p] 1 Pose2d.zero (-tiny) = .error e := ho
    rw [this] at h; cases h
  | ok outer =>
    have : outerPoints rnd cosR sinR [p] 1 Pose2d.zero (-tiny) = .ok outer := ho
    rw [this] at h
    simp only [Res.ok_bind] at h
    simp only [Res.ok_bind, h]
    refine ⟨_, rfl, ?_, rfl, fun i j => rfl⟩
    have e : ((min 100 (0 + 1) : ℕ) : ℝ) = 1 := by norm_num
    simp only [e]
    rfl

theorem matchScan_infinite {g : NdtGrid} {res range : ℝ} {p : Point} (hx : Plain p.x) (hy : Plain p.y)
    (hv : likelihood rnd g p = .ok .pinf) (pose : Pose2d) (cov : Mat3F) :
    ∃ r, matchScan rnd cosR sinR { matcher res range with ndt := some g } (scanOf [p]) pose cov = .ok r ∧
      r.score = .ninf ∧ ∀ i j, r.covariance i j = .nan := by
  obtain ⟨r, h1, h2, -, h4⟩ := matchScan_eq (res := res) (range := range) hx hy hv pose cov
  have e : (-Fl.rounded rnd (.fin 0 + .pinf) : Fl) = .ninf := rfl
  rw [e] at h2 h4
  refine ⟨r, h1, ?_, fun i j => ?_⟩
  · rw [h2]
    have hlt : (Fl.ninf < Fl.fin 0) := trivial
    have hb : (update rnd (-tiny) (-tiny) (-tiny) .ninf
        { best := .fin 0, pose, k := fun _ _ => .fin 0, u := fun _ => .fin 0, s := .fin 0 }).best = .ninf := if_pos hlt
    rw [hb]
    have h1 : rnd 1 = 1 := rnd_rounds.exact isDouble_one
    rw [h1]
    show Fl.rounded rnd (if (0 : ℝ) ≤ 1 then Fl.ninf else Fl.pinf) = .ninf
    rw [if_pos zero_le_one]
    rfl
  · rw [h4]
    have h0 : rnd 0 = 0 := rnd_zero
    have hs : (update rnd (-tiny) (-tiny) (-tiny) .ninf
        { best := .fin 0, pose, k := fun _ _ => .fin 0, u := fun _ => .fin 0, s := .fin 0 }).s = .ninf := rfl
    have hk : (update rnd (-tiny) (-tiny) (-tiny) .ninf
        { best := .fin 0, pose, k := fun _ _ => .fin 0, u := fun _ => .fin 0, s := .fin 0 }).k i j = .ninf := by
      have hxi : ∀ i : Fin 3, (![-tiny, -tiny, -tiny] : Fin 3 → ℝ) i = -tiny := by
        intro i; fin_cases i <;> rfl
      have hd : rnd (-tiny * -tiny) = 2⁻¹ ^ 200 := by
        have e : -tiny * -tiny = 2⁻¹ ^ 200 := by unfold tiny; ring
        rw [e, rnd_rounds.exact (isDouble_inv_pow (by norm_num))]
      show Fl.rounded rnd (.fin 0 + Fl.rounded rnd (.fin (rnd ((![-tiny, -tiny, -tiny] : Fin 3 → ℝ) i *
        (![-tiny, -tiny, -tiny] : Fin 3 → ℝ) j)) * .ninf)) = .ninf
      rw [hxi, hxi, hd]
      have hm : (Fl.fin (2⁻¹ ^ 200) * .ninf : Fl) = .ninf := by
        show Fl.infMul false _ = _
        unfold Fl.infMul
        rw [if_neg (by positivity), if_neg]
        have : (0 : ℝ) < 2⁻¹ ^ 200 := by positivity
        simp [this]
      rw [hm]
      rfl
    rw [hs, hk]
    have hz : Fl.rounded rnd (.fin 1 / .ninf) = .fin 0 := by
      show Fl.fin (rnd 0) = _
      rw [h0]
    have hm : (Fl.fin 0 * .ninf : Fl) = .nan := by
      show Fl.infMul false 0 = _
      unfold Fl.infMul
      rw [if_pos rfl]
    rw [hz, hm]
    show Fl.rounded rnd (.nan + _) = .nan
    rw [Fl.nan_add]
    rfl

/-! ### Maps of one scan at the origin -/

theorem mapPoint_zero {p : Point} (hx : IsDouble p.x) (hy : IsDouble p.y) :
    mapPoint rnd cosR sinR Pose2d.zero p = p := by
  have hc : cosR 0 = 1 := by unfold cosR; rw [Real.cos_zero]; exact rnd_rounds.exact isDouble_one
  have hs : sinR 0 = 0 := by unfold sinR; rw [Real.sin_zero]; exact rnd_zero
  unfold mapPoint turnX turnY Pose2d.zero
  simp only [hc, hs, mul_one, mul_zero, rnd_zero, sub_zero, zero_add, rnd_rounds.exact hx, rnd_rounds.exact hy]

theorem axis_at {x o c lo hi top : ℝ} {k : ℕ} (hc : 0 < c) (hlo : IsDouble lo) (hhi : IsDouble hi) (htop : IsDouble top)
    (h1 : lo ≤ x - o) (h2 : x - o ≤ hi) (hk : k * c ≤ lo) (ht : hi ≤ top * c) (htk : top < k + 1) (hk2 : k < 2 ^ 31) :
    toU32F (Fl.rounded rnd (.fin (rnd (x - o)) / .fin c)) = .ok k := by
  have a1 : lo ≤ rnd (x - o) := rnd_rounds.ge_of_ge hlo h1
  have a2 : rnd (x - o) ≤ hi := rnd_rounds.le_of_le hhi h2
  have b1 : (k : ℝ) ≤ rnd (rnd (x - o) / c) :=
    rnd_rounds.ge_of_ge (isDouble_nat (by omega)) (by rw [le_div_iff₀ hc]; linarith)
  have b2 : rnd (rnd (x - o) / c) ≤ top := rnd_rounds.le_of_le htop (by rw [div_le_iff₀ hc]; linarith)
  rw [Fl.fin_div hc.ne', Fl.rounded_fin]
  show toU32 _ = _
  have h0 : (0 : ℝ) ≤ k := Nat.cast_nonneg k
  have hk3 : (k : ℝ) < 2 ^ 31 := by exact_mod_cast hk2
  rw [toU32_of_nonneg (by linarith) (by linarith [(by norm_num : (2 : ℝ) ^ 31 + 1 ≤ 2 ^ 32)])]
  congr 1
  have : ⌊rnd (rnd (x - o) / c)⌋ = (k : ℤ) := by
    rw [Int.floor_eq_iff]
    push_cast
    exact ⟨b1, by linarith⟩
  rw [this]
  rfl

theorem mapGrid_eq {res R q : ℝ} {n : ℕ} (ps : List Point) (hres : 0 < res) (hR : 1 ≤ R) (hRm : R ≤ 2 ^ 10) (hRd : IsDouble R) (h2R : IsDouble (2 * R))
    (hq : 2 * R / res = q) (hqd : IsDouble q) (hq1 : IsDouble (q + 1)) (hn : (n : ℝ) ≤ q + 1) (hn2 : q + 1 < n + 1) (hn3 : n < 2 ^ 31) :
    mapGrid rnd res R [scanOf ps] = .ok ⟨res, n, n, -R, -R, List.replicate (n * n % 2 ^ 64) Cell.new⟩ := by
  have hmax : -R ≤ dblMax := by
    unfold dblMax
    have : (0 : ℝ) ≤ (2 - 2⁻¹ ^ 52) * 2 ^ 1023 := mul_nonneg (by norm_num) (by positivity)
    exact (by linarith : -R ≤ 0).trans this
  have hmin : dblMin ≤ R := by
    have : dblMin ≤ 1 := by
      unfold dblMin
      exact pow_le_one₀ (by norm_num) (by norm_num)
    linarith
  have hb : bbox rnd R [scanOf ps] = ⟨-R, R, -R, R⟩ := by
    unfold bbox
    simp only [List.foldl_cons, List.foldl_nil, scanOf, Scan.new, Scan.getPose, Pose2d.zero, zero_sub, zero_add,
      rnd_rounds.exact (isDouble_neg hRd), rnd_rounds.exact hRd, min_eq_left hmax, max_eq_left hmin]
  unfold mapGrid
  rw [hb]
  unfold newGrid
  have e : R - -R = 2 * R := by ring
  simp only [e, rnd_rounds.exact h2R]
  rw [Fl.fin_div hres.ne', hq]
  simp only [Fl.rounded_fin, rnd_rounds.exact hqd, Fl.fin_add, rnd_rounds.exact hq1]
  have h0 : (0 : ℝ) ≤ n := Nat.cast_nonneg n
  have hn4 : (n : ℝ) < 2 ^ 31 := by exact_mod_cast hn3
  have : toU64F (.fin (q + 1)) = .ok n := by
    show toU64 _ = _
    rw [toU64_of_nonneg (by linarith) (by linarith [(by norm_num : (2 : ℝ) ^ 31 + 1 ≤ 2 ^ 64)])]
    congr 1
    have : ⌊q + 1⌋ = (n : ℤ) := by
      rw [Int.floor_eq_iff]
      push_cast
      exact ⟨hn, hn2⟩
    rw [this]
    rfl
  rw [this]
  rfl

/-- The map of one scan at the origin, all of whose points fall into the square `i`. -/
theorem addScans_one {res R : ℝ} {n i : ℕ} {ps : List Point} {es : Mat2 ℝ → ℝ × ℝ}
    (hg : mapGrid rnd res R [scanOf ps] = .ok ⟨res, n, n, -R, -R, List.replicate (n * n % 2 ^ 64) Cell.new⟩)
    (hi : i < n * n % 2 ^ 64) (hd : ∀ p ∈ ps, IsDouble p.x ∧ IsDouble p.y)
    (hin : ∀ p ∈ ps, ∀ cells, getIndex rnd ⟨res, n, n, -R, -R, cells⟩ p.x p.y = .ok (i : ℤ)) :
    ∃ g, addScans rnd cosR sinR es (matcher res R) [scanOf ps] = .ok { matcher res R with ndt := some g } ∧
      (∃ cells, g = ⟨res, n, n, -R, -R, cells⟩) ∧ g.cells[i]? = some (cellOf rnd es ps) ∧
      (∀ j, j ≠ i → pointsIn rnd cosR sinR g [scanOf ps] j = []) ∧ pointsIn rnd cosR sinR g [scanOf ps] i = ps := by
  have hps : ([scanOf ps].flatMap fun s => s.points.map (mapPoint rnd cosR sinR s.pose)) = ps := by
    simp only [List.flatMap_cons, List.flatMap_nil, List.append_nil, scanOf, Scan.new]
    rw [List.map_congr_left (g := id), List.map_id]
    intro p hp
    exact mapPoint_zero (hd p hp).1 (hd p hp).2
  set g0 : NdtGrid := ⟨res, n, n, -R, -R, List.replicate (n * n % 2 ^ 64) Cell.new⟩ with hg0
  obtain ⟨g1, h1⟩ := addMapPoints_ok (rd := rnd) (ps := ps) (g := g0) fun p hp =>
    ⟨i, hin p hp _, fun _ => by
      rw [hg0, List.length_replicate, Int.toNat_natCast]
      exact hi⟩
  obtain ⟨f, c1⟩ := addMapPoints_cells h1
  have hadd : addScans rnd cosR sinR es (matcher res R) [scanOf ps] =
      .ok { matcher res R with ndt := some (computeAll rnd es g1) } := by
    unfold addScans
    have e1 : (matcher res R).resolution = res := rfl
    have e2 : (matcher res R).rangeMax = R := rfl
    rw [e1, e2, hg]
    simp only [Res.ok_bind]
    rw [addScans_fold, hps, h1]
    rfl
  have hframe : ∃ cells, computeAll rnd es g1 = ⟨res, n, n, -R, -R, cells⟩ := by
    refine ⟨(computeAll rnd es g1).cells, ?_⟩
    unfold computeAll
    ext1
    · exact f.cellSize
    · exact f.sizeX
    · exact f.sizeY
    · exact f.originX
    · exact f.originY
    · rfl
  obtain ⟨cells, hcells⟩ := hframe
  have hi_pts : pointsIn rnd cosR sinR (computeAll rnd es g1) [scanOf ps] i = ps := by
    unfold pointsIn
    rw [hps, List.filter_eq_self]
    intro p hp
    rw [hcells]
    simpa using hin p hp cells
  refine ⟨_, hadd, ⟨cells, hcells⟩, ?_, ?_, hi_pts⟩
  · obtain ⟨g, e, -, hc⟩ := addScans_cells hadd
    have eg : computeAll rnd es g1 = g := by
      have := congrArg Matcher.ndt e
      exact Option.some.inj this
    have hlen : i < (computeAll rnd es g1).cells.length := by
      have hl : g1.cells[i]? ≠ none := by
        rw [c1, hg0, List.getElem?_replicate_of_lt hi]
        exact Option.some_ne_none _
      have : i < g1.cells.length := by
        by_contra hh
        exact hl (List.getElem?_eq_none (by omega))
      simpa [computeAll] using this
    have := hc i _ (by rw [← eg]; exact List.getElem?_eq_getElem hlen)
    rw [List.getElem?_eq_getElem hlen, this, ← eg, hi_pts]
  · intro j hj
    unfold pointsIn
    rw [hps, List.filter_eq_nil_iff]
    intro p hp
    rw [hcells]
    have := hin p hp cells
    rw [this]
    simp only [decide_eq_true_eq, Except.ok.injEq]
    omega

/-- The index of a point whose column and row are known. -/
theorem getIndex_at {res R : ℝ} {n a b : ℕ} {cells : List Cell} {x y : ℝ} (hx : -R ≤ x) (hy : -R ≤ y)
    (h1 : toU32F (Fl.rounded rnd (.fin (rnd (x - -R)) / .fin res)) = .ok a)
    (h2 : toU32F (Fl.rounded rnd (.fin (rnd (y - -R)) / .fin res)) = .ok b) (ha : a < n) (hb : b < n) (hn : n < 2 ^ 15) :
    getIndex rnd ⟨res, n, n, -R, -R, cells⟩ x y = .ok ((b * n + a : ℕ) : ℤ) := by
  unfold getIndex
  simp only
  rw [if_neg (by push Not; exact ⟨hx, hy⟩), h1, h2]
  simp only [Res.ok_bind]
  rw [if_neg (by push Not; exact ⟨ha, hb⟩)]
  have h3 : b * n + a < 2 ^ 31 := by nlinarith
  rw [Nat.mod_eq_of_lt (by omega), wrapI32_of_lt h3]
  rfl

end

end Ndt.Rounded.Demo
