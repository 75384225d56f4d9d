import Verif.Proof.RealParams
import Verif.Proof.OccupancyGrid
import Verif.Proof.DemoNode
import Mathlib.Tactic.Linarith
import Mathlib.Tactic.NormNum
import Mathlib.Tactic.Ring

/-! # C106: parameters that are real numbers -/

namespace Ndt

noncomputable section

open Spec Mapper

/-! ## The matchers -/

/-- The loop `for (d = -size; d < size; d += res)` stays below its bound for ever just when the step is not positive. -/
theorem c106_loop_never_ends_iff {size res : ℝ} (h : 0 < size) : (∀ k : ℕ, -size + k * res < size) ↔ res ≤ 0 := by
  constructor
  · intro hk
    by_contra hr
    have hr : 0 < res := lt_of_not_ge hr
    obtain ⟨n, hn⟩ := exists_nat_gt (2 * size / res)
    have := hk n
    rw [div_lt_iff₀ hr] at hn
    linarith
  · intro hr k
    have : (k : ℝ) * res ≤ 0 := mul_nonpos_of_nonneg_of_nonpos (Nat.cast_nonneg k) hr
    linarith

example : ∀ k : ℕ, -(0.05 : ℝ) + k * 0 < 0.05 := (c106_loop_never_ends_iff (by norm_num)).mpr le_rfl

/-- C106, what holds: with steps greater than zero the search ends. Missing: other steps, which are not refused. -/
theorem c106_search_ends_partial {mt : Matcher} (hl : 0 < mt.linearRes) (ha : 0 < mt.angularRes) (scan : Scan)
    (hn : scan.getPoints.length < 2 ^ 64) (pose : Pose2d) (junk : Mat3F) : mt.matchScan scan pose junk ≠ .error .hang := by
  have hlik : ∀ (g : NdtGrid) p, g.likelihood p ≠ .error .hang := by
    intro g p
    have hU : ∀ x, toU32F x ≠ .error .hang := by
      intro x
      unfold toU32F toU32
      split
      · split <;> simp
      · simp
    unfold NdtGrid.likelihood NdtGrid.getIndex NdtGrid.getIndexF
    intro h
    rcases bind_hang h with h | ⟨i, -, h⟩
    · split at h
      · cases h
      · rcases bind_hang h with h | ⟨gx, -, h⟩
        · exact hU _ h
        · rcases bind_hang h with h | ⟨gy, -, h⟩
          · exact hU _ h
          · split at h <;> cases h
    · split at h
      · split at h <;> cases h
      · cases h
  intro h
  unfold Matcher.matchScan at h
  cases hg : mt.ndt with
  | none => simp [hg] at h
  | some g =>
    simp only [hg] at h
    rw [if_neg (not_endless hl ha)] at h
    rcases bind_hang h with h | ⟨a, -, h⟩
    · rw [search_eq mt hl ha g _ _ (min_le_right _ _) hn] at h
      refine foldlM_no_hang (fun a o h => ?_) _ _ h
      rcases bind_hang h with h | ⟨v, -, h⟩
      · unfold candLik NdtGrid.likelihoodPoints at h
        refine foldlM_no_hang (fun a o h => ?_) _ _ h
        rcases bind_hang h with h | ⟨v, -, h⟩
        · exact hlik _ _ h
        · cases h
      · cases h
    · cases h

example (scan : Scan) (hn : scan.getPoints.length < 2 ^ 64) (g : NdtGrid) :
    Matcher.matchScan { defaultMatcher with ndt := some g } scan Pose2d.zero (fun _ _ => .fin 0) ≠ .error .hang :=
  c106_search_ends_partial (by norm_num [defaultMatcher]) (by norm_num [defaultMatcher]) scan hn _ _

/-- A step of zero or less: a search over a map never ends. -/
theorem c106_search_never_ends {mt : Matcher} {g : NdtGrid} (hg : mt.ndt = some g) (ha : 0 < mt.angularSize)
    (h : mt.angularRes ≤ 0 ∨ 0 < mt.linearSize ∧ mt.linearRes ≤ 0) (scan : Scan) (pose : Pose2d) (junk : Mat3F) :
    mt.matchScan scan pose junk = .error .hang := by
  unfold Matcher.matchScan
  simp only [hg]
  rw [if_pos ⟨ha, h⟩]

example (g : NdtGrid) (scan : Scan) : Matcher.matchScan { defaultMatcher with linearRes := -0.005, ndt := some g } scan Pose2d.zero
    (fun _ _ => .fin 0) = .error .hang :=
  c106_search_never_ends rfl (by norm_num [defaultMatcher]) (Or.inr (by norm_num [defaultMatcher])) _ _ _

/-- Squares without a side: no map can be made, of any scans. -/
theorem c106_no_map_without_side {mt : Matcher} (h : mt.resolution = 0) (scans : List Scan) :
    mt.addScans scans = .error .conversion := addScans_zero h scans

example : Matcher.addScans { defaultMatcher with resolution := 0 } [] = .error .conversion :=
  c106_no_map_without_side rfl []

/-- Squares of a negative side not longer than the range of the laser: no map can be made of any scan. -/
theorem c106_no_map_negative_side {mt : Matcher} (h : mt.resolution < 0) (hr : -mt.resolution ≤ mt.rangeMax) {s : Scan}
    {scans : List Scan} (hs : s ∈ scans) : mt.addScans scans = .error .conversion := by
  unfold Matcher.addScans
  obtain ⟨h1, h2, -, -⟩ := bbox_bounds mt.rangeMax scans { minX := dblMax, maxX := dblMin, minY := dblMax, maxY := dblMin } s hs
  set b := Matcher.bbox mt.rangeMax scans with hb
  have h1 : b.minX ≤ s.pose.x - mt.rangeMax := h1
  have h2 : s.pose.x + mt.rangeMax ≤ b.maxX := h2
  have e : Fl.fin (b.maxX - b.minX) / Fl.fin mt.resolution + Fl.fin 1 = .fin ((b.maxX - b.minX) / mt.resolution + 1) := by
    show Fl.add (Fl.div _ _) _ = _
    simp [Fl.div, Fl.add, h.ne]
  unfold NdtGrid.new
  dsimp only
  rw [e]
  show ((toU64 _ >>= _) >>= _) = _
  rw [toU64_neg]
  · rfl
  · have : (b.maxX - b.minX) / mt.resolution ≤ -2 := by
      rw [div_le_iff_of_neg h]
      linarith
    linarith

example : Matcher.addScans { defaultMatcher with resolution := -0.25, rangeMax := 10 } [blank 0 Pose2d.zero] = .error .conversion :=
  c106_no_map_negative_side (by norm_num [defaultMatcher]) (by norm_num [defaultMatcher]) (List.mem_singleton.mpr rfl)

/-- A window without a size: the search looks at nothing. The pose stays what it was, the score is zero and the
covariance is not a number. -/
theorem c106_empty_window {mt : Matcher} {g : NdtGrid} (hg : mt.ndt = some g) (hl : 0 < mt.linearRes) (ha : 0 < mt.angularRes)
    (h : mt.angularSize ≤ 0 ∨ mt.linearSize ≤ 0) (scan : Scan) (hn : scan.getPoints.length < 2 ^ 64) (pose : Pose2d)
    (junk : Mat3F) : mt.matchScan scan pose junk =
      .ok ⟨.fin 0 / .fin (min mt.laserMaxBeams scan.getPoints.length : ℕ), pose, fun _ _ => .nan⟩ := by
  unfold Matcher.matchScan
  simp only [hg]
  rw [if_neg (not_endless hl ha), search_eq mt hl ha g _ _ (min_le_right _ _) hn]
  have hw : window mt.linearSize mt.linearRes mt.angularSize mt.angularRes = [] := by
    rw [List.eq_nil_iff_forall_not_mem]
    intro o ho
    rw [mem_window _ _ _ _ hl ha] at ho
    obtain ⟨⟨k, e1, l1⟩, -, k', e2, l2⟩ := ho
    have h1 : 0 ≤ (k : ℝ) * mt.linearRes := by positivity
    have h2 : 0 ≤ (k' : ℝ) * mt.angularRes := by positivity
    rcases h with h | h <;> linarith
  rw [hw]
  simp only [List.foldlM_nil, Res.pure_eq, Res.ok_bind]
  congr 2
  funext i j
  show Fl.add (Fl.mul (Fl.div (.fin 1) (.fin 0)) (.fin 0)) _ = _
  simp [Fl.div, Fl.mul, Fl.infMul, Fl.add]

example (g : NdtGrid) (scan : Scan) (hn : scan.getPoints.length < 2 ^ 64) :
    ∃ s, Matcher.matchScan { defaultMatcher with linearSize := 0, ndt := some g } scan ⟨1, 2, 3⟩ (fun _ _ => .fin 0) =
      .ok ⟨s, ⟨1, 2, 3⟩, fun _ _ => .nan⟩ :=
  ⟨_, c106_empty_window rfl (by norm_num [defaultMatcher]) (by norm_num [defaultMatcher]) (Or.inr le_rfl) scan hn _ _⟩

/-! ## The node -/

/-- With such a local matcher the node starts, but maps nothing: whatever happens, no laser scan is ever added to a map that
is not empty, and no constraint to the scan before. -/
theorem c106_map_never_grows {np : NodeParams} (hu : Unusable np.localCfg) {W : Graph → Prop} {A : Node → Input → Prop}
    {n n' : Node} (h : NodeReach np W A n) :
    (n.step np (.plain .pushConstraint) = .ok n' → n' = n) ∧
    (n.step np (.plain .pushScan) = .ok n' → n'.sys.scans = n.sys.scans ∨ n.sys.scans = []) := by
  have hh := halted_reach hu h
  have frame : ∀ {t : Sys}, ({ n with sys := t } : Node) = n' → t = n.sys → n' = n := by
    rintro t rfl rfl; rfl
  constructor
  · intro hs
    have hs : n.mapper np .pushConstraint = .ok n' := hs
    unfold Node.mapper Mapper.step at hs
    cases hsp : n.sys.spin with
    | constraint c scan odom => exact absurd hsp (hh.1 c scan odom)
    | _ => simp only [hsp, Res.ok_bind] at hs; cases hs; rfl
  · intro hs
    have hs : n.mapper np .pushScan = .ok n' := hs
    unfold Node.mapper Mapper.step at hs
    cases hsp : n.sys.spin with
    | append scan odom => exact Or.inr (hh.2 scan odom hsp)
    | _ => simp only [hsp, Res.ok_bind] at hs; cases hs; exact Or.inl rfl

/-- Such a node comes to its second scan, and never past it: the search over it does not end. -/
theorem c106_second_scan_never_ends (W : Graph → Prop) : ∃ np n scan, np.localCfg = { defaultMatcher with linearRes := 0 } ∧
    Unusable np.localCfg ∧ NodeReach np W (fun _ _ => True) n ∧ n.sys.scans.length = 1 ∧ n.sys.spin = .matching scan ⟨1, 0, 0⟩ ∧
    ∀ junk, n.step np (.localMatch junk) = .error .hang := by
  obtain ⟨n, o, hr, hsp, hsc, -, -⟩ := demo_matches_blank_with { defaultMatcher with linearRes := 0 } rfl W
  have hu : Unusable (demoNodeWith { defaultMatcher with linearRes := 0 }).localCfg := by
    right
    norm_num [demoNodeWith, defaultMatcher]
  refine ⟨_, n, blank 1 o, rfl, hu, hr, by rw [hsc]; rfl, hsp, fun junk => ?_⟩
  obtain ⟨l, w, hl, -, hb⟩ := (Node.tied_reach hr).window _ _ hsp
  obtain ⟨rng, hb⟩ := hb
  obtain ⟨g, e, -⟩ := addScans_computed hb
  unfold Node.step
  simp only [hsp, hl]
  have hsco : ∃ v, l.scoreScan (blank 1 o) = .ok v := by
    unfold Matcher.scoreScan Matcher.scorePoints
    rw [show l.ndt = some g by rw [e]]
    have : (blank 1 o).getPoints = [] := rfl
    simp only [this, List.length_nil, Nat.min_zero, List.range_zero, List.foldlM_nil, Res.pure_eq, Res.ok_bind]
    exact ⟨_, rfl⟩
  obtain ⟨v, hv⟩ := hsco
  rw [hv, Res.ok_bind, c106_search_never_ends (g := g) (by rw [e]) (by rw [e]; norm_num [demoNodeWith, defaultMatcher])
    (Or.inr (by rw [e]; norm_num [demoNodeWith, defaultMatcher])), Res.error_bind]

/-- The code violates C106: a node starts with such parameters. -/
theorem c106_not_refused (np : NodeParams) (mt : Matcher) (enable : Bool) (file : Option (List BagMsg)) :
    Node.start { np with localCfg := mt, globalCfg := mt } enable file = Node.start np enable file := rfl

/-! ## The published grid -/

/-- Cells without a side: no map can be published. -/
theorem c106_grid_without_side {g : OccGrid} (h : g.resolution = 0) (scans : List Scan) : g.getMsg scans = .error .conversion := by
  have hu : ∀ g' : OccGrid, g'.resolution = 0 → (g'.render scans) = .error .conversion := by
    intro g' h'
    unfold OccGrid.render
    rw [if_pos h']
  unfold OccGrid.getMsg
  have hr : (if scans.length ≠ g.numScans then g.updateBounds scans else g).resolution = 0 := by
    split
    · rw [OccGrid.updateBounds_eq]
      exact ((OccGrid.widens_wider _ _).1.1).trans h
    · exact h
  dsimp only
  rw [hu _ hr]
  rfl

example : (OccGrid.new 0 0.25).getMsg [blank 0 Pose2d.zero] = .error .conversion := c106_grid_without_side rfl _

/-- Cells of a negative side: no map of a place wider than thirteen cells can be published. -/
theorem c106_grid_negative_side {r t : ℝ} (h : r < 0) {scans : List Scan} {a b : Pose2d × Point} (ha : a ∈ measured scans)
    (hb : b ∈ measured scans) (hab : (move a.1 a.2).x + 13 * -r ≤ (move b.1 b.2).x) :
    (OccGrid.new r t).getMsg scans = .error .conversion := by
  unfold OccGrid.getMsg
  have hne : scans.length ≠ (OccGrid.new r t).numScans := by
    show scans.length ≠ 0
    intro h0
    rw [List.length_eq_zero_iff.mp h0] at ha
    simp [measured] at ha
  rw [if_pos hne, OccGrid.updateBounds_eq]
  obtain ⟨⟨h1, -⟩, h2⟩ := OccGrid.widens_wider ((measured (scans.drop (OccGrid.new r t).numScans)).map fun q => move q.1 q.2)
    { OccGrid.new r t with numScans := scans.length }
  have hin : ∀ q ∈ measured scans, move q.1 q.2 ∈ (measured (scans.drop (OccGrid.new r t).numScans)).map fun q => move q.1 q.2 := by
    intro q hq
    exact List.mem_map.mpr ⟨q, hq, rfl⟩
  have ia := h2 _ (hin a ha)
  have ib := h2 _ (hin b hb)
  set g := (((measured (scans.drop (OccGrid.new r t).numScans)).map fun q => move q.1 q.2).foldl OccGrid.widen
    { OccGrid.new r t with numScans := scans.length }) with hg
  have hgr : g.resolution = r := h1
  have hw : g.roundOut.render scans = .error .conversion := by
    unfold OccGrid.render
    have hres : g.roundOut.resolution = r := hgr
    rw [if_neg (by rw [hres]; exact h.ne), hres]
    dsimp only
    rw [toU32_neg]
    · rfl
    · show ((⌈g.maxX / g.resolution⌉ : ℝ) * g.resolution - ⌊g.minX / g.resolution⌋ * g.resolution + 2 * (5 * r)) / r ≤ -1
      rw [hgr]
      have e : ((⌈g.maxX / r⌉ : ℝ) * r - ⌊g.minX / r⌋ * r + 2 * (5 * r)) / r = ⌈g.maxX / r⌉ - ⌊g.minX / r⌋ + 10 := by
        rw [div_eq_iff h.ne]
        ring
      rw [e]
      have k1 := Int.ceil_lt_add_one (g.maxX / r)
      have k2 := Int.sub_one_lt_floor (g.minX / r)
      have k3 : g.maxX / r - g.minX / r ≤ -13 := by
        rw [← sub_div, div_le_iff_of_neg h]
        have := ia.1.1
        have := ib.1.2
        linarith
      linarith
  dsimp only
  rw [hw]
  rfl

/-- A scan with two points ten metres apart. -/
example : (OccGrid.new (-0.05) 0.25).getMsg [((Scan.new 0).setPose Pose2d.zero).setPoints [⟨-5, 0⟩, ⟨5, 0⟩]] = .error .conversion :=
  c106_grid_negative_side (a := (Pose2d.zero, ⟨-5, 0⟩)) (b := (Pose2d.zero, ⟨5, 0⟩)) (by norm_num)
    (by simp [measured, Scan.setPoints, Scan.setPose, Scan.new]) (by simp [measured, Scan.setPoints, Scan.setPose, Scan.new])
    (by norm_num [move, Pose2d.zero])

/-! ## The filter -/

/-- A permitted error of zero: the number of particles for two bins or more cannot be computed. -/
theorem c106_no_error_permitted (z : ℝ) {k : ℕ} (hk : 1 < k) : Filter.kldSize 0 z k = .error .conversion := by
  unfold Filter.kldSize
  have hk' : (0 : ℝ) < ((k - 1 : ℕ) : ℝ) := by exact_mod_cast (by omega : 0 < k - 1)
  have e : (Fl.fin ((k - 1 : ℕ) : ℝ) / Fl.fin (2 * 0)) = .pinf := by
    show Fl.div _ _ = _
    simp only [Fl.div, mul_zero, if_true]
    rw [if_neg hk'.ne', if_pos hk']
  rw [e]
  set c : ℝ := _ with hc
  show toU64F (Fl.mul (Fl.mul (Fl.mul .pinf (.fin c)) (.fin c)) (.fin c)) = _
  rcases lt_trichotomy c 0 with h | h | h
  · simp [Fl.mul, Fl.infMul, h.ne, h.not_gt, toU64F]
  · simp [Fl.mul, Fl.infMul, h, toU64F]
  · simp [Fl.mul, Fl.infMul, h, h.ne', toU64F]

example : Filter.kldSize 0 2.3 2 = .error .conversion := c106_no_error_permitted _ (by norm_num)

end

end Ndt
