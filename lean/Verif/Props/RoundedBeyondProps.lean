import Verif.Proof.RoundedBeyond
import Verif.Props.RoundedOffsetsProps

/-! # Property C156: how far from the map a point may be -/

namespace Ndt

open Rounded

/-- **C156** (what holds) The square of a point that is not more than `2^32 - 1` squares to the right of the map's origin and above it is found
without undefined behaviour; so is that of a point left of the map or below it, however far. -/
theorem c156_within_partial {rd : ℝ → ℝ} (hr : Spec.RoundsToNearest rd) {g : NdtGrid} (h0 : 1e-200 ≤ g.cellSize) {p : Point}
    (h : (p.x < g.originX ∨ p.y < g.originY) ∨ (p.x ≤ g.originX + (2 ^ 32 - 1) * g.cellSize ∧ p.y ≤ g.originY + (2 ^ 32 - 1) * g.cellSize)) :
    ∃ i, getIndex rd g p.x p.y = .ok i := by
  unfold getIndex
  by_cases hl : p.x < g.originX ∨ p.y < g.originY
  · rw [if_pos hl]
    exact ⟨_, rfl⟩
  · rw [if_neg hl]
    obtain ⟨hx, hy⟩ := not_or.mp hl
    obtain ⟨h1, h2⟩ := h.resolve_left hl
    obtain ⟨n, hn⟩ := column_within hr h0 (not_lt.mp hx) h1
    obtain ⟨k, hk⟩ := column_within hr h0 (not_lt.mp hy) h2
    rw [hn, hk]
    simp only [Res.ok_bind]
    split_ifs
    · exact ⟨_, rfl⟩
    · exact ⟨_, rfl⟩

/-- **C156** (what holds) A point left of the map or below it, or a square or more beyond its right or upper edge but not more than `2^32 - 1` squares, gets
the likelihood zero. -/
theorem c156_outside_partial {rd : ℝ → ℝ} (hr : Spec.RoundsToNearest rd) {g : NdtGrid} (h0 : 1e-200 ≤ g.cellSize) {p : Point}
    (h : (p.x < g.originX ∨ p.y < g.originY) ∨ ((p.x ≤ g.originX + (2 ^ 32 - 1) * g.cellSize ∧ p.y ≤ g.originY + (2 ^ 32 - 1) * g.cellSize) ∧
      (g.originX + (g.sizeX + 1) * g.cellSize ≤ p.x ∨ g.originY + (g.sizeY + 1) * g.cellSize ≤ p.y))) :
    likelihood rd g p = .ok (.fin 0) := by
  have key : getIndex rd g p.x p.y = .ok (-1) := by
    unfold getIndex
    by_cases hl : p.x < g.originX ∨ p.y < g.originY
    · rw [if_pos hl]
    · rw [if_neg hl]
      obtain ⟨hx, hy⟩ := not_or.mp hl
      obtain ⟨⟨h1, h2⟩, h3⟩ := h.resolve_left hl
      obtain ⟨n, hn⟩ := column_within hr h0 (not_lt.mp hx) h1
      obtain ⟨k, hk⟩ := column_within hr h0 (not_lt.mp hy) h2
      rw [hn, hk]
      simp only [Res.ok_bind]
      rw [if_pos]
      · rfl
      · rcases h3 with h3 | h3
        · exact Or.inl (column_outside hr h0 h3 h1 hn)
        · exact Or.inr (column_outside hr h0 h3 h2 hk)
  unfold likelihood
  rw [key]
  rfl

/-- **C156** (where it fails) A point that is `2^32` squares or more to the right of the map's origin or above it is converted to a column or row that
does not fit an `unsigned int`, which is undefined. -/
theorem c156_beyond {rd : ℝ → ℝ} (hr : Spec.RoundsToNearest rd) {g : NdtGrid} (hc : Spec.IsDouble g.cellSize) (h0 : 0 < g.cellSize) {p : Point}
    (h : Spec.Beyond g 0 p) : getIndex rd g p.x p.y = .error .conversion ∧ likelihood rd g p = .error .conversion :=
  ⟨index_beyond hr hc h0 h, likelihood_beyond hr hc h0 h⟩

/-- **C156** (where it fails) A single particle so far off that the beams seen from it are beyond the squares: `measure` does not return. -/
theorem c156_far_particle {rd co si : ℝ → ℝ} (hr : Spec.RoundsToNearest rd) (hcs : Spec.Accurate co si) {mt : Matcher} {g : NdtGrid} (hg : mt.ndt = some g)
    (hc : Spec.IsDouble g.cellSize) (h0 : 0 < g.cellSize) {P : ℝ} (hP : 1 ≤ P) (hb : 0 < mt.laserMaxBeams) {points : List Point} (hne : points ≠ [])
    (hpts : ∀ p ∈ points, |p.x| ≤ P ∧ |p.y| ≤ P) {particles : List Pose2d} {a : Pose2d} (ha : a ∈ particles) (hx : |a.x| ≤ P) (hy : |a.y| ≤ P)
    (hfar : ∀ p ∈ points, Spec.Beyond g (2e-15 * P) (Spec.move a p)) (r : Weighed) : measure rd co si mt points particles ≠ .ok r := by
  intro h
  unfold Rounded.measure at h
  cases h1 : particles.mapM (scorePoints rd co si mt points) with
  | error e => rw [h1] at h; cases h
  | ok scores =>
    obtain ⟨v, -, hv⟩ := mapM_mem' h1 a ha
    unfold scorePoints at hv
    rw [hg] at hv
    obtain ⟨m, hm⟩ : ∃ m, min mt.laserMaxBeams points.length = m + 1 :=
      ⟨_, (Nat.succ_pred_eq_of_pos (lt_min hb (List.length_pos_iff.mpr hne))).symm⟩
    simp only [hm, List.range_succ_eq_map, List.foldlM_cons] at hv
    cases h2 : beam rd points (m + 1) 0 with
    | error e => rw [h2] at hv; cases hv
    | ok p =>
      have hp := beam_mem h2
      obtain ⟨n1, n2⟩ := c154_moved_near hr hcs hP hx hy (hpts p hp).1 (hpts p hp).2
      rw [h2] at hv
      simp only [Res.ok_bind, likelihood_beyond hr hc h0 (beyond_near (hfar p hp) n1 n2)] at hv
      cases hv

/-- **C156** (where it fails) A scan that is matched where its beams are beyond the squares, at some offset of the search: `matchScan` does not return. -/
theorem c156_far_scan {rd co si : ℝ → ℝ} (hr : Spec.RoundsToNearest rd) (hcs : Spec.Accurate co si) {mt : Matcher} {g : NdtGrid} (hg : mt.ndt = some g)
    (hc : Spec.IsDouble g.cellSize) (h0 : 0 < g.cellSize) {P : ℝ} (hP : 1 ≤ P) (hb : 0 < mt.laserMaxBeams) {scan : Scan} (hne : scan.points ≠ [])
    (hpts : ∀ p ∈ scan.points, |p.x| ≤ P ∧ |p.y| ≤ P) (hx : |scan.pose.x| ≤ P) (hy : |scan.pose.y| ≤ P) (hθ : |scan.pose.theta| ≤ 4)
    (hw : Spec.WindowWithin P mt) {i j k : ℕ} (ht : Spec.Tried rd mt i j k)
    (hfar : ∀ p ∈ scan.points, Spec.Beyond g (5e-15 * P) (Spec.move (Spec.offBy scan.pose (Spec.offsetOf rd mt i j k)) p))
    (pose : Pose2d) (cov : Mat3F) (r : Matcher.MatchResult) : matchScan rd co si mt scan pose cov ≠ .ok r := by
  intro h
  obtain ⟨v, hv⟩ := (c128_best_of_the_offsets hg h).1 i j k ht
  obtain ⟨o1, o2, o3⟩ := offset_within hr hw ht
  obtain ⟨m, hm⟩ : ∃ m, min mt.laserMaxBeams scan.points.length = m + 1 :=
    ⟨_, (Nat.succ_pred_eq_of_pos (lt_min hb (List.length_pos_iff.mpr hne))).symm⟩
  simp only [Spec.likelihoodAt, hm] at hv
  cases ho : outerPoints rd co si scan.points (m + 1) scan.pose (Spec.offsetOf rd mt i j k).theta with
  | error e => rw [ho] at hv; cases hv
  | ok outer =>
    rw [ho, Res.ok_bind] at hv
    have hnear := c155_beam_near hr hcs hP hx hy hθ o1 o2 o3 hpts ho
    cases outer with
    | nil =>
      unfold outerPoints at ho
      obtain ⟨b, hb, -⟩ := mapM_mem' ho 0 (by simp)
      cases hb
    | cons q rest =>
      obtain ⟨p, hp, n1, n2⟩ := hnear q (by simp)
      have hl := likelihood_beyond hr hc h0 (p := ⟨rd (q.x + (Spec.offsetOf rd mt i j k).x), rd (q.y + (Spec.offsetOf rd mt i j k).y)⟩) (beyond_near (hfar p hp) n1 n2)
      unfold shiftedScore likelihoodPoints at hv
      simp only [List.map_cons, List.foldlM_cons, hl] at hv
      cases hv

/-- The hypotheses of the first two theorems: a point a kilometre to the right of the map of four corners and the middle. -/
example (cells : List Cell) : likelihood rnd ⟨4, 6, 6, -10, -10, cells⟩ ⟨1000, 0⟩ = .ok (.fin 0) :=
  c156_outside_partial rnd_rounds (by norm_num) (Or.inr ⟨⟨by norm_num, by norm_num⟩, Or.inl (by norm_num)⟩)

/-- The hypotheses of the other theorems: the map of four corners and the middle, and a robot 2^40 metres to the right. -/
example : ∃ mt, addScans rnd Demo.cosR Demo.sinR eigenvalues (Demo.matcher 4 10) [Demo.scanOf cornersAndMiddle] = .ok mt ∧
    (∀ r, measure rnd Demo.cosR Demo.sinR mt [⟨0, 0⟩] [Pose2d.zero, ⟨2 ^ 40, 0, 0⟩] ≠ .ok r) ∧
    ∀ r, matchScan rnd Demo.cosR Demo.sinR mt { Demo.scanOf [⟨0, 0⟩] with pose := ⟨2 ^ 40, 0, 0⟩ } Pose2d.zero (fun _ _ => .fin 0) ≠ .ok r := by
  obtain ⟨g, -, h1, -, -, ⟨cells, hc⟩, -⟩ := corner_measure
  have t0 := Demo.tiny_pos
  have t1 : Demo.tiny ≤ 0.1 := by norm_num [Demo.tiny]
  have h0 : Visits rnd Demo.tiny (2 * Demo.tiny) 0 := by
    intro i hi
    have : i = 0 := by omega
    subst this
    show -Demo.tiny < Demo.tiny
    linarith
  have ht : Spec.Tried rnd { Demo.matcher 4 10 with ndt := some g } 0 0 0 := ⟨h0, h0, h0⟩
  have hd : Spec.IsDouble g.cellSize := by
    have := isDouble_two_pow 2
    rw [hc]
    norm_num at this ⊢
    exact this
  have hw : Spec.WindowWithin (2 ^ 40) { Demo.matcher 4 10 with ndt := some g } :=
    ⟨Demo.isDouble_tiny, Demo.isDouble_tiny, by show 0 ≤ 2 * Demo.tiny; linarith, by show 0 ≤ 2 * Demo.tiny; linarith,
      by show Demo.tiny ≤ 2 ^ 40; norm_num at t1 ⊢; linarith, by show Demo.tiny ≤ 4; norm_num at t1; linarith⟩
  refine ⟨_, h1, fun r => ?_, fun r => ?_⟩
  · refine c156_far_particle rnd_rounds accurate_demo rfl hd (by rw [hc]; norm_num) (P := 2 ^ 40) (by norm_num) (by norm_num [Demo.matcher]) (by simp) (by simp)
      (a := ⟨2 ^ 40, 0, 0⟩) (by simp) (by norm_num) (by norm_num) ?_ r
    intro p hp
    simp only [List.mem_singleton] at hp
    subst hp
    rw [hc]
    simp only [Spec.Beyond, Spec.move]
    norm_num
  · refine c156_far_scan rnd_rounds accurate_demo rfl hd (by rw [hc]; norm_num) (P := 2 ^ 40) (by norm_num) (by norm_num [Demo.matcher]) (by simp [Demo.scanOf])
      (by simp [Demo.scanOf]) (by norm_num) (by norm_num) (by norm_num) hw ht ?_ _ _ r
    intro p hp
    simp only [Demo.scanOf, List.mem_singleton] at hp
    subst hp
    rw [hc]
    show Spec.Beyond _ _ (Spec.move ⟨2 ^ 40 + -Demo.tiny, 0 + -Demo.tiny, 0 + -Demo.tiny⟩ ⟨0, 0⟩)
    simp only [Spec.Beyond, Spec.move]
    norm_num at t1 ⊢
    refine ⟨by linarith, by linarith, Or.inl (by linarith)⟩

end Ndt
