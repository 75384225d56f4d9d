import Verif.Proof.RoundedSquares
import Verif.Spec.RoundedOffsets

/-! # Points of a scan at an offset, in double precision -/

namespace Ndt.Rounded

open Spec

noncomputable section

variable {rd co si : ℝ → ℝ} {es : Mat2 ℝ → ℝ × ℝ}

theorem offset_within (hr : RoundsToNearest rd) {P : ℝ} {mt : Matcher} (hw : WindowWithin P mt) {i j k : ℕ} (ht : Tried rd mt i j k) :
    |(offsetOf rd mt i j k).x| ≤ P ∧ |(offsetOf rd mt i j k).y| ≤ P ∧ |(offsetOf rd mt i j k).theta| ≤ 4 := by
  obtain ⟨t1, t2, t3⟩ := ht
  have h1 := t1 i le_rfl
  have h2 := t2 j le_rfl
  have h3 := t3 k le_rfl
  have g1 := searchVal_ge hr hw.angularDouble hw.angularRes i
  have g2 := searchVal_ge hr hw.linearDouble hw.linearRes j
  have g3 := searchVal_ge hr hw.linearDouble hw.linearRes k
  have l1 := hw.linear
  have l2 := hw.angular
  refine ⟨abs_le.mpr ⟨?_, ?_⟩, abs_le.mpr ⟨?_, ?_⟩, abs_le.mpr ⟨?_, ?_⟩⟩ <;> (simp only [offsetOf]; linarith)

/-- A beam at an offset, as it is computed. -/
def beamAt (rd co si : ℝ → ℝ) (pose o : Pose2d) (p : Point) : Point :=
  ⟨rd (rd (turnX rd co si (rd (pose.theta + o.theta)) p + pose.x) + o.x), rd (rd (turnY rd co si (rd (pose.theta + o.theta)) p + pose.y) + o.y)⟩

theorem beamAt_near (hr : RoundsToNearest rd) (hcs : Accurate co si) {P : ℝ} (hP : 1 ≤ P) {pose o : Pose2d} {p : Point} (hx : |pose.x| ≤ P) (hy : |pose.y| ≤ P)
    (hθ : |pose.theta| ≤ 4) (ox : |o.x| ≤ P) (oy : |o.y| ≤ P) (oθ : |o.theta| ≤ 4) (px : |p.x| ≤ P) (py : |p.y| ≤ P) :
    (|(beamAt rd co si pose o p).x - (move (offBy pose o) p).x| ≤ 5e-15 * P ∧ |(beamAt rd co si pose o p).y - (move (offBy pose o) p).y| ≤ 5e-15 * P) ∧
    |(move (offBy pose o) p).x| ≤ 4 * P ∧ |(move (offBy pose o) p).y| ≤ 4 * P := by
  have hθ8 : |pose.theta + o.theta| ≤ 8 := (abs_add_le _ _).trans (by linarith)
  have hrθ := rd_far hr hθ8 (by norm_num)
  obtain ⟨c1, s1, c2, s2⟩ := accurate_facts hcs (rd (pose.theta + o.theta))
  have c3 := Real.abs_cos_le_one (rd (pose.theta + o.theta))
  have s3 := Real.abs_sin_le_one (rd (pose.theta + o.theta))
  have cc : |Real.cos (rd (pose.theta + o.theta)) - Real.cos (pose.theta + o.theta)| ≤ 9.6e-16 := by
    refine (Real.abs_cos_sub_cos_le _ _).trans (hrθ.trans (by norm_num))
  have ss : |Real.sin (rd (pose.theta + o.theta)) - Real.sin (pose.theta + o.theta)| ≤ 9.6e-16 := by
    refine (Real.abs_sin_sub_sin_le _ _).trans (hrθ.trans (by norm_num))
  have c4 := Real.abs_cos_le_one (pose.theta + o.theta)
  have s4 := Real.abs_sin_le_one (pose.theta + o.theta)
  have t1 := abs_le.mp (turned_sub_near hr c1 s1 c3 s3 c2 s2 px py)
  have t2 := abs_le.mp (turned_near hr s1 c1 s3 c3 s2 c2 px py)
  have g : ∀ {c x b : ℝ}, 0 ≤ b → |c| ≤ b → |x| ≤ P → |c * x| ≤ b * P := by
    intro c x b hb h1 h2
    rw [abs_mul]
    exact mul_le_mul h1 h2 (abs_nonneg _) hb
  have d1 := abs_le.mp (g (by norm_num) cc px)
  have d2 := abs_le.mp (g (by norm_num) cc py)
  have d3 := abs_le.mp (g (by norm_num) ss px)
  have d4 := abs_le.mp (g (by norm_num) ss py)
  have g1 := abs_le.mp (g zero_le_one c4 px)
  have g2 := abs_le.mp (g zero_le_one s4 py)
  have g3 := abs_le.mp (g zero_le_one s4 px)
  have g4 := abs_le.mp (g zero_le_one c4 py)
  have hx2 := abs_le.mp hx
  have hy2 := abs_le.mp hy
  have ox2 := abs_le.mp ox
  have oy2 := abs_le.mp oy
  have add : ∀ {a b t u : ℝ}, -P ≤ a ∧ a ≤ P → -P ≤ b ∧ b ≤ P → -(3.3e-15 * P + 4e-30) ≤ t - u ∧ t - u ≤ 3.3e-15 * P + 4e-30 → -(2 * P) ≤ u ∧ u ≤ 2 * P →
      |rd (rd (t + a) + b) - (a + b + u)| ≤ 5e-15 * P := by
    intro a b t u h1 h1' h2 h3
    have h4 : |t + a| ≤ 3.1 * P := by
      rw [abs_le]
      norm_num at h2 ⊢
      constructor <;> linarith
    have h5 := abs_le.mp (rd_far hr h4 (by norm_num; linarith))
    have h6 : |rd (t + a) + b| ≤ 4.2 * P := by
      have := abs_le.mp h4
      rw [abs_le]
      norm_num at this h5 ⊢
      constructor <;> linarith
    have h7 := abs_le.mp (rd_far hr h6 (by norm_num; linarith))
    rw [abs_le]
    norm_num at h2 h5 h7 ⊢
    constructor <;> linarith
  unfold beamAt turnX turnY move offBy
  simp only
  rw [mul_comm p.x, mul_comm p.y, mul_comm p.x, mul_comm p.y, add_sub_assoc, add_assoc (pose.y + o.y)]
  refine ⟨⟨add hx2 ox2 ?_ ⟨by linarith, by linarith⟩, add hy2 oy2 ?_ ⟨by linarith, by linarith⟩⟩, abs_le.mpr ⟨by linarith, by linarith⟩, abs_le.mpr ⟨by linarith, by linarith⟩⟩
  · norm_num at t1 d1 d4 ⊢
    constructor <;> linarith
  · norm_num at t2 d3 d2 ⊢
    constructor <;> linarith

theorem normalOf_beamAt (hr : RoundsToNearest rd) (hcs : Accurate co si) {B s τ K P : ℝ} (hs : 1e-12 ≤ s) {mt mt' : Matcher} {scans : List Scan}
    (hm : addScans rd co si es mt scans = .ok mt') {g : NdtGrid} (hg : mt'.ndt = some g) (hc0 : 0 < mt.resolution)
    (hsc : s ≤ mt.resolution * mt.resolution) (hsz : g.sizeX * g.sizeY ≤ 2 ^ 31)
    (hsq : SquaresWithin rd co si g scans B s τ K) (hP : 1 ≤ P) (hPc : 18 * P ≤ 2 ^ 31 * mt.resolution) (hox : |g.originX| ≤ 7 * P) (hoy : |g.originY| ≤ 7 * P)
    {pose o : Pose2d} {p : Point} (hx : |pose.x| ≤ P) (hy : |pose.y| ≤ P) (hθ : |pose.theta| ≤ 4) (ox : |o.x| ≤ P) (oy : |o.y| ≤ P) (oθ : |o.theta| ≤ 4)
    (px : |p.x| ≤ P) (py : |p.y| ≤ P) (hl : ClearOfLines g (1.25e-14 * P) (move (offBy pose o) p)) :
    |normalIn rd co si g scans (beamAt rd co si pose o p) - normalOf rd co si g scans (move (offBy pose o) p)| ≤ 1.6e-14 * (mt.resolution * P / s) := by
  have hs0 : 0 < s := lt_of_lt_of_le (by norm_num) hs
  obtain ⟨gc, hc6⟩ : g.cellSize = mt.resolution ∧ 1e-6 ≤ g.cellSize := by
    obtain ⟨g', e, gc, -⟩ := addScans_cells hm
    subst e
    cases Option.some.inj hg
    refine ⟨gc, ?_⟩
    rw [gc]
    by_contra hh
    have := mul_lt_mul'' (not_le.mp hh) (not_le.mp hh) hc0.le hc0.le
    norm_num at this hs
    linarith
  rw [← gc] at hPc hc0 ⊢
  obtain ⟨⟨h1, h2⟩, h5, h6⟩ := beamAt_near hr hcs hP hx hy hθ ox oy oθ px py
  have e0 : 5e-15 * P = 2e-15 * (2.5 * P) := by ring
  have hi := index_eq hr (P := 2.5 * P) (by norm_num; linarith) hc0 (by norm_num at hPc ⊢; linarith) (hox.trans (by norm_num; linarith))
    (hoy.trans (by norm_num; linarith)) hsz (h5.trans (by norm_num; linarith)) (h6.trans (by norm_num; linarith)) (by rw [← e0]; exact h1)
    (by rw [← e0]; exact h2) (by
      have e1 : 5e-15 * (2.5 * P) = 1.25e-14 * P := by ring
      rw [e1]
      exact hl)
  have h3 := normalOf_near hr hs0 hc6 hsz hsq hi h1 h2 (by
    norm_num at hPc ⊢
    linarith)
  refine h3.trans ?_
  have e : 3.1 * (g.cellSize * (5e-15 * P) / s) = 1.55e-14 * (g.cellSize * P / s) := by ring
  rw [e]
  exact mul_le_mul_of_nonneg_right (by norm_num) (by positivity)

/-- Sums over the beams, as they are computed and as they are. -/
theorem normalsSeen_near {g : NdtGrid} {scans : List Scan} {points : List Point} {m : ℕ} {pose o : Pose2d} {L : ℝ}
    (hok : ∃ outer, outerPoints rd co si points m pose o.theta = .ok outer)
    (h : ∀ p ∈ points, |normalIn rd co si g scans (beamAt rd co si pose o p) - normalOf rd co si g scans (move (offBy pose o) p)| ≤ L) :
    |normalSum rd co si g scans points m pose o - normalsSeen rd co si g scans points m (offBy pose o)| ≤ m * L := by
  obtain ⟨outer, ho⟩ := hok
  unfold normalSum normalsSeen
  rw [ho]
  simp only
  unfold outerPoints at ho
  have key : ∀ (l : List ℕ) (outer : List Point), (l.mapM fun i => do
      let p ← beam rd points m i
      (pure ⟨rd (turnX rd co si (rd (pose.theta + o.theta)) p + pose.x), rd (turnY rd co si (rd (pose.theta + o.theta)) p + pose.y)⟩ : Res Point)) = .ok outer →
      |(outer.map fun p => normalIn rd co si g scans ⟨rd (p.x + o.x), rd (p.y + o.y)⟩).sum - (l.map fun i =>
        match beam rd points m i with
        | .ok p => normalOf rd co si g scans (move (offBy pose o) p)
        | .error _ => 0).sum| ≤ l.length * L := by
    intro l
    induction l with
    | nil =>
      intro outer h
      cases h
      simp
    | cons i l ih =>
      intro outer h1
      rw [List.mapM_cons] at h1
      cases hb : beam rd points m i with
      | error e => rw [hb] at h1; cases h1
      | ok p =>
        rw [hb] at h1
        simp only [Res.ok_bind, Res.pure_eq] at h1
        revert h1
        generalize hX : (l.mapM fun i => do
          let p ← beam rd points m i
          (Except.ok ⟨rd (turnX rd co si (rd (pose.theta + o.theta)) p + pose.x), rd (turnY rd co si (rd (pose.theta + o.theta)) p + pose.y)⟩ : Res Point)) = X
        intro h1
        cases X with
        | error e => cases h1
        | ok rest =>
          cases h1
          have h2 := abs_le.mp (ih rest hX)
          have h3 := abs_le.mp (h p (beam_mem hb))
          unfold beamAt at h3
          simp only [List.map_cons, List.sum_cons, List.length_cons, hb]
          push_cast
          rw [abs_le]
          constructor <;> linarith
  have := key (List.range m) outer ho
  rwa [List.length_range] at this

end

end Ndt.Rounded
