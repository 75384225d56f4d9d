import Verif.Proof.RoundedMatcher
import Verif.Proof.RoundedGrid
import Verif.Spec.RoundedEnds
import Verif.Props.RoundingProps

/-! # Helper lemmas: making a map and matching in double precision come to an end without a fault -/

namespace Ndt.Rounded

open Spec

noncomputable section

variable {rd co si : ℝ → ℝ} {es : Mat2 ℝ → ℝ × ℝ}

theorem rd_twice (hr : RoundsToNearest rd) {x X : ℝ} (hX : 1 ≤ X) (h : |x| ≤ X) : |rd x| ≤ 2 * X := by
  have h1 := hr.error x
  have h2 : |rd x| ≤ |rd x - x| + |x| := by
    have := abs_add_le (rd x - x) x
    simpa using this
  have h3 : (2⁻¹ : ℝ) ^ 53 * |x| ≤ 2⁻¹ * |x| := by
    refine mul_le_mul_of_nonneg_right ?_ (abs_nonneg _)
    norm_num
  have h4 : halfMin ≤ 2⁻¹ := by simpa using halfMin_le (k := 1) (by norm_num)
  linarith

/-- Bounds of the numbers that occur: `P` bounds coordinates of points and poses, the range and the window. -/
theorem turned_le (hr : RoundsToNearest rd) {P c s x y : ℝ} (hP : 1 ≤ P) (hc : |c| ≤ 2) (hs : |s| ≤ 2) (hx : |x| ≤ P) (hy : |y| ≤ P) :
    |rd (rd (x * c) - rd (y * s))| ≤ 16 * P ∧ |rd (rd (x * s) + rd (y * c))| ≤ 16 * P := by
  have prod : ∀ a b : ℝ, |a| ≤ P → |b| ≤ 2 → |rd (a * b)| ≤ 4 * P := by
    intro a b ha hb
    have h1 : |a * b| ≤ 2 * P := by
      rw [abs_mul]
      calc |a| * |b| ≤ P * 2 := mul_le_mul ha hb (abs_nonneg _) (by linarith)
        _ = 2 * P := by ring
    have := rd_twice hr (by linarith : (1 : ℝ) ≤ 2 * P) h1
    linarith
  constructor
  · have h1 : |rd (x * c) - rd (y * s)| ≤ 8 * P := by
      have := abs_sub (rd (x * c)) (rd (y * s))
      linarith [prod x c hx hc, prod y s hy hs]
    have := rd_twice hr (by linarith : (1 : ℝ) ≤ 8 * P) h1
    linarith
  · have h1 : |rd (x * s) + rd (y * c)| ≤ 8 * P := by
      have := abs_add_le (rd (x * s)) (rd (y * c))
      linarith [prod x s hx hs, prod y c hy hc]
    have := rd_twice hr (by linarith : (1 : ℝ) ≤ 8 * P) h1
    linarith

theorem add_twice (hr : RoundsToNearest rd) {x y X Y : ℝ} (hX : 1 ≤ X) (hx : |x| ≤ X) (hy : |y| ≤ Y) : |rd (x + y)| ≤ 2 * (X + Y) := by
  refine rd_twice hr ?_ ((abs_add_le x y).trans (by linarith))
  have := abs_nonneg y
  linarith

/-- A point that is not too far away has an index, or is outside. -/
theorem getIndex_total (hr : RoundsToNearest rd) {g : NdtGrid} (hc : 0 < g.cellSize) {M : ℝ} (hM : 1 ≤ M) (hMc : 2 ^ 4 * M ≤ 2 ^ 31 * g.cellSize)
    (hox : |g.originX| ≤ M) (hoy : |g.originY| ≤ M) (hlen : g.cells.length = g.sizeX * g.sizeY) (hsz : g.sizeX * g.sizeY ≤ 2 ^ 31)
    {x y : ℝ} (hx : |x| ≤ M) (hy : |y| ≤ M) :
    ∃ i : ℤ, getIndex rd g x y = .ok i ∧ (0 ≤ i → i.toNat < g.cells.length) := by
  have axis : ∀ z o : ℝ, |z| ≤ M → |o| ≤ M → o ≤ z → ∃ k, toU32F (Fl.rounded rd (.fin (rd (z - o)) / .fin g.cellSize)) = .ok k := by
    intro z o hz ho hoz
    have h1 : |rd (z - o)| ≤ 4 * M := by
      have := add_twice hr hM hz (y := -o) (Y := M) (by rwa [abs_neg])
      rw [← sub_eq_add_neg] at this
      linarith
    have h0 : 0 ≤ rd (z - o) := hr.nonneg (by linarith)
    rw [abs_of_nonneg h0] at h1
    have h2 : rd (z - o) / g.cellSize ≤ 2 ^ 29 := by
      rw [div_le_iff₀ hc]
      have : (2 : ℝ) ^ 4 * M ≤ 2 ^ 31 * g.cellSize := hMc
      norm_num at this ⊢
      linarith
    have h3 : rd (rd (z - o) / g.cellSize) ≤ 2 ^ 29 := hr.le_of_le (isDouble_two_pow 29) h2
    rw [Fl.fin_div hc.ne', Fl.rounded_fin]
    refine ⟨_, toU32_of_nonneg (hr.nonneg (by positivity)) (lt_of_le_of_lt h3 (by norm_num))⟩
  unfold getIndex
  by_cases hin : x < g.originX ∨ y < g.originY
  · rw [if_pos hin]
    exact ⟨-1, rfl, fun h => absurd h (by norm_num)⟩
  · rw [if_neg hin]
    push Not at hin
    obtain ⟨kx, ex⟩ := axis x g.originX hx hox hin.1
    obtain ⟨ky, ey⟩ := axis y g.originY hy hoy hin.2
    rw [ex, ey]
    simp only [Res.ok_bind]
    by_cases hk : kx ≥ g.sizeX ∨ ky ≥ g.sizeY
    · rw [if_pos hk]
      exact ⟨-1, rfl, fun h => absurd h (by norm_num)⟩
    · rw [if_neg hk]
      push Not at hk
      obtain ⟨lx, ly⟩ := hk
      have hidx : ky * g.sizeX + kx < g.sizeX * g.sizeY := by
        have : (ky + 1) * g.sizeX ≤ g.sizeY * g.sizeX := Nat.mul_le_mul_right _ ly
        have e : (ky + 1) * g.sizeX = ky * g.sizeX + g.sizeX := by ring
        rw [e, Nat.mul_comm g.sizeY] at this
        omega
      refine ⟨_, rfl, fun _ => ?_⟩
      rw [Nat.mod_eq_of_lt (by omega), wrapI32_of_lt (by omega), Int.toNat_natCast, hlen]
      exact hidx

theorem likelihood_total (hr : RoundsToNearest rd) {g : NdtGrid} (hc : 0 < g.cellSize) {M : ℝ} (hM : 1 ≤ M)
    (hMc : 2 ^ 4 * M ≤ 2 ^ 31 * g.cellSize)
    (hox : |g.originX| ≤ M) (hoy : |g.originY| ≤ M) (hlen : g.cells.length = g.sizeX * g.sizeY) (hsz : g.sizeX * g.sizeY ≤ 2 ^ 31)
    {p : Point} (hx : |p.x| ≤ M) (hy : |p.y| ≤ M) : ∃ v, likelihood rd g p = .ok v := by
  obtain ⟨i, hi, hb⟩ := getIndex_total hr hc hM hMc hox hoy hlen hsz hx hy
  unfold likelihood
  rw [hi]
  simp only [Res.ok_bind]
  by_cases h0 : 0 ≤ i
  · rw [if_pos h0, List.getElem?_eq_getElem (hb h0)]
    exact ⟨_, rfl⟩
  · rw [if_neg h0]
    exact ⟨_, rfl⟩

theorem mapM_ok {α β : Type} (f : α → Res β) (Q : β → Prop) (l : List α) (hf : ∀ a ∈ l, ∃ b, f a = .ok b ∧ Q b) :
    ∃ r, l.mapM f = .ok r ∧ ∀ b ∈ r, Q b := by
  induction l with
  | nil => exact ⟨[], rfl, fun b hb => (List.not_mem_nil hb).elim⟩
  | cons a l ih =>
    obtain ⟨b, hb, hq⟩ := hf a List.mem_cons_self
    obtain ⟨r, hr, hrq⟩ := ih fun a ha => hf a (List.mem_cons_of_mem _ ha)
    rw [List.mapM_cons, hb, hr]
    refine ⟨b :: r, rfl, fun c hc => ?_⟩
    rcases List.mem_cons.mp hc with rfl | hc
    · exact hq
    · exact hrq c hc

theorem outerPoints_total (hr : RoundsToNearest rd) (hco : ∀ x, |co x| ≤ 2) (hsi : ∀ x, |si x| ≤ 2) {P : ℝ} (hP : 1 ≤ P) {points : List Point}
    (hpts : ∀ p ∈ points, |p.x| ≤ P ∧ |p.y| ≤ P) (hn : points.length ≤ 2 ^ 51) (maxBeams : ℕ) {pose : Pose2d} (hpx : |pose.x| ≤ P)
    (hpy : |pose.y| ≤ P) (dth : ℝ) :
    ∃ outer, outerPoints rd co si points (min maxBeams points.length) pose dth = .ok outer ∧ ∀ p ∈ outer, |p.x| ≤ 34 * P ∧ |p.y| ≤ 34 * P := by
  unfold outerPoints
  refine mapM_ok _ _ _ fun i hi => ?_
  obtain ⟨idx, e, hlt⟩ := (c79_beam_indices hr (maxBeams := maxBeams) hn).1 i (List.mem_range.mp hi)
  unfold beam
  rw [e]
  simp only [Res.ok_bind]
  rw [List.getElem?_eq_getElem hlt]
  have hp := hpts _ (List.getElem_mem hlt)
  obtain ⟨t1, t2⟩ := turned_le hr hP (hco (rd (pose.theta + dth))) (hsi (rd (pose.theta + dth))) hp.1 hp.2
  refine ⟨_, rfl, ?_, ?_⟩
  · have := add_twice hr (by linarith : (1 : ℝ) ≤ 16 * P) t1 hpx
    unfold turnX
    dsimp only
    linarith
  · have := add_twice hr (by linarith : (1 : ℝ) ≤ 16 * P) t2 hpy
    unfold turnY
    dsimp only
    linarith

theorem shiftedScore_total (hr : RoundsToNearest rd) {g : NdtGrid} (hc : 0 < g.cellSize) {P : ℝ} (hP : 1 ≤ P)
    (hMc : 2 ^ 11 * P ≤ 2 ^ 31 * g.cellSize) (hox : |g.originX| ≤ 4 * P) (hoy : |g.originY| ≤ 4 * P)
    (hlen : g.cells.length = g.sizeX * g.sizeY) (hsz : g.sizeX * g.sizeY ≤ 2 ^ 31) {outer : List Point}
    (ho : ∀ p ∈ outer, |p.x| ≤ 34 * P ∧ |p.y| ≤ 34 * P) {dx dy : ℝ} (hx : |dx| ≤ P) (hy : |dy| ≤ P) :
    ∃ v, shiftedScore rd g outer dx dy = .ok v := by
  unfold shiftedScore likelihoodPoints
  refine foldlM_ok _ _ ?_ _
  intro b q hq
  obtain ⟨p, hp, rfl⟩ := List.mem_map.mp hq
  obtain ⟨h1, h2⟩ := ho p hp
  have k1 := add_twice hr (by linarith : (1 : ℝ) ≤ 34 * P) h1 hx
  have k2 := add_twice hr (by linarith : (1 : ℝ) ≤ 34 * P) h2 hy
  obtain ⟨v, hv⟩ := likelihood_total hr (M := 70 * P) hc (by linarith) (by norm_num at hMc ⊢; linarith) (by linarith) (by linarith) hlen hsz
    (p := ⟨rd (p.x + dx), rd (p.y + dy)⟩) (by dsimp only; linarith) (by dsimp only; linarith)
  rw [hv]
  exact ⟨_, rfl⟩

theorem searchVals_total (hr : RoundsToNearest rd) {size res : ℝ} (hs : IsDouble size)
    (h1 : 2⁻¹ ^ 51 * size ≤ res) (h2 : 2⁻¹ ^ 1000 ≤ res) :
    ∃ l, searchVals rd size res = .ok l ∧ ∀ d ∈ l, |d| ≤ size := by
  have hend : ∃ n, ¬ Visits rd size res n := by
    rcases lt_or_ge 0 size with h0 | h0
    · obtain ⟨n, hn⟩ := exists_nat_ge (4 * size / res)
      exact ⟨n, c80_ends_partial hr hs h0 h1 h2 hn⟩
    · refine ⟨0, fun hv => ?_⟩
      have : -size < size := hv 0 le_rfl
      linarith
  obtain ⟨n, hn⟩ := hend
  obtain ⟨l, hl⟩ := searchVals_ok hn
  refine ⟨l, hl, fun d hd => ?_⟩
  obtain ⟨N, rfl, hN⟩ := searchVals_eq_map hl
  obtain ⟨k, hk, rfl⟩ := List.mem_map.mp hd
  have hres : 0 ≤ res := le_trans (by positivity) h2
  obtain ⟨a1, a2⟩ := c80_within_window hr hs hres ((hN k).mp (List.mem_range.mp hk))
  exact abs_le.mpr ⟨a1, a2.le⟩

theorem matchScan_total (hr : RoundsToNearest rd) (hco : ∀ x, |co x| ≤ 2) (hsi : ∀ x, |si x| ≤ 2) {P : ℝ} (hP : 1 ≤ P) {mt : Matcher}
    {g : NdtGrid} (hg : mt.ndt = some g) (hw : SearchWithin P mt) (hc : 0 < g.cellSize) (hMc : 2 ^ 11 * P ≤ 2 ^ 31 * g.cellSize)
    (hox : |g.originX| ≤ 4 * P) (hoy : |g.originY| ≤ 4 * P)
    (hlen : g.cells.length = g.sizeX * g.sizeY) (hsz : g.sizeX * g.sizeY ≤ 2 ^ 31) {scan : Scan}
    (hpts : ∀ p ∈ scan.points, |p.x| ≤ P ∧ |p.y| ≤ P) (hn : scan.points.length ≤ 2 ^ 51) (hpx : |scan.pose.x| ≤ P)
    (hpy : |scan.pose.y| ≤ P) (pose : Pose2d) (cov : Mat3F) : ∃ r, matchScan rd co si mt scan pose cov = .ok r := by
  obtain ⟨dths, e1, -⟩ := searchVals_total hr hw.angular hw.angularRes hw.angularRes'
  obtain ⟨ds, e2, hd⟩ := searchVals_total hr hw.linear hw.linearRes hw.linearRes'
  have key : ∀ a, ∃ b, search rd co si mt g scan.points (min mt.laserMaxBeams scan.points.length) scan.pose a = .ok b := by
    intro a
    unfold search
    rw [e1, e2]
    simp only [Res.ok_bind]
    refine foldlM_ok _ _ ?_ a
    intro a dth _
    obtain ⟨outer, ho, hob⟩ := outerPoints_total hr hco hsi hP hpts hn mt.laserMaxBeams hpx hpy dth
    rw [ho]
    simp only [Res.ok_bind]
    refine foldlM_ok _ _ ?_ a
    intro a dx hdx
    refine foldlM_ok _ _ ?_ a
    intro a dy hdy
    obtain ⟨v, hv⟩ := shiftedScore_total hr hc hP hMc hox hoy hlen hsz hob ((hd dx hdx).trans hw.linearP) ((hd dy hdy).trans hw.linearP)
    rw [hv]
    exact ⟨_, rfl⟩
  unfold matchScan
  rw [hg]
  obtain ⟨b, hb⟩ := key { best := .fin 0, pose, k := fun _ _ => .fin 0, u := fun _ => .fin 0, s := .fin 0 }
  have hb' : search rd co si mt g scan.getPoints (min mt.laserMaxBeams scan.getPoints.length) scan.getPose
      { best := .fin 0, pose, k := fun _ _ => .fin 0, u := fun _ => .fin 0, s := .fin 0 } = .ok b := hb
  simp only [hb', Res.ok_bind]
  exact ⟨_, rfl⟩

/-! ### Making the map -/

theorem bbox_le (hr : RoundsToNearest rd) {P R : ℝ} (hP : 1 ≤ P) (hR0 : 0 ≤ R) (hR : R ≤ P) {scans : List Scan} (hne : scans ≠ [])
    (hs : ∀ s ∈ scans, |s.pose.x| ≤ P ∧ |s.pose.y| ≤ P) :
    let b := bbox rd R scans;
    -(4 * P) ≤ b.minX ∧ b.minX ≤ 4 * P ∧ -(4 * P) ≤ b.minY ∧ b.minY ≤ 4 * P ∧ b.minX ≤ b.maxX ∧ b.maxX ≤ 4 * P ∧ b.minY ≤ b.maxY ∧ b.maxY ≤ 4 * P := by
  intro b
  have hdm : (0 : ℝ) ≤ dblMax := by
    unfold dblMax
    exact mul_nonneg (by norm_num) (by positivity)
  have hdn : dblMin ≤ 1 := by
    unfold dblMin
    exact pow_le_one₀ (by norm_num) (by norm_num)
  have lo : ∀ (l : List Scan) (b0 : BBox), (∀ s ∈ l, |s.pose.x| ≤ P ∧ |s.pose.y| ≤ P) →
      -(4 * P) ≤ b0.minX ∧ -(4 * P) ≤ b0.minY ∧ b0.maxX ≤ 4 * P ∧ b0.maxY ≤ 4 * P →
      let b := l.foldl (fun (b : BBox) (s : Scan) =>
      ({ minX := min (rd (s.getPose.x - R)) b.minX, maxX := max (rd (s.getPose.x + R)) b.maxX,
         minY := min (rd (s.getPose.y - R)) b.minY, maxY := max (rd (s.getPose.y + R)) b.maxY } : BBox)) b0;
      -(4 * P) ≤ b.minX ∧ -(4 * P) ≤ b.minY ∧ b.maxX ≤ 4 * P ∧ b.maxY ≤ 4 * P := by
    intro l
    induction l with
    | nil => intro b0 _ h; exact h
    | cons s l ih =>
      intro b0 hl ⟨h1, h2, h3, h4⟩
      obtain ⟨sx, sy⟩ := hl s List.mem_cons_self
      have hR' : |R| ≤ P := by rwa [abs_of_nonneg hR0]
      have hR'' : |-R| ≤ P := by rwa [abs_neg]
      have a1 := abs_le.mp (add_twice hr hP sx hR')
      have a2 := abs_le.mp (add_twice hr hP sy hR')
      have a3 := abs_le.mp (add_twice hr hP sx hR'')
      have a4 := abs_le.mp (add_twice hr hP sy hR'')
      rw [← sub_eq_add_neg] at a3 a4
      refine ih _ (fun t ht => hl t (List.mem_cons_of_mem _ ht)) ⟨?_, ?_, ?_, ?_⟩
      · exact le_min (show -(4 * P) ≤ rd (s.pose.x - R) by linarith [a3.1]) h1
      · exact le_min (show -(4 * P) ≤ rd (s.pose.y - R) by linarith [a4.1]) h2
      · exact max_le (show rd (s.pose.x + R) ≤ 4 * P by linarith [a1.2]) h3
      · exact max_le (show rd (s.pose.y + R) ≤ 4 * P by linarith [a2.2]) h4
  obtain ⟨l1, l2, l3, l4⟩ := lo scans ⟨dblMax, dblMin, dblMax, dblMin⟩ hs
    ⟨(by linarith : -(4 * P) ≤ 0).trans hdm, (by linarith : -(4 * P) ≤ 0).trans hdm, hdn.trans (by linarith), hdn.trans (by linarith)⟩
  obtain ⟨s, hmem⟩ := List.exists_mem_of_ne_nil _ hne
  obtain ⟨-, hb⟩ := bbox_bounds (rd := rd) R scans ⟨dblMax, dblMin, dblMax, dblMin⟩
  obtain ⟨b1, b2, b3, b4⟩ := hb s hmem
  have m1 : rd (s.pose.x - R) ≤ rd (s.pose.x + R) := hr.mono (by linarith)
  have m2 : rd (s.pose.y - R) ≤ rd (s.pose.y + R) := hr.mono (by linarith)
  have c1 : b.minX ≤ b.maxX := (b1.trans m1).trans b2
  have c2 : b.minY ≤ b.maxY := (b3.trans m2).trans b4
  exact ⟨l1, c1.trans l3, l2, c2.trans l4, c1, l3, c2, l4⟩

theorem mapGrid_total (hr : RoundsToNearest rd) {P R res : ℝ} (hP : 1 ≤ P) (hR0 : 0 ≤ R) (hR : R ≤ P) (hres : 0 < res)
    (hMc : P ≤ 2 ^ 11 * res) {scans : List Scan} (hne : scans ≠ []) (hs : ∀ s ∈ scans, |s.pose.x| ≤ P ∧ |s.pose.y| ≤ P) :
    ∃ g, mapGrid rd res R scans = .ok g ∧ |g.originX| ≤ 4 * P ∧ |g.originY| ≤ 4 * P ∧ g.sizeX * g.sizeY ≤ 2 ^ 31 := by
  obtain ⟨x1, x2, y1, y2, x3, x4, y3, y4⟩ := bbox_le hr hP hR0 hR hne hs
  have size : ∀ lo hi : ℝ, -(4 * P) ≤ lo → lo ≤ hi → hi ≤ 4 * P →
      ∃ n, toU64F (Fl.rounded rd (Fl.rounded rd (.fin (rd (hi - lo)) / .fin res) + .fin 1)) = .ok n ∧ n ≤ 2 ^ 15 + 1 := by
    intro lo hi h1 h2 h3
    have h0 : 0 ≤ rd (hi - lo) := hr.nonneg (by linarith)
    have h4 : |rd (hi - lo)| ≤ 16 * P := by
      have := rd_twice hr (x := hi - lo) (by linarith : (1 : ℝ) ≤ 8 * P) (by rw [abs_of_nonneg (by linarith)]; linarith)
      linarith
    rw [abs_of_nonneg h0] at h4
    have h5 : rd (rd (hi - lo) / res) ≤ 2 ^ 15 := by
      refine hr.le_of_le (isDouble_two_pow 15) ?_
      rw [div_le_iff₀ hres]
      norm_num at hMc ⊢
      linarith
    have h6 : rd (rd (rd (hi - lo) / res) + 1) ≤ ((2 ^ 15 + 1 : ℕ) : ℝ) := by
      refine hr.le_of_le (isDouble_nat (by norm_num)) ?_
      push_cast
      linarith
    have h7 : 0 ≤ rd (rd (hi - lo) / res) := hr.nonneg (by positivity)
    have h8 : 0 ≤ rd (rd (rd (hi - lo) / res) + 1) := hr.nonneg (by linarith)
    rw [Fl.fin_div hres.ne', Fl.rounded_fin, Fl.fin_add, Fl.rounded_fin]
    refine ⟨_, toU64_of_nonneg h8 (lt_of_le_of_lt h6 (by norm_num)), ?_⟩
    exact Nat.floor_le_of_le h6
  obtain ⟨nx, ex, lx⟩ := size _ _ x1 x3 x4
  obtain ⟨ny, ey, ly⟩ := size _ _ y1 y3 y4
  unfold mapGrid newGrid
  simp only
  rw [ex, ey]
  refine ⟨_, rfl, abs_le.mpr ⟨x1, x2⟩, abs_le.mpr ⟨y1, y2⟩, ?_⟩
  exact (Nat.mul_le_mul lx ly).trans (by norm_num)

theorem addMapPoints_length {ps : List Point} {g g' : NdtGrid} (h : ps.foldlM (addMapPoint rd) g = .ok g') :
    g'.cells.length = g.cells.length := by
  have c := (addMapPoints_cells h).2
  refine le_antisymm ?_ ?_
  · by_contra hh
    push Not at hh
    have := c g.cells.length
    rw [List.getElem?_eq_getElem hh, List.getElem?_eq_none le_rfl] at this
    cases this
  · by_contra hh
    push Not at hh
    have := c g'.cells.length
    rw [List.getElem?_eq_getElem hh, List.getElem?_eq_none le_rfl] at this
    cases this

theorem addScans_total (hr : RoundsToNearest rd) (hco : ∀ x, |co x| ≤ 2) (hsi : ∀ x, |si x| ≤ 2) {P : ℝ} (hP : 1 ≤ P) {mt : Matcher}
    (hm : MapWithin P mt) {scans : List Scan} (hne : scans ≠ []) (hs : ∀ s ∈ scans, ScanWithin P s) :
    ∃ g, addScans rd co si es mt scans = .ok { mt with ndt := some g } ∧ g.cellSize = mt.resolution ∧
      |g.originX| ≤ 4 * P ∧ |g.originY| ≤ 4 * P ∧ g.cells.length = g.sizeX * g.sizeY ∧ g.sizeX * g.sizeY ≤ 2 ^ 31 := by
  have hres : 0 < mt.resolution := by
    have := hm.squares
    norm_num at this
    linarith
  obtain ⟨g0, h0, hox, hoy, hsz0⟩ := mapGrid_total hr hP hm.range0 hm.range hres hm.squares hne fun s h => ⟨(hs s h).poseX, (hs s h).poseY⟩
  obtain ⟨-, -, gc, -, -, gl⟩ := newGrid_ok hres h0
  have hMc := hm.squares
  have hlen : g0.cells.length = g0.sizeX * g0.sizeY := by rw [gl, Nat.mod_eq_of_lt (by omega)]
  obtain ⟨g1, h1⟩ := addMapPoints_ok (rd := rd) (g := g0) (ps := scans.flatMap fun s => s.points.map (mapPoint rd co si s.pose)) (by
    intro q hq
    obtain ⟨s, hsm, hq⟩ := List.mem_flatMap.mp hq
    obtain ⟨p, hp, rfl⟩ := List.mem_map.mp hq
    obtain ⟨p1, p2⟩ := (hs s hsm).points p hp
    obtain ⟨t1, t2⟩ := turned_le hr hP (hco s.pose.theta) (hsi s.pose.theta) p1 p2
    have k1 := add_twice hr hP (hs s hsm).poseX t1
    have k2 := add_twice hr hP (hs s hsm).poseY t2
    refine getIndex_total hr (M := 34 * P) (by rw [gc]; exact hres) (by linarith) ?_ (by linarith) (by linarith) hlen hsz0 ?_ ?_
    · rw [gc]; norm_num at hMc ⊢; linarith
    · exact k1.trans (by linarith)
    · exact k2.trans (by linarith))
  obtain ⟨f, -⟩ := addMapPoints_cells h1
  have hl := addMapPoints_length h1
  refine ⟨computeAll rd es g1, ?_, f.cellSize.trans gc, ?_, ?_, ?_, ?_⟩
  · unfold addScans
    rw [h0]
    simp only [Res.ok_bind]
    rw [addScans_fold, h1]
    rfl
  · show |g1.originX| ≤ _
    rw [f.originX]; exact hox
  · show |g1.originY| ≤ _
    rw [f.originY]; exact hoy
  · show (g1.cells.map _).length = g1.sizeX * g1.sizeY
    rw [List.length_map, hl, f.sizeX, f.sizeY, hlen]
  · show g1.sizeX * g1.sizeY ≤ _
    rw [f.sizeX, f.sizeY]; exact hsz0

end

end Ndt.Rounded
