import Verif.Proof.Rounded
import Verif.Proof.OccupancyGrid
import Verif.Spec.RoundedGrid

/-! # Proofs about the occupancy grid in double precision -/

namespace Ndt.Rounded

noncomputable section

open Spec OccGrid

variable {rd : ℝ → ℝ} {co si : ℝ → ℝ}

theorem endPoint_mapPoint (pose : Pose2d) (p : Point) : endPoint rd co si pose p = mapPoint rd co si pose p := by
  unfold endPoint mapPoint
  rw [add_comm, add_comm (turnY _ _ _ _ _)]

/-- The computed positions of the points of some scans. -/
def places (rd co si : ℝ → ℝ) (scans : List Scan) : List Point := (measured scans).map fun q => mapPoint rd co si q.1 q.2

theorem foldl_widen (ps : List Point) : ∀ g : OccGrid, ps.foldl OccGrid.widen g =
    { g with minX := (ps.map (·.x)).foldl (fun lo x => min x lo) g.minX
             maxX := (ps.map (·.x)).foldl (fun lo x => max x lo) g.maxX
             minY := (ps.map (·.y)).foldl (fun lo x => min x lo) g.minY
             maxY := (ps.map (·.y)).foldl (fun lo x => max x lo) g.maxY } := by
  induction ps with
  | nil => intro g; rfl
  | cons p ps ih => intro g; rw [List.foldl_cons, ih]; rfl

theorem widenScans_places (scans : List Scan) : ∀ g : OccGrid,
    scans.foldl (widenScan rd co si) g = (places rd co si scans).foldl OccGrid.widen g := by
  induction scans with
  | nil => intro g; rfl
  | cons s scans ih =>
    intro g
    have h : places rd co si (s :: scans) = (s.points.map fun p => mapPoint rd co si s.pose p) ++ places rd co si scans := by
      unfold places measured
      rw [List.flatMap_cons, List.map_append, List.map_map]
      rfl
    rw [List.foldl_cons, ih, h, List.foldl_append]
    congr 1
    unfold widenScan
    rw [List.foldl_map]
    rfl

/-- What is known of a grid object that was given some scans: its bounds are those of at most as many updates, in which
every point of the scans took part. -/
structure Tracks (rd co si : ℝ → ℝ) (res : ℝ) (R : ℕ) (scans : List Scan) (g : OccGrid) : Prop where
  res_eq : g.resolution = res
  num : g.numScans = scans.length
  ex : ∃ pss : List (List Point), pss.length ≤ scans.length ∧ (∀ ps ∈ pss, ∀ p ∈ ps, |p.x| ≤ R * res ∧ |p.y| ≤ R * res) ∧
    (g.minX, g.maxX) = axisAfter rd res (pss.map fun ps => ps.map (·.x)) ∧
    (g.minY, g.maxY) = axisAfter rd res (pss.map fun ps => ps.map (·.y)) ∧
    ∀ p ∈ places rd co si scans, ∃ ps ∈ pss, p ∈ ps

theorem measured_append (a b : List Scan) : measured (a ++ b) = measured a ++ measured b := by
  unfold measured; rw [List.flatMap_append]

theorem Tracks.update {res : ℝ} {R : ℕ} {old scans : List Scan} {g : OccGrid} (t : Tracks rd co si res R old g)
    (hp : old <+: scans) (hne : scans.length ≠ g.numScans) (hw : ComputedWithin rd co si (R * res) scans) :
    Tracks rd co si res R scans (updateBounds rd co si g scans) := by
  obtain ⟨new, rfl⟩ := hp
  obtain ⟨pss, h1, h2, h3, h4, h5⟩ := t.ex
  have hdrop : (old ++ new).drop g.numScans = new := by rw [t.num, List.drop_left]
  have hlen : 1 ≤ new.length := by
    rw [t.num, List.length_append] at hne
    omega
  have hg : updateBounds rd co si g (old ++ new) =
      { g with numScans := (old ++ new).length,
               minX := (updateAxis rd res (g.minX, g.maxX) ((places rd co si new).map (·.x))).1,
               maxX := (updateAxis rd res (g.minX, g.maxX) ((places rd co si new).map (·.x))).2,
               minY := (updateAxis rd res (g.minY, g.maxY) ((places rd co si new).map (·.y))).1,
               maxY := (updateAxis rd res (g.minY, g.maxY) ((places rd co si new).map (·.y))).2 } := by
    unfold updateBounds
    rw [hdrop, widenScans_places, foldl_widen]
    simp only [t.res_eq, updateAxis]
  rw [hg]
  refine ⟨t.res_eq, rfl, pss ++ [places rd co si new], ?_, ?_, ?_, ?_, ?_⟩
  · simp only [List.length_append, List.length_singleton]; omega
  · intro ps hps p hp
    rcases List.mem_append.mp hps with hps | hps
    · exact h2 ps hps p hp
    · rw [List.mem_singleton] at hps
      subst hps
      obtain ⟨q, hq, rfl⟩ := List.mem_map.mp hp
      exact hw q (by rw [measured_append]; exact List.mem_append_right _ hq)
  · show ((updateAxis rd res (g.minX, g.maxX) _).1, (updateAxis rd res (g.minX, g.maxX) _).2) = _
    rw [h3, List.map_append]
    unfold axisAfter
    rw [List.foldl_append]
    rfl
  · show ((updateAxis rd res (g.minY, g.maxY) _).1, (updateAxis rd res (g.minY, g.maxY) _).2) = _
    rw [h4, List.map_append]
    unfold axisAfter
    rw [List.foldl_append]
    rfl
  · intro p hp
    unfold places at hp
    rw [measured_append, List.map_append] at hp
    rcases List.mem_append.mp hp with hp | hp
    · obtain ⟨ps, k1, k2⟩ := h5 p hp
      exact ⟨ps, List.mem_append_left _ k1, k2⟩
    · exact ⟨_, List.mem_append_right _ (List.mem_singleton_self _), hp⟩

/-- One axis of a tracked grid: a size of at most 45000, and a column (or row) for everything between two points. -/
theorem bounds_ok (h : RoundsToNearest rd) {res : ℝ} (hr : 2⁻¹ ^ 1000 ≤ res) {R n : ℕ} (hRn : R + n ≤ 22000) {b : ℝ × ℝ}
    {xss : List (List ℝ)} (hn : xss.length ≤ n) (hx : ∀ xs ∈ xss, ∀ x ∈ xs, |x| ≤ R * res) (hb : b = axisAfter rd res xss) :
    ∃ w : ℕ, gridSize rd res b.1 b.2 = .ok w ∧ w ≤ 45000 ∧ ∀ x, (∃ xs ∈ xss, ∃ y ∈ xs, y ≤ x) → (∃ xs ∈ xss, ∃ y ∈ xs, x ≤ y) →
      ∃ k, gridCell rd res (gridOrigin rd res b.1) x = .ok k ∧ (0 ≤ k ∧ k < w) ∧ Near50 res (gridOrigin rd res b.1) x k := by
  have hres : 0 < res := lt_of_lt_of_le (by positivity) hr
  obtain ⟨a, c, ha0, hc0, ha, hc, hb', hcov⟩ := axisInv h hr (R := R) (by omega) xss hx (by omega)
  have hRR : (R : ℝ) ≤ 2 ^ 27 := by
    have : R ≤ 2 ^ 27 := by omega
    exact_mod_cast this
  have hz : (a : ℝ) ≤ rd (0 / res) ∧ rd (0 / res) ≤ c := by
    rw [zero_div, h.exact isDouble_zero]
    exact ⟨by exact_mod_cast ha0, by exact_mod_cast hc0⟩
  obtain ⟨w, k, hw, _, _, _, hle, _⟩ := axis_cell h hr ha0 hc0 (by omega) (by omega) (x := 0)
    (by rw [abs_zero]; positivity) hz.1 hz.2
  rw [hb, hb']
  refine ⟨w, hw, by omega, ?_⟩
  rintro x ⟨xs, k1, y, k2, k3⟩ ⟨xs', k4, y', k5, k6⟩
  have e1 := (abs_le.mp (hx xs k1 y k2)).1
  have e2 := (abs_le.mp (hx xs' k4 y' k5)).2
  have hx1 : |x| ≤ 2 ^ 27 * res := by
    have : (R : ℝ) * res ≤ 2 ^ 27 * res := mul_le_mul_of_nonneg_right hRR hres.le
    exact abs_le.mpr ⟨by linarith, by linarith⟩
  have l1 : (a : ℝ) ≤ rd (x / res) := (hcov xs k1 y k2).1.trans (h.mono (div_le_div_of_nonneg_right k3 hres.le))
  have l2 : rd (x / res) ≤ c := (h.mono (div_le_div_of_nonneg_right k6 hres.le)).trans (hcov xs' k4 y' k5).2
  obtain ⟨w', k', hw', g1, g2, g3, _, g4⟩ := axis_cell h hr ha0 hc0 (by omega) (by omega) hx1 l1 l2
  rw [hw'] at hw
  injection hw with hw
  subst hw
  exact ⟨k', g1, ⟨g2, g3⟩, g4⟩

theorem goodRay_of_inside {w h : ℕ} (hw : w ≤ 45000) (hh : h ≤ 45000) {s e : GCell}
    (hs : (0 ≤ s.1 ∧ s.1 < w) ∧ (0 ≤ s.2 ∧ s.2 < h)) (he : (0 ≤ e.1 ∧ e.1 < w) ∧ (0 ≤ e.2 ∧ e.2 < h)) :
    GoodRay (w * h % 2 ^ 32) w ⟨s.1, s.2, e.1, e.2⟩ := by
  have hsize : w * h < 2 ^ 31 := lt_of_le_of_lt (Nat.mul_le_mul hw hh) (by norm_num)
  refine ⟨⟨?_, ?_⟩, ?_⟩
  · unfold Ray.dx
    rw [abs_lt]
    constructor <;> simp only <;> omega
  · unfold Ray.dy
    rw [neg_neg, abs_lt]
    constructor <;> simp only <;> omega
  · intro c hc
    obtain ⟨⟨b1, b2⟩, b3, b4⟩ := Ray.trace_inBox _ hc
    simp only at b1 b2 b3 b4
    obtain ⟨i1, i2, i3⟩ := cellIndex_eq hsize (c := c) ⟨by omega, by omega⟩ ⟨by omega, by omega⟩
    unfold InArray
    rw [i1, Nat.mod_eq_of_lt (by omega)]
    exact ⟨i2, i3⟩

theorem foldlM_ok {α β : Type} (f : β → α → Res β) (l : List α) (hf : ∀ b, ∀ a ∈ l, ∃ b', f b a = .ok b') :
    ∀ b, ∃ b', l.foldlM f b = .ok b' := by
  induction l with
  | nil => intro b; exact ⟨b, rfl⟩
  | cons a l ih =>
    intro b
    obtain ⟨b', h⟩ := hf b a List.mem_cons_self
    rw [List.foldlM_cons, h, Res.ok_bind]
    exact ih (fun b a ha => hf b a (List.mem_cons_of_mem _ ha)) b'

theorem mem_places {scans : List Scan} {s : Scan} (hs : s ∈ scans) {p : Point} (hp : p ∈ s.points) :
    mapPoint rd co si s.pose p ∈ places rd co si scans := by
  unfold places measured
  rw [List.mem_map]
  exact ⟨(s.pose, p), List.mem_flatMap.mpr ⟨s, hs, List.mem_map.mpr ⟨p, hp, rfl⟩⟩, rfl⟩

/-- The ray between two squares. -/
def rayBetween (s e : GCell) : Ray := ⟨s.1, s.2, e.1, e.2⟩

theorem rays_traces {g : OccGrid} {ox oy : ℝ} {size width : ℕ} {pose : Pose2d} {st : GCell} {en : Pose2d × Point → GCell}
    (ps : List Point) (he : ∀ p ∈ ps, squareOf rd g ox oy (mapPoint rd co si pose p) = .ok (en (pose, p)) ∧
      GoodRay size width (rayBetween st (en (pose, p)))) : ∀ cnt : Counts,
    ps.foldlM (fun cnt p => do
      let e ← squareOf rd g ox oy (endPoint rd co si pose p)
      renderRay size width cnt ⟨st.1, st.2, e.1, e.2⟩) cnt =
      .ok (addTraces width cnt (ps.map fun p => (rayBetween st (en (pose, p))).trace)) := by
  induction ps with
  | nil => intro cnt; rfl
  | cons p ps ih =>
    intro cnt
    obtain ⟨h1, h2⟩ := he p List.mem_cons_self
    rw [List.foldlM_cons, endPoint_mapPoint, h1, Res.ok_bind]
    have := renderRay_ok_iff.mpr ⟨h2, (rfl : addTraces width cnt _ = _)⟩
    unfold rayBetween at this
    rw [this, Res.ok_bind, ih (fun p hp => he p (List.mem_cons_of_mem _ hp)), addTraces_append]
    rfl

theorem scans_traces {g : OccGrid} {ox oy : ℝ} {size width : ℕ} {st : Pose2d → GCell} {en : Pose2d × Point → GCell}
    (scans : List Scan) (hs : ∀ s ∈ scans, squareOf rd g ox oy ⟨s.pose.x, s.pose.y⟩ = .ok (st s.pose) ∧
      ∀ p ∈ s.points, squareOf rd g ox oy (mapPoint rd co si s.pose p) = .ok (en (s.pose, p)) ∧
        GoodRay size width (rayBetween (st s.pose) (en (s.pose, p)))) : ∀ cnt : Counts,
    scans.foldlM (renderScan rd co si g ox oy size width) cnt =
      .ok (addTraces width cnt ((measured scans).map fun q => (rayBetween (st q.1) (en q)).trace)) := by
  induction scans with
  | nil => intro cnt; rfl
  | cons s scans ih =>
    intro cnt
    obtain ⟨h1, h2⟩ := hs s List.mem_cons_self
    have h1' : squareOf rd g ox oy ⟨s.getPose.x, s.getPose.y⟩ = .ok (st s.pose) := h1
    have hmeas : measured (s :: scans) = (s.points.map fun p => (s.pose, p)) ++ measured scans := rfl
    rw [List.foldlM_cons]
    have : renderScan rd co si g ox oy size width cnt s =
        .ok (addTraces width cnt (s.points.map fun p => (rayBetween (st s.pose) (en (s.pose, p))).trace)) := by
      unfold renderScan
      rw [h1', Res.ok_bind]
      exact rays_traces s.points h2 cnt
    rw [this, Res.ok_bind, ih (fun s hs' => hs s (List.mem_cons_of_mem _ hs')), addTraces_append, hmeas, List.map_append,
      List.map_map]
    rfl

theorem cellIndex_inj {w h : ℕ} (hs : w * h < 2 ^ 31) {x y : ℕ} (hx : x < w) {c : GCell}
    (hc : (0 ≤ c.1 ∧ c.1 < w) ∧ (0 ≤ c.2 ∧ c.2 < h)) :
    cellIndex w c = ((x + y * w : ℕ) : ℤ) ↔ c = ((x : ℤ), (y : ℤ)) := by
  rw [(cellIndex_eq hs hc.1 hc.2).1]
  constructor
  · intro heq
    push_cast at heq
    have hy' : c.2 = y := by
      by_contra hne
      rcases lt_or_gt_of_ne hne with hlt' | hlt'
      · have : (c.2 + 1) * (w : ℤ) ≤ y * w := mul_le_mul_of_nonneg_right (by omega) (by omega)
        nlinarith [hc.1.2]
      · have : ((y : ℤ) + 1) * (w : ℤ) ≤ c.2 * w := mul_le_mul_of_nonneg_right (by omega) (by omega)
        have h2 : (x : ℤ) < w := by exact_mod_cast hx
        nlinarith [hc.1.1]
    refine Prod.ext ?_ hy'
    rw [hy'] at heq
    simp only
    omega
  · rintro rfl
    push_cast
    rfl

theorem cellValue_cases (thresh : ℝ) (hits empties : ℕ) : cellValue rd thresh hits empties =
    if hits = 0 ∧ empties = 0 then -1 else if thresh < rd ((hits : ℝ) / (hits + empties : ℕ)) then 100 else 0 := by
  unfold cellValue
  simp only
  by_cases h : hits = 0 ∧ empties = 0
  · rw [if_pos h, if_neg (by rw [h.1, h.2]; norm_num)]
  · rw [if_neg h, if_pos]
    have : 1 ≤ hits + empties := by omega
    have : (1 : ℝ) ≤ ((hits + empties : ℕ) : ℝ) := by exact_mod_cast this
    show (0.5 : ℝ) < _
    linarith [show (0.5 : ℝ) < 1 by norm_num]

theorem Tracks.render (h : RoundsToNearest rd) {res : ℝ} (hr : 2⁻¹ ^ 1000 ≤ res) {R : ℕ} {scans : List Scan} {g : OccGrid}
    (t : Tracks rd co si res R scans g) (hRn : R + scans.length ≤ 22000) (hs : ∀ s ∈ scans, ComputedSurrounded rd co si s) :
    ∃ m, render rd co si g scans = .ok m ∧ m.resolution = g.resolution ∧ (m.width ≤ 45000 ∧ m.height ≤ 45000) ∧
      Drawn rd co si g.occThresh scans m := by
  obtain ⟨pss, h1, h2, h3, h4, h5⟩ := t.ex
  obtain ⟨w, w1, w2, w3⟩ := bounds_ok h hr hRn (xss := pss.map fun ps => ps.map (·.x)) (by simpa using h1) (by
    intro xs hxs x hx
    obtain ⟨ps, k1, rfl⟩ := List.mem_map.mp hxs
    obtain ⟨p, k2, rfl⟩ := List.mem_map.mp hx
    exact (h2 ps k1 p k2).1) h3
  obtain ⟨v, v1, v2, v3⟩ := bounds_ok h hr hRn (xss := pss.map fun ps => ps.map (·.y)) (by simpa using h1) (by
    intro xs hxs x hx
    obtain ⟨ps, k1, rfl⟩ := List.mem_map.mp hxs
    obtain ⟨p, k2, rfl⟩ := List.mem_map.mp hx
    exact (h2 ps k1 p k2).2) h4
  simp only at w1 w3 v1 v3
  have hmx : ∀ p ∈ places rd co si scans, ∃ xs ∈ pss.map fun ps : List Point => ps.map (·.x), p.x ∈ xs := by
    intro p hp
    obtain ⟨ps, k1, k2⟩ := h5 p hp
    exact ⟨_, List.mem_map.mpr ⟨ps, k1, rfl⟩, List.mem_map.mpr ⟨p, k2, rfl⟩⟩
  have hmy : ∀ p ∈ places rd co si scans, ∃ xs ∈ pss.map fun ps : List Point => ps.map (·.y), p.y ∈ xs := by
    intro p hp
    obtain ⟨ps, k1, k2⟩ := h5 p hp
    exact ⟨_, List.mem_map.mpr ⟨ps, k1, rfl⟩, List.mem_map.mpr ⟨p, k2, rfl⟩⟩
  set ox := gridOrigin rd g.resolution g.minX with hox
  set oy := gridOrigin rd g.resolution g.minY with hoy
  let Good : Point → GCell → Prop := fun z c => ((0 ≤ c.1 ∧ c.1 < w) ∧ (0 ≤ c.2 ∧ c.2 < v)) ∧
    Near50 g.resolution ox z.x c.1 ∧ Near50 g.resolution oy z.y c.2
  -- the cell of something with points around it
  have cell : ∀ z : Point, (∃ p ∈ places rd co si scans, p.x ≤ z.x) → (∃ p ∈ places rd co si scans, z.x ≤ p.x) →
      (∃ p ∈ places rd co si scans, p.y ≤ z.y) → (∃ p ∈ places rd co si scans, z.y ≤ p.y) →
      ∃ c : GCell, squareOf rd g ox oy z = .ok c ∧ Good z c := by
    rintro z ⟨p1, m1, l1⟩ ⟨p2, m2, l2⟩ ⟨p3, m3, l3⟩ ⟨p4, m4, l4⟩
    obtain ⟨a1, b1, c1⟩ := hmx p1 m1
    obtain ⟨a2, b2, c2⟩ := hmx p2 m2
    obtain ⟨a3, b3, c3⟩ := hmy p3 m3
    obtain ⟨a4, b4, c4⟩ := hmy p4 m4
    obtain ⟨k, e1, e2, n1⟩ := w3 z.x ⟨a1, b1, _, c1, l1⟩ ⟨a2, b2, _, c2, l2⟩
    obtain ⟨k', e3, e4, n2⟩ := v3 z.y ⟨a3, b3, _, c3, l3⟩ ⟨a4, b4, _, c4, l4⟩
    rw [← t.res_eq] at e1 e3 n1 n2
    refine ⟨(k, k'), ?_, ⟨e2, e4⟩, n1, n2⟩
    unfold squareOf
    rw [hox, hoy, e1, Res.ok_bind, e3, Res.ok_bind]
  have hpose : ∀ s ∈ scans, ∃ c : GCell,
      squareOf rd g ox oy ⟨s.pose.x, s.pose.y⟩ = .ok c ∧ Good ⟨s.pose.x, s.pose.y⟩ c := by
    intro s hss
    obtain ⟨⟨p1, m1, l1⟩, ⟨p2, m2, l2⟩, ⟨p3, m3, l3⟩, ⟨p4, m4, l4⟩⟩ := hs s hss
    exact cell ⟨s.pose.x, s.pose.y⟩ ⟨_, mem_places hss m1, l1⟩ ⟨_, mem_places hss m2, l2⟩ ⟨_, mem_places hss m3, l3⟩
      ⟨_, mem_places hss m4, l4⟩
  have hpoint : ∀ s ∈ scans, ∀ p ∈ s.points, ∃ c : GCell,
      squareOf rd g ox oy (mapPoint rd co si s.pose p) = .ok c ∧
        Good (mapPoint rd co si s.pose p) c := by
    intro s hss p hp
    have := mem_places (rd := rd) (co := co) (si := si) hss hp
    exact cell _ ⟨_, this, le_rfl⟩ ⟨_, this, le_rfl⟩ ⟨_, this, le_rfl⟩ ⟨_, this, le_rfl⟩
  let st : Pose2d → GCell := fun pose => (squareOf rd g ox oy ⟨pose.x, pose.y⟩).toOption.getD (0, 0)
  let en : Pose2d × Point → GCell := fun q => (squareOf rd g ox oy (mapPoint rd co si q.1 q.2)).toOption.getD (0, 0)
  have hst : ∀ s ∈ scans, squareOf rd g ox oy ⟨s.pose.x, s.pose.y⟩ = .ok (st s.pose) ∧ Good ⟨s.pose.x, s.pose.y⟩ (st s.pose) := by
    intro s hss
    obtain ⟨c, c1, c2⟩ := hpose s hss
    have : st s.pose = c := by
      show (squareOf rd g ox oy ⟨s.pose.x, s.pose.y⟩).toOption.getD (0, 0) = c
      rw [c1]; rfl
    rw [this]
    exact ⟨c1, c2⟩
  have hen : ∀ s ∈ scans, ∀ p ∈ s.points, squareOf rd g ox oy (mapPoint rd co si s.pose p) = .ok (en (s.pose, p)) ∧
      Good (mapPoint rd co si s.pose p) (en (s.pose, p)) := by
    intro s hss p hp
    obtain ⟨c, c1, c2⟩ := hpoint s hss p hp
    have : en (s.pose, p) = c := by
      show (squareOf rd g ox oy (mapPoint rd co si s.pose p)).toOption.getD (0, 0) = c
      rw [c1]; rfl
    rw [this]
    exact ⟨c1, c2⟩
  have hsize : w * v < 2 ^ 31 := lt_of_le_of_lt (Nat.mul_le_mul w2 v2) (by norm_num)
  have hmod : w * v % 2 ^ 32 = w * v := Nat.mod_eq_of_lt (by omega)
  have hcnt := scans_traces (rd := rd) (co := co) (si := si) (g := g) (ox := ox) (oy := oy) (size := w * v % 2 ^ 32) (width := w)
    (st := st) (en := en) scans (fun s hss => ⟨(hst s hss).1, fun p hp => ⟨(hen s hss p hp).1,
      goodRay_of_inside w2 v2 (hst s hss).2.1 (hen s hss p hp).2.1⟩⟩) ⟨fun _ => 0, fun _ => 0⟩
  have hq : ∀ q ∈ measured scans, Good ⟨q.1.x, q.1.y⟩ (st q.1) ∧ Good (mapPoint rd co si q.1 q.2) (en q) := by
    intro q hq
    obtain ⟨s, hss, hq⟩ := List.mem_flatMap.mp hq
    obtain ⟨p, hp, rfl⟩ := List.mem_map.mp hq
    exact ⟨(hst s hss).2, (hen s hss p hp).2⟩
  have hin : ∀ q ∈ measured scans, ∀ c ∈ (rayBetween (st q.1) (en q)).trace.1 ++ [(rayBetween (st q.1) (en q)).trace.2],
      (0 ≤ c.1 ∧ c.1 < w) ∧ (0 ≤ c.2 ∧ c.2 < v) := by
    intro q hqm c hc
    obtain ⟨⟨⟨⟨a1, a2⟩, a3, a4⟩, _⟩, ⟨⟨⟨a5, a6⟩, a7, a8⟩, _⟩⟩ := hq q hqm
    obtain ⟨⟨b1, b2⟩, b3, b4⟩ := Ray.trace_inBox _ hc
    simp only [rayBetween] at b1 b2 b3 b4
    exact ⟨⟨by omega, by omega⟩, by omega, by omega⟩
  refine ⟨_, by
    unfold Rounded.render
    rw [t.res_eq, w1, Res.ok_bind, v1, Res.ok_bind]
    simp only [← t.res_eq, ← hox, ← hoy, hcnt, Res.ok_bind]
    rfl, rfl, ⟨w2, v2⟩, ?_⟩
  refine ⟨by simp only [List.length_map, List.length_range, hmod], (measured scans).map fun q =>
    (rayBetween (st q.1) (en q)).trace, ?_, ?_, ?_⟩
  · rw [List.forall₂_map_right_iff, List.forall₂_same]
    intro q hqm
    obtain ⟨⟨_, n1, n2⟩, ⟨_, n3, n4⟩⟩ := hq q hqm
    exact ⟨st q.1, en q, ⟨n1, n2⟩, ⟨n3, n4⟩, (Ray.traced_iff _ _ _).mpr rfl⟩
  · intro tr htr c hc
    obtain ⟨q, hqm, rfl⟩ := List.mem_map.mp htr
    exact hin q hqm c hc
  · intro x y hx hy
    simp only at hx hy ⊢
    have hcell := cellIndex_eq hsize (c := ((x : ℤ), (y : ℤ))) ⟨by simp, by simpa using hx⟩ ⟨by simp, by simpa using hy⟩
    simp only at hcell
    have hlt : x + y * w < w * v := by
      have := hcell.2.2
      exact_mod_cast this
    rw [hmod, List.getElem?_map, List.getElem?_range hlt, Option.map_some, ← cellValue_cases]
    congr 2
    · unfold addTraces
      simp only [zero_add]
      apply List.countP_congr
      intro tr htr
      obtain ⟨q, hqm, rfl⟩ := List.mem_map.mp htr
      simpa using cellIndex_inj hsize hx (hin q hqm _ (by simp))
    · unfold addTraces
      simp only [zero_add]
      apply List.countP_congr
      intro c hc
      obtain ⟨tr, htr, hct⟩ := List.mem_flatMap.mp hc
      obtain ⟨q, hqm, rfl⟩ := List.mem_map.mp htr
      simpa using cellIndex_inj hsize hx (hin q hqm _ (List.mem_append_left _ hct))

theorem tracks_new {res thresh : ℝ} {R : ℕ} : Tracks rd co si res R [] (OccGrid.new res thresh) :=
  ⟨rfl, rfl, [], le_rfl, fun _ h => absurd h List.not_mem_nil, rfl, rfl, fun _ h => absurd h List.not_mem_nil⟩

theorem Tracks.getMsg (h : RoundsToNearest rd) {res : ℝ} (hr : 2⁻¹ ^ 1000 ≤ res) {R : ℕ} {old scans : List Scan} {g : OccGrid}
    (t : Tracks rd co si res R old g) (hp : old <+: scans) (hRn : R + scans.length ≤ 22000)
    (hw : ComputedWithin rd co si (R * res) scans) (hs : ∀ s ∈ scans, ComputedSurrounded rd co si s) :
    ∃ g' m, getMsg rd co si g scans = .ok (g', m) ∧ Tracks rd co si res R scans g' ∧ g'.occThresh = g.occThresh ∧
      m.resolution = res ∧ (m.width ≤ 45000 ∧ m.height ≤ 45000) ∧ Drawn rd co si g.occThresh scans m := by
  have key : Tracks rd co si res R scans (if scans.length ≠ g.numScans then updateBounds rd co si g scans else g) := by
    split
    · rename_i hne
      exact t.update hp hne hw
    · rename_i he
      push Not at he
      have : old = scans := hp.eq_of_length (by rw [he, t.num])
      subst this
      exact t
  have hth : (if scans.length ≠ g.numScans then updateBounds rd co si g scans else g).occThresh = g.occThresh := by
    split
    · unfold updateBounds
      simp only
      rw [widenScans_places, foldl_widen]
    · rfl
  obtain ⟨m, m1, m2, mz, m3⟩ := key.render h hr hRn hs
  rw [hth] at m3
  refine ⟨_, m, ?_, key, hth, m2.trans key.res_eq, mz, m3⟩
  unfold Rounded.getMsg
  simp only [m1, Res.ok_bind]

end

end Ndt.Rounded
