import Verif.Proof.OccupancyGrid
import Mathlib.Tactic.FieldSimp
import Mathlib.Tactic.NormNum

/-! # Occupancy grid (C42–C46) -/

namespace Ndt

noncomputable section

open Spec OccGrid

/-! ## C43 Rays -/

/-- C43: for any two cells the loop ends within `|dx| + |dy| + 1` rounds; the outcome does not depend on the cut-off; the
visited cells form a path of neighbours from the start to the one hit, inside the box of the ends, visiting no cell
twice. -/
theorem c43_ray_path (s e : GCell) : ∃ (t : List GCell × GCell) (path : List GCell),
    (Ray.mk s.1 s.2 e.1 e.2).loop (|e.1 - s.1|.toNat + |e.2 - s.2|.toNat + 1) (Ray.mk s.1 s.2 e.1 e.2).start = some t ∧
    (∀ t', Traced s e t' → t' = t) ∧
    (path = t.1 ++ [t.2] ∨ path = t.1) ∧
    path.length ≤ |e.1 - s.1|.toNat + |e.2 - s.2|.toNat + 1 ∧
    path.head? = some s ∧ path.getLast? = some t.2 ∧
    List.IsChain Neighbours path ∧ path.Nodup ∧ ∀ c ∈ path, InBox s e c := by
  have hf : (Ray.mk s.1 s.2 e.1 e.2).fuel = |e.1 - s.1|.toNat + |e.2 - s.2|.toNat + 1 := by
    unfold Ray.fuel Ray.dx Ray.dy
    simp
  obtain ⟨path, h1, h2, h3, h4, h5, h6⟩ := (Ray.mk s.1 s.2 e.1 e.2).trace_path
  have ht := (Ray.mk s.1 s.2 e.1 e.2).loop_trace
  rw [hf] at ht
  refine ⟨(Ray.mk s.1 s.2 e.1 e.2).trace, path, ht, fun t' h => (Ray.traced_iff s e t').mp h, h1, ?_, h2, h3, h4, h5, h6⟩
  -- one cell for each round
  have key : ∀ (r : Ray) (n : ℕ) (st : RayState) t, r.loop n st = some t → t.1.length < n ∨
      (t.1.length ≤ n ∧ t.2 ∈ t.1) := by
    intro r n
    induction n with
    | zero => intro st t h; cases h
    | succ n ih =>
      intro st t h
      unfold Ray.loop at h
      split at h
      · injection h with h; subst h; left; simp
      · split at h
        · injection h with h; subst h; right; simp
        · cases hl : r.loop n _ with
          | none => rw [hl] at h; cases h
          | some q =>
            rw [hl] at h
            injection h with h
            subst h
            rcases ih _ _ hl with h1 | ⟨h1, h2⟩
            · left; simpa using h1
            · right; exact ⟨by simpa using h1, List.mem_cons_of_mem _ h2⟩
  rcases key _ _ _ _ ht with hk | ⟨hk, hm⟩
  · rcases h1 with rfl | rfl
    · rw [List.length_append, List.length_singleton]; omega
    · omega
  · rcases h1 with rfl | rfl
    · rw [List.nodup_append] at h5
      exact absurd rfl (h5.2.2 _ hm _ (by simp))
    · omega

/-- Tracing a ray never runs forever. -/
theorem c43_no_hang (size width : ℕ) (cnt : Counts) (r : Ray) : renderRay size width cnt r ≠ .error .hang := by
  unfold renderRay
  have ht := r.loop_trace
  unfold Ray.fuel at ht
  rw [ht]
  have hb : ∀ a c, bump size width a c ≠ .error .hang := by
    intro a c
    unfold bump
    simp only
    split <;> simp
  have hbs : ∀ (es : List GCell) a, es.foldlM (bump size width) a ≠ .error .hang := by
    intro es
    induction es with
    | nil => intro a h; cases h
    | cons c es ih =>
      intro a
      rw [List.foldlM_cons]
      cases hc : bump size width a c with
      | error x => intro h; exact hb a c (by rw [hc]; exact h)
      | ok a' => exact ih a'
  split
  · simp
  · simp only
    cases h1 : r.trace.1.foldlM (bump size width) cnt.empty with
    | error x => intro h; injection h with h; exact hbs _ _ (by rw [h1, h])
    | ok em =>
      rw [Res.ok_bind]
      cases h2 : bump size width cnt.hit r.trace.2 with
      | error x => intro h; injection h with h; exact hb _ _ (by rw [h2, h])
      | ok hi => intro h; cases h

/-- Example: a ray of slope 1/3. -/
example : Traced (0, 0) (3, 1) ([(0, 0), (1, 1), (2, 1)], (3, 1)) := ⟨5, by decide⟩
/-- Example: a vertical ray, downwards. -/
example : Traced (2, 2) (2, 0) ([(2, 2), (2, 1)], (2, 0)) := ⟨3, by decide⟩

/-! ## C44 The hit -/

/-- C44 (partial: the wanted statement is `t.2 = e ∧ e ∉ t.1` for all rays): exactly which cell is counted as hit. On rays
with `|dy| < |dx| ≤ 2 |dy|` it is the cell beside the end. -/
theorem c44_hit_cell_partial (s e : GCell) (t) (ht : Traced s e t) :
    t.2 = if |e.2 - s.2| < |e.1 - s.1| ∧ |e.1 - s.1| ≤ 2 * |e.2 - s.2| then (e.1 - (e.1 - s.1).sign, e.2) else e := by
  rw [Ray.traced_iff] at ht
  subst ht
  rw [Ray.trace_hit]
  unfold Ray.dy Ray.dx
  simp only [neg_neg]
  by_cases h : |e.2 - s.2| < |e.1 - s.1| ∧ |e.1 - s.1| ≤ 2 * |e.2 - s.2|
  · rw [if_pos h, if_pos h]
    have hne : e.1 - s.1 ≠ 0 := by
      intro h0
      rw [h0, abs_zero] at h
      exact absurd h.1 (not_lt.mpr (abs_nonneg _))
    have : Ray.sx ⟨s.1, s.2, e.1, e.2⟩ = (e.1 - s.1).sign := by
      unfold Ray.sx
      simp only
      split
      · rw [Int.sign_eq_one_of_pos (by omega)]
      · rw [Int.sign_eq_neg_one_of_neg (by omega)]
    rw [this]
  · rw [if_neg h, if_neg h]

/-- C44 (partial): on all other rays the end is the hit and is not counted as empty. -/
theorem c44_end_is_the_hit_partial (s e : GCell) (t) (ht : Traced s e t)
    (h : ¬ (|e.2 - s.2| < |e.1 - s.1| ∧ |e.1 - s.1| ≤ 2 * |e.2 - s.2|)) : t.2 = e ∧ e ∉ t.1 := by
  have h1 := c44_hit_cell_partial s e t ht
  rw [if_neg h] at h1
  refine ⟨h1, ?_⟩
  rw [Ray.traced_iff] at ht
  subst ht
  exact (Ray.trace_end ⟨s.1, s.2, e.1, e.2⟩).1

/-- What happens on those rays: the measured cell is not touched at all, the hit goes to a different cell, which is counted
as empty too. -/
theorem c44_band_misses_the_end (s e : GCell) (t) (ht : Traced s e t)
    (h : |e.2 - s.2| < |e.1 - s.1| ∧ |e.1 - s.1| ≤ 2 * |e.2 - s.2|) : t.2 ≠ e ∧ e ∉ t.1 ∧ t.2 ∈ t.1 := by
  have h1 := c44_hit_cell_partial s e t ht
  rw [if_pos h] at h1
  have hne : t.2 ≠ e := by
    intro hc
    rw [h1] at hc
    have h2 := congrArg Prod.fst hc
    simp only at h2
    have : (e.1 - s.1).sign = 0 := by omega
    rw [Int.sign_eq_zero_iff_zero] at this
    rw [this, abs_zero] at h
    exact absurd h.1 (not_lt.mpr (abs_nonneg _))
  rw [Ray.traced_iff] at ht
  subst ht
  obtain ⟨k1, k2⟩ := Ray.trace_end ⟨s.1, s.2, e.1, e.2⟩
  exact ⟨hne, k1, k2 hne⟩

/-- C44 is violated: the ray from (0,0) to (2,1) hits (1,1). -/
theorem c44_wrong_hit_witness : Traced (0, 0) (2, 1) ([(0, 0), (1, 1)], (1, 1)) := ⟨4, by decide⟩

/-- Example: a ray outside of the band. -/
example : ¬ (|(1 : ℤ) - 0| < |(3 : ℤ) - 0| ∧ |(3 : ℤ) - 0| ≤ 2 * |(1 : ℤ) - 0|) := by decide
/-- Example: a ray in the band. -/
example : |(1 : ℤ) - 0| < |(2 : ℤ) - 0| ∧ |(2 : ℤ) - 0| ≤ 2 * |(1 : ℤ) - 0| := by decide

/-! ## C42 Rendering stays inside -/

/-- C42 (partial: the wanted statement is without the two covering hypotheses): if the extents hold all points and
positions of the scans, rendering is defined and all cells touched are cells of the message. -/
theorem c42_render_inside_partial {g : OccGrid} (hr : 0 < g.resolution) (hx : g.minX ≤ g.maxX) (hy : g.minY ≤ g.maxY)
    (hm : Moderate g) {scans : List Scan} (hp : CoversPoints g scans) (hs : CoversPoses g scans) :
    ∃ m, g.render scans = .ok m ∧ ∀ q ∈ measured scans, ∀ t,
      Traced (square m.originX m.originY m.resolution ⟨q.1.x, q.1.y⟩)
        (square m.originX m.originY m.resolution (move q.1 q.2)) t →
      ∀ c ∈ t.1 ++ [t.2], (0 ≤ c.1 ∧ c.1 < m.width) ∧ (0 ≤ c.2 ∧ c.2 < m.height) := by
  refine ⟨_, covered_render hr hx hy hm hp hs, ?_⟩
  intro q hq t ht c hc
  simp only at ht ⊢
  have hpose : Inside g ⟨q.1.x, q.1.y⟩ := by
    unfold measured at hq
    obtain ⟨s, hs', hq'⟩ := List.mem_flatMap.mp hq
    obtain ⟨p, _, rfl⟩ := List.mem_map.mp hq'
    exact hs s hs'
  obtain ⟨e1, _⟩ := cellT_inside hr hpose
  obtain ⟨e2, _⟩ := cellT_inside hr (hp q hq)
  rw [Ray.traced_iff, ← e1, ← e2, ← worldPoint_eq] at ht
  subst ht
  exact (covered_good hr hm hpose (hp q hq)).2 c hc

/-- C42 (partial: for growing lists of scans that are not moved between the calls, each with points on all sides of the
sensor, on a map of up to 20000 cells in each direction): no call is undefined. -/
theorem c42_growing_history_defined_partial {res thresh : ℝ} (hr : 0 < res) {calls : List (List Scan)}
    (hch : List.IsChain (· <+: ·) calls)
    (hall : ∀ scans ∈ calls, Within (20000 * res) scans ∧ ∀ s ∈ scans, Surrounded s) :
    ∃ g, gridHistory (OccGrid.new res thresh) calls = .ok g := by
  refine history_defined (prev := []) (g := OccGrid.new res thresh) hr rfl (fun q hq => by cases hq) ?_ ?_ hall
  · have : (0 : ℝ) ≤ (20000 : ℕ) * res := by positivity
    unfold Bounded OccGrid.new
    simp only
    refine ⟨⟨by linarith, le_rfl⟩, ⟨le_rfl, this⟩, ⟨by linarith, le_rfl⟩, le_rfl, this⟩
  · rw [List.isChain_cons]
    exact ⟨fun y _ => List.nil_prefix, hch⟩

/-- A scan at (60, 0) that has only seen the point at the origin of the map. -/
def farScan : Scan := { Scan.new 0 with pose := ⟨60, 0, 0⟩, points := [⟨-60, 0⟩] }

/-- C42 is violated: the position of a scan is not part of the bounds, and the ray starts outside of the arrays. -/
theorem c42_pose_outside_writes_out_of_bounds (thresh : ℝ) :
    (OccGrid.new 1 thresh).getMsg [farScan] = .error .outOfBounds := by
  rw [getMsg_eq]
  have e1 : worldPoint farScan.pose ⟨-60, 0⟩ = ⟨0, 0⟩ := by
    unfold worldPoint farScan; simp
  have e : (OccGrid.new 1 thresh).refreshed [farScan] = ⟨1, thresh, 0, 0, 0, 0, 1⟩ := by
    unfold refreshed
    rw [if_pos (by simp [OccGrid.new]), updateBounds_eq]
    simp only [OccGrid.new, List.drop_zero, measured, List.flatMap_cons, List.flatMap_nil, List.append_nil, roundOut, farScan,
      List.map_cons, List.map_nil, List.foldl_cons, List.foldl_nil, widen]
    have : move ⟨60, 0, 0⟩ ⟨-60, 0⟩ = ⟨0, 0⟩ := by rw [← worldPoint_eq]; exact e1
    rw [this]
    simp
  rw [e]
  have t10 : truncZ 10 = 10 := by
    have := truncZ_intCast 10
    exact_mod_cast this
  have t65 : truncZ 65 = 65 := by
    have := truncZ_intCast 65
    exact_mod_cast this
  have t5 : truncZ 5 = 5 := by
    have := truncZ_intCast 5
    exact_mod_cast this
  have hr : (OccGrid.mk 1 thresh 0 0 0 0 1).render [farScan] = .error .outOfBounds := by
    unfold render
    rw [if_neg one_ne_zero]
    simp only
    have w : toU32 ((0 - 0 + 2 * (5 * 1)) / 1) = .ok 10 := by
      rw [show ((0 : ℝ) - 0 + 2 * (5 * 1)) / 1 = 10 by norm_num]
      unfold toU32
      rw [t10]
      rfl
    rw [w]
    simp only [Res.ok_bind, List.foldlM_cons]
    have hs : renderScan ⟨1, thresh, 0, 0, 0, 0, 1⟩ (0 - 5 * 1) (0 - 5 * 1) (10 * 10 % 2 ^ 32) 10 ⟨fun _ => 0, fun _ => 0⟩ farScan
        = .error .outOfBounds := by
      unfold renderScan
      have c1 : (OccGrid.mk 1 thresh 0 0 0 0 1).cellOf (0 - 5 * 1) (0 - 5 * 1) ⟨farScan.getPose.x, farScan.getPose.y⟩
          = .ok (65, 5) := by
        rw [cellOf_ok_iff]
        have : (OccGrid.mk 1 thresh 0 0 0 0 1).cellT (0 - 5 * 1) (0 - 5 * 1) ⟨farScan.getPose.x, farScan.getPose.y⟩ = (65, 5) := by
          unfold cellT Scan.getPose farScan
          simp only
          norm_num
          exact ⟨t65, t5⟩
        rw [this]
        exact ⟨by unfold Fits; norm_num, rfl⟩
      have c2 : (OccGrid.mk 1 thresh 0 0 0 0 1).cellOf (0 - 5 * 1) (0 - 5 * 1) ⟨0, 0⟩ = .ok (5, 5) := by
        rw [cellOf_ok_iff]
        have : (OccGrid.mk 1 thresh 0 0 0 0 1).cellT (0 - 5 * 1) (0 - 5 * 1) ⟨0, 0⟩ = (5, 5) := by
          unfold cellT
          simp only
          norm_num
          exact t5
        rw [this]
        exact ⟨by unfold Fits; norm_num, rfl⟩
      rw [c1, Res.ok_bind]
      have hp : farScan.getPoints = [⟨-60, 0⟩] := rfl
      rw [hp, List.foldlM_cons, show farScan.getPose = farScan.pose from rfl, e1, c2, Res.ok_bind,
        renderRay_outOfBounds (by decide) (by unfold InArray; decide)]
      rfl
    rw [hs]
    rfl
  rw [hr]
  rfl

/-- A scan in the middle of four points. -/
def roomScan : Scan := { Scan.new 0 with pose := ⟨1, 0, 0⟩, points := [⟨2, 0⟩, ⟨-2, 0⟩, ⟨0, 2⟩, ⟨0, -2⟩] }

theorem roomScan_surrounded : Surrounded roomScan := by
  unfold Surrounded roomScan move
  simp

theorem roomScan_within : Within (20000 * (1 / 20)) [roomScan] := by
  unfold Within measured roomScan move
  simp
  norm_num

/-- Example: the hypotheses of `c42_growing_history_defined_partial`, two calls. -/
example : List.IsChain (· <+: ·) [[roomScan], [roomScan]] ∧
    ∀ scans ∈ [[roomScan], [roomScan]], Within (20000 * (1 / 20)) scans ∧ ∀ s ∈ scans, Surrounded s := by
  refine ⟨by simp, ?_⟩
  intro scans hs
  simp at hs
  subst hs
  exact ⟨roomScan_within, fun s hs => by simp at hs; subst hs; exact roomScan_surrounded⟩

/-! ## C45 Values -/

/-- C45: on a covered grid the message has `width * height` cells, and the value of each is decided by the rays through it:
how many ended in it and how many passed it. -/
theorem c45_cell_values {g : OccGrid} (hr : 0 < g.resolution) (hx : g.minX ≤ g.maxX) (hy : g.minY ≤ g.maxY)
    (hm : Moderate g) {scans : List Scan} (hp : CoversPoints g scans) (hs : CoversPoses g scans) {m : GridMsg}
    (h : g.render scans = .ok m) :
    m.data.length = m.width * m.height ∧
    ∃ ts, List.Forall₂ (fun q t => Traced (square m.originX m.originY m.resolution ⟨q.1.x, q.1.y⟩)
        (square m.originX m.originY m.resolution (move q.1 q.2)) t) (measured scans) ts ∧
      ∀ x y : ℕ, x < m.width → y < m.height → m.data[x + y * m.width]? =
        some (valueOf g.occThresh (ts.countP fun t => t.2 = ((x : ℤ), (y : ℤ)))
          ((ts.flatMap (·.1)).countP fun c => c = ((x : ℤ), (y : ℤ)))) := by
  rw [covered_render hr hx hy hm hp hs] at h
  injection h with h
  subst h
  obtain ⟨s1, s2, s3⟩ := moderate_size hr hx hy hm
  have hmod : g.width * g.height % 2 ^ 32 = g.width * g.height := Nat.mod_eq_of_lt (by omega)
  simp only [hmod]
  have hpose : ∀ q ∈ measured scans, Inside g ⟨q.1.x, q.1.y⟩ := by
    intro q hq
    unfold measured at hq
    obtain ⟨s, hs', hq'⟩ := List.mem_flatMap.mp hq
    obtain ⟨p, _, rfl⟩ := List.mem_map.mp hq'
    exact hs s hs'
  refine ⟨by simp, (measured scans).map fun q =>
    (g.rayOf (g.minX - 5 * g.resolution) (g.minY - 5 * g.resolution) q).trace, ?_, ?_⟩
  · rw [List.forall₂_map_right_iff, List.forall₂_same]
    intro q hq
    obtain ⟨e1, _⟩ := cellT_inside hr (hpose q hq)
    obtain ⟨e2, _⟩ := cellT_inside hr (hp q hq)
    rw [Ray.traced_iff, ← e1, ← e2, ← worldPoint_eq]
    rfl
  · intro x y hxw hyh
    have hcell := cellIndex_eq s3 (c := ((x : ℤ), (y : ℤ))) ⟨by simp, by simpa using hxw⟩ ⟨by simp, by simpa using hyh⟩
    simp only at hcell
    have hlt : x + y * g.width < g.width * g.height := by
      have := hcell.2.2
      exact_mod_cast this
    rw [List.getElem?_map, List.getElem?_range hlt, Option.map_some, cellValue_eq]
    -- the index of a touched cell determines the cell
    have hinj : ∀ c : GCell, (0 ≤ c.1 ∧ c.1 < g.width) ∧ (0 ≤ c.2 ∧ c.2 < g.height) →
        (cellIndex g.width c = ((x + y * g.width : ℕ) : ℤ) ↔ c = ((x : ℤ), (y : ℤ))) := by
      intro c hc
      rw [(cellIndex_eq s3 hc.1 hc.2).1]
      constructor
      · intro heq
        push_cast at heq
        have hy' : c.2 = y := by
          by_contra hne
          rcases lt_or_gt_of_ne hne with hlt' | hlt'
          · have : (c.2 + 1) * (g.width : ℤ) ≤ y * g.width := mul_le_mul_of_nonneg_right (by omega) (by omega)
            nlinarith [hc.1.2]
          · have : ((y : ℤ) + 1) * (g.width : ℤ) ≤ c.2 * g.width := mul_le_mul_of_nonneg_right (by omega) (by omega)
            have h2 : (x : ℤ) < g.width := by exact_mod_cast hxw
            nlinarith [hc.1.1]
        refine Prod.ext ?_ hy'
        rw [hy'] at heq
        simp only
        omega
      · rintro rfl
        push_cast
        rfl
    have hgood := fun q hq => (covered_good hr hm (hpose q hq) (hp q hq)).2
    congr 2
    · unfold addTraces
      simp only [zero_add]
      apply List.countP_congr
      intro t ht
      obtain ⟨q, hq, rfl⟩ := List.mem_map.mp ht
      simpa using hinj _ (hgood q hq _ (by simp))
    · unfold addTraces
      simp only [zero_add]
      apply List.countP_congr
      intro c hc
      obtain ⟨t, ht, hct⟩ := List.mem_flatMap.mp hc
      obtain ⟨q, hq, rfl⟩ := List.mem_map.mp ht
      simpa using hinj _ (hgood q hq _ (List.mem_append_left _ hct))

/-- C45: whatever the extents, if a message is produced its values are -1, 0 and 100. -/
theorem c45_three_values {g : OccGrid} {scans : List Scan} {m : GridMsg} (h : g.render scans = .ok m) :
    ∀ v ∈ m.data, v = -1 ∨ v = 0 ∨ v = 100 := by
  obtain ⟨_, w, hh, _, _, _, _, rfl⟩ := render_ok_iff.mp h
  intro v hv
  obtain ⟨i, _, rfl⟩ := List.mem_map.mp hv
  unfold cellValue
  simp only
  split
  · split <;> simp
  · simp

/-- C45: the same measurements in any order and grouping give the same message. -/
theorem c45_render_order_independent {g : OccGrid} {a b : List Scan} (hq : (measured a).Perm (measured b))
    (hs : (a.map (·.pose)).Perm (b.map (·.pose))) {m : GridMsg} (h : g.render a = .ok m) : g.render b = .ok m := by
  obtain ⟨e0, w, hh, e1, e2, e3, e4, rfl⟩ := render_ok_iff.mp h
  refine render_ok_iff.mpr ⟨e0, w, hh, e1, e2, fun p hp => e3 p (hs.mem_iff.mpr hp), fun q hq' => e4 q (hq.mem_iff.mpr hq'), ?_⟩
  have hperm := hq.map fun q => (g.rayOf (g.minX - 5 * g.resolution) (g.minY - 5 * g.resolution) q).trace
  congr 1
  apply List.map_congr_left
  intro i _
  congr 1
  · unfold addTraces
    simp only [zero_add]
    exact hperm.countP_eq _
  · unfold addTraces
    simp only [zero_add]
    exact (hperm.flatMap_right _).countP_eq _

/-- C45: the first message of a grid object does not depend on the order of scans and points. -/
theorem c45_fresh_order_independent {res thresh : ℝ} {a b : List Scan} (hq : (measured a).Perm (measured b))
    (hs : (a.map (·.pose)).Perm (b.map (·.pose))) {out : OccGrid × GridMsg}
    (h : (OccGrid.new res thresh).getMsg a = .ok out) : (OccGrid.new res thresh).getMsg b = .ok out := by
  have hlen : a.length = b.length := by simpa using hs.length_eq
  have hg : (OccGrid.new res thresh).refreshed b = (OccGrid.new res thresh).refreshed a := by
    unfold refreshed
    rw [hlen]
    split
    · rw [updateBounds_eq, updateBounds_eq]
      have : (OccGrid.new res thresh).numScans = 0 := rfl
      rw [this, List.drop_zero, List.drop_zero, hlen]
      congr 1
      exact (List.Perm.foldl_eq (f := widen) (hq.map fun q => move q.1 q.2) _).symm
    · rfl
  rw [getMsg_eq] at h ⊢
  rw [hg]
  cases hm : ((OccGrid.new res thresh).refreshed a).render a with
  | error e => rw [hm] at h; cases h
  | ok m =>
    rw [hm] at h
    rw [c45_render_order_independent hq hs hm]
    exact h

/-- Example: the values. -/
example : valueOf (1 / 4) 0 0 = -1 ∧ valueOf (1 / 4) 1 3 = 0 ∧ valueOf (1 / 4) 2 3 = 100 := by
  unfold valueOf
  norm_num

/-- Example: the hypotheses of `c45_cell_values` for a scan of four points. -/
example : ∃ g : OccGrid, 0 < g.resolution ∧ g.minX ≤ g.maxX ∧ g.minY ≤ g.maxY ∧ Moderate g ∧ CoversPoints g [roomScan] ∧
    CoversPoses g [roomScan] := by
  refine ⟨⟨1, 1 / 4, -2, 3, -2, 2, 1⟩, by norm_num, by norm_num, by norm_num, by unfold Moderate; norm_num, ?_, ?_⟩
  · unfold CoversPoints measured Inside roomScan move
    simp
    norm_num
  · unfold CoversPoses Inside roomScan
    simp
    norm_num

/-! ## C46 Bounds -/

/-- C46: the extents never shrink. -/
theorem c46_never_shrinks {g g' : OccGrid} {scans : List Scan} {m : GridMsg} (hr : 0 < g.resolution)
    (h : g.getMsg scans = .ok (g', m)) :
    g'.minX ≤ g.minX ∧ g.maxX ≤ g'.maxX ∧ g'.minY ≤ g.minY ∧ g.maxY ≤ g'.maxY := by
  rw [getMsg_eq] at h
  cases hm : (g.refreshed scans).render scans with
  | error e => rw [hm] at h; cases h
  | ok m' =>
    rw [hm] at h
    injection h with h
    have : g' = g.refreshed scans := (congrArg Prod.fst h).symm
    subst this
    unfold refreshed
    split
    · exact (updateBounds_wider hr scans).1.2.2.2
    · exact ⟨le_rfl, le_rfl, le_rfl, le_rfl⟩

/-- C46 (partial: for growing lists whose scans are not moved between the calls): after each call the extents hold all the
points of the scans rendered. -/
theorem c46_growing_history_covers_partial {res thresh : ℝ} (hr : 0 < res) {calls : List (List Scan)} {last : List Scan}
    (hch : List.IsChain (· <+: ·) (calls ++ [last])) {g : OccGrid}
    (h : gridHistory (OccGrid.new res thresh) (calls ++ [last]) = .ok g) : CoversPoints g last := by
  have := (history_invariant (prev := []) (g := OccGrid.new res thresh) hr rfl (fun q hq => by cases hq) (by
    rw [List.isChain_cons]
    exact ⟨fun y _ => List.nil_prefix, hch⟩) h).2.2
  simpa using this

/-- C46: a grid object that is new, or whose list of scans was emptied before, covers whatever it renders. -/
theorem c46_fresh_grid_covers {g g' : OccGrid} {scans : List Scan} {m : GridMsg} (hr : 0 < g.resolution)
    (hn : g.numScans = 0) (h : g.getMsg scans = .ok (g', m)) : CoversPoints g' scans := by
  rw [getMsg_eq] at h
  cases hm : (g.refreshed scans).render scans with
  | error e => rw [hm] at h; cases h
  | ok m' =>
    rw [hm] at h
    injection h with h
    have : g' = g.refreshed scans := (congrArg Prod.fst h).symm
    subst this
    exact (refreshed_covers hr (prev := []) hn (fun q hq => by cases hq) List.nil_prefix).1

/-- A scan at some place with one point on it. -/
def dotScan (x : ℝ) : Scan := { Scan.new 0 with pose := ⟨x, 0, 0⟩, points := [⟨0, 0⟩] }

theorem dot_render {x : ℝ} (hx : 0 ≤ x ∧ x ≤ 1000) (th : ℝ) (n : ℕ) (g : OccGrid) (hg : g = ⟨1, th, 0, x, 0, 0, n⟩) :
    ∃ m, g.render [dotScan x] = .ok m := by
  subst hg
  refine ⟨_, covered_render (g := ⟨1, th, 0, x, 0, 0, n⟩) (by norm_num) hx.1 (by simp) ?_ ?_ ?_⟩
  · unfold Moderate
    simp only
    norm_num
    refine ⟨by linarith, by linarith⟩
  · unfold CoversPoints measured Inside dotScan move
    simp [hx.1]
  · unfold CoversPoses Inside dotScan
    simp [hx.1]

/-- C46 is violated: when an optimisation moves scans, the extents stay (and the next message is undefined or wrong). -/
theorem c46_moved_scan_not_covered (thresh : ℝ) : ∃ g m,
    (OccGrid.new 1 thresh).getMsg [dotScan 0] = .ok (g, m) ∧
    g.refreshed [dotScan 100] = g ∧ ¬ CoversPoints g [dotScan 100] := by
  have e : (OccGrid.new 1 thresh).refreshed [dotScan 0] = ⟨1, thresh, 0, 0, 0, 0, 1⟩ := by
    unfold refreshed
    rw [if_pos (by simp [OccGrid.new]), updateBounds_eq]
    simp [OccGrid.new, measured, roundOut, dotScan, widen, move]
  obtain ⟨m, hm⟩ := dot_render (x := 0) (by norm_num) thresh 1 _ rfl
  refine ⟨⟨1, thresh, 0, 0, 0, 0, 1⟩, m, ?_, ?_, ?_⟩
  · rw [getMsg_eq, e, hm]
    rfl
  · unfold refreshed
    rfl
  · intro h
    have := h (⟨100, 0, 0⟩, ⟨0, 0⟩) (by simp [measured, dotScan])
    unfold Inside move at this
    norm_num at this

/-- C46 is violated: after a smaller map has been loaded (fewer scans than before), its points are not covered. -/
theorem c46_smaller_map_not_covered (thresh : ℝ) : ∃ g m,
    (OccGrid.new 1 thresh).getMsg [dotScan 0, dotScan 0] = .ok (g, m) ∧
    ¬ CoversPoints (g.refreshed [dotScan 100]) [dotScan 100] := by
  have e : (OccGrid.new 1 thresh).refreshed [dotScan 0, dotScan 0] = ⟨1, thresh, 0, 0, 0, 0, 2⟩ := by
    unfold refreshed
    rw [if_pos (by simp [OccGrid.new]), updateBounds_eq]
    simp [OccGrid.new, measured, roundOut, dotScan, widen, move]
  have hm : ∃ m, (OccGrid.mk 1 thresh 0 0 0 0 2).render [dotScan 0, dotScan 0] = .ok m := by
    refine ⟨_, covered_render (g := ⟨1, thresh, 0, 0, 0, 0, 2⟩) (by norm_num) le_rfl le_rfl ?_ ?_ ?_⟩
    · unfold Moderate; norm_num
    · unfold CoversPoints measured Inside dotScan move
      simp
    · unfold CoversPoses Inside dotScan
      simp
  obtain ⟨m, hm⟩ := hm
  refine ⟨⟨1, thresh, 0, 0, 0, 0, 2⟩, m, ?_, ?_⟩
  · rw [getMsg_eq, e, hm]
    rfl
  · intro h
    have e2 : (OccGrid.mk 1 thresh 0 0 0 0 2).refreshed [dotScan 100] = ⟨1, thresh, 0, 0, 0, 0, 1⟩ := by
      unfold refreshed
      rw [if_pos (by simp), updateBounds_eq]
      simp [measured, roundOut]
    rw [e2] at h
    have := h (⟨100, 0, 0⟩, ⟨0, 0⟩) (by simp [measured, dotScan])
    unfold Inside move at this
    norm_num at this

/-- Example: a history of two calls that `c46_growing_history_covers_partial` speaks about. -/
example : List.IsChain (· <+: ·) ([[roomScan]] ++ [[roomScan, roomScan]]) ∧
    ∃ g, gridHistory (OccGrid.new (1 / 20) (1 / 4)) ([[roomScan]] ++ [[roomScan, roomScan]]) = .ok g := by
  have hch : List.IsChain (· <+: ·) ([[roomScan]] ++ [[roomScan, roomScan]]) := by simp
  refine ⟨hch, c42_growing_history_defined_partial (by norm_num) hch ?_⟩
  intro scans hs
  have hw : Within (20000 * (1 / 20)) [roomScan, roomScan] := by
    intro q hq
    have h2 : q ∈ measured [roomScan] := by
      unfold measured at *
      simp at hq ⊢
      exact hq
    exact roomScan_within q h2
  simp at hs
  rcases hs with rfl | rfl
  · exact ⟨roomScan_within, fun s hs => by simp at hs; subst hs; exact roomScan_surrounded⟩
  · exact ⟨hw, fun s hs => by simp at hs; subst hs; exact roomScan_surrounded⟩

end

end Ndt
