import Verif.Proof.Ray
import Verif.Spec.OccupancyGrid
import Mathlib.Data.List.Nodup

/-! # Rendering and bounds of the occupancy grid -/

namespace Ndt.OccGrid

noncomputable section

open Spec

/-! ## The ray loop -/

theorem Ray.loop_mono (r : Ray) {n : ℕ} : ∀ {s t}, r.loop n s = some t → ∀ m, n ≤ m → r.loop m s = some t := by
  induction n with
  | zero => intro s t h; cases h
  | succ n ih =>
    intro s t h m hm
    obtain ⟨m, rfl⟩ : ∃ k, m = k + 1 := ⟨m - 1, by omega⟩
    unfold loop at h ⊢
    by_cases hend : s.x = r.endX ∧ s.y = r.endY
    · rw [if_pos hend] at h ⊢
      exact h
    · rw [if_neg hend] at h ⊢
      cases hs : r.step s with
      | none => rw [hs] at h; exact h
      | some s' =>
        rw [hs] at h
        simp only at h ⊢
        cases hl : r.loop n s' with
        | none => rw [hl] at h; cases h
        | some q =>
          rw [ih hl m (by omega)]
          rw [hl] at h
          exact h

/-- The fuel of the model. -/
def Ray.fuel (r : Ray) : ℕ := r.dx.toNat + (-r.dy).toNat + 1

/-- The cells counted as empty and the cell counted as hit by a ray. -/
def Ray.trace (r : Ray) : List GCell × GCell := (r.loop r.fuel r.start).getD ([], (0, 0))

theorem Ray.loop_nloop (r : Ray) : ∃ es h, nloop r.dx (-r.dy) r.fuel 0 0 = some (es, h) ∧
    r.loop r.fuel r.start = some (es.map r.cell, r.cell h) ∧
      ((h = (r.dx, -r.dy) ∧ List.IsChain Stair (es ++ [h]) ∧ (es ++ [h]).head? = some (0, 0) ∧
          ∀ c ∈ es ++ [h], c.1 ≤ r.dx ∧ c.2 ≤ -r.dy) ∨
       (h = (r.dx - 1, -r.dy) ∧ r.dx ≤ 2 * -r.dy ∧ List.IsChain Stair es ∧ es.head? = some (0, 0) ∧ es.getLast? = some h ∧
          ∀ c ∈ es, c.1 ≤ r.dx ∧ c.2 ≤ -r.dy)) := by
  have ha := r.dx_nonneg
  have hb := r.dy_nonneg
  obtain ⟨es, h, e, hc⟩ := nloop_path ha hb r.fuel 0 0 le_rfl ha le_rfl hb (by unfold fuel; push_cast; omega)
  refine ⟨es, h, e, ?_, hc⟩
  rw [r.start_eq, r.loop_st _ 0 0 le_rfl ha le_rfl hb, e]
  rfl

theorem Ray.loop_trace (r : Ray) : r.loop r.fuel r.start = some r.trace := by
  obtain ⟨es, h, _, e, _⟩ := r.loop_nloop
  unfold trace
  rw [e]
  rfl

theorem Ray.traced_iff (s e : GCell) (t) : Traced s e t ↔ t = (Ray.mk s.1 s.2 e.1 e.2).trace := by
  constructor
  · rintro ⟨n, h⟩
    have h1 := Ray.loop_mono _ h (max n (Ray.mk s.1 s.2 e.1 e.2).fuel) (le_max_left _ _)
    have h2 := Ray.loop_mono _ (Ray.loop_trace ⟨s.1, s.2, e.1, e.2⟩) (max n (Ray.mk s.1 s.2 e.1 e.2).fuel)
      (le_max_right _ _)
    rw [h1] at h2
    injection h2
  · rintro rfl
    exact ⟨_, Ray.loop_trace _⟩

/-! ## Staircases -/

theorem isChain_stair_lower {l : List GCell} (h : List.IsChain Stair l) :
    ∀ {p}, l.head? = some p → ∀ c ∈ l, p.1 ≤ c.1 ∧ p.2 ≤ c.2 := by
  induction l with
  | nil => intro p hp; cases hp
  | cons x l ih =>
    intro p hp c hc
    simp only [List.head?_cons, Option.some.injEq] at hp
    subst hp
    rcases List.mem_cons.mp hc with rfl | hc
    · exact ⟨le_rfl, le_rfl⟩
    · rw [List.isChain_cons] at h
      cases hl : l.head? with
      | none => rw [List.head?_eq_none_iff] at hl; subst hl; cases hc
      | some y =>
        have h1 := ih h.2 hl c hc
        have h2 := h.1 y hl
        rcases h2 with rfl | rfl | rfl <;> simp only at h1 <;> constructor <;> omega

theorem isChain_stair_nodup {l : List GCell} (h : List.IsChain Stair l) : l.Nodup := by
  induction l with
  | nil => exact List.nodup_nil
  | cons x l ih =>
    rw [List.isChain_cons] at h
    rw [List.nodup_cons]
    refine ⟨?_, ih h.2⟩
    intro hx
    cases hl : l.head? with
    | none => rw [List.head?_eq_none_iff] at hl; subst hl; cases hx
    | some y =>
      have h1 := isChain_stair_lower h.2 hl x hx
      have h2 := h.1 y hl
      rcases h2 with rfl | rfl | rfl <;> simp only at h1 <;> omega

theorem Ray.sx_abs (r : Ray) : |r.sx| = 1 := by unfold sx; split <;> rfl
theorem Ray.sy_abs (r : Ray) : |r.sy| = 1 := by unfold sy; split <;> rfl

theorem Ray.cell_inj (r : Ray) {c d : GCell} (h : r.cell c = r.cell d) : c = d := by
  unfold cell at h
  rw [Prod.mk.injEq] at h
  exact Prod.ext (mul_left_cancel₀ r.sx_ne (by linarith [h.1])) (mul_left_cancel₀ r.sy_ne (by linarith [h.2]))

theorem Ray.cell_neighbours (r : Ray) {c d : GCell} (h : Stair c d) : Neighbours (r.cell c) (r.cell d) := by
  have hne : c ≠ d := by
    rintro rfl
    rcases h with h | h | h <;> · have h1 := congrArg Prod.fst h; have h2 := congrArg Prod.snd h; simp at h1 h2
  refine ⟨fun hc => hne (r.cell_inj hc), ?_, ?_⟩
  · have : (r.cell d).1 - (r.cell c).1 = r.sx * (d.1 - c.1) := by unfold cell; ring
    rw [this, abs_mul, r.sx_abs]
    rcases h with rfl | rfl | rfl <;> simp
  · have : (r.cell d).2 - (r.cell c).2 = r.sy * (d.2 - c.2) := by unfold cell; ring
    rw [this, abs_mul, r.sy_abs]
    rcases h with rfl | rfl | rfl <;> simp

theorem Ray.cell_inBox (r : Ray) {c : GCell} (h0 : 0 ≤ c.1 ∧ 0 ≤ c.2) (h1 : c.1 ≤ r.dx ∧ c.2 ≤ -r.dy) :
    InBox (r.startX, r.startY) (r.endX, r.endY) (r.cell c) := by
  have e1 := r.endX_eq
  have e2 := r.endY_eq
  unfold InBox cell
  simp only
  constructor
  · rw [e1]
    unfold sx
    split <;> simp <;> omega
  · rw [e2]
    unfold sy
    split <;> simp <;> omega

theorem isChain_map {α β : Type} {R : α → α → Prop} {S : β → β → Prop} {f : α → β} (hf : ∀ a b, R a b → S (f a) (f b))
    {l : List α} (h : List.IsChain R l) : List.IsChain S (l.map f) := by
  induction l with
  | nil => simp
  | cons x l ih =>
    rw [List.isChain_cons] at h
    rw [List.map_cons, List.isChain_cons]
    refine ⟨?_, ih h.2⟩
    intro y hy
    rw [List.head?_map] at hy
    cases hl : l.head? with
    | none => rw [hl] at hy; cases hy
    | some z =>
      rw [hl] at hy
      cases hy
      exact hf _ _ (h.1 z hl)

/-- The path of a ray. -/
theorem Ray.trace_path (r : Ray) : ∃ path : List GCell,
    (path = r.trace.1 ++ [r.trace.2] ∨ path = r.trace.1) ∧
    path.head? = some (r.startX, r.startY) ∧ path.getLast? = some r.trace.2 ∧
    List.IsChain Neighbours path ∧ path.Nodup ∧ (∀ c ∈ path, InBox (r.startX, r.startY) (r.endX, r.endY) c) := by
  obtain ⟨es, h, _, e, hc⟩ := r.loop_nloop
  have ht : r.trace = (es.map r.cell, r.cell h) := by
    have := r.loop_trace
    rw [e] at this
    injection this with this
    exact this.symm
  have hcell0 : r.cell (0, 0) = (r.startX, r.startY) := by simp [cell]
  rw [ht]
  rcases hc with ⟨g1, g2, g3, g4⟩ | ⟨g1, g2, g3, g4, g5, g6⟩
  · refine ⟨(es ++ [h]).map r.cell, Or.inl (by simp), ?_, by simp, isChain_map (f := r.cell) (fun _ _ h => r.cell_neighbours h) g2,
      (isChain_stair_nodup g2).map (fun _ _ => r.cell_inj), ?_⟩
    · rw [List.head?_map, g3, Option.map_some, hcell0]
    · intro c hc
      obtain ⟨d, hd, rfl⟩ := List.mem_map.mp hc
      exact r.cell_inBox (isChain_stair_lower g2 g3 d hd) (g4 d hd)
  · refine ⟨es.map r.cell, Or.inr rfl, ?_, ?_, isChain_map (f := r.cell) (fun _ _ h => r.cell_neighbours h) g3,
      (isChain_stair_nodup g3).map (fun _ _ => r.cell_inj), ?_⟩
    · rw [List.head?_map, g4, Option.map_some, hcell0]
    · rw [List.getLast?_map, g5]; rfl
    · intro c hc
      obtain ⟨d, hd, rfl⟩ := List.mem_map.mp hc
      exact r.cell_inBox (isChain_stair_lower g3 g4 d hd) (g6 d hd)

theorem Ray.trace_inBox (r : Ray) {c : GCell} (hc : c ∈ r.trace.1 ++ [r.trace.2]) :
    InBox (r.startX, r.startY) (r.endX, r.endY) c := by
  obtain ⟨path, hp, _, hl, _, _, hb⟩ := r.trace_path
  rcases hp with hp | hp
  · exact hb c (hp ▸ hc)
  · rw [List.mem_append] at hc
    rcases hc with hc | hc
    · exact hb c (hp ▸ hc)
    · rw [List.mem_singleton] at hc
      subst hc
      exact hb _ (List.mem_of_getLast? hl)

/-! ## Counting -/

/-- The index falls into the arrays. -/
def InArray (size width : ℕ) (c : GCell) : Prop := 0 ≤ cellIndex width c ∧ cellIndex width c < size

/-- Add the touches of some rays to the counters. -/
def addTraces (width : ℕ) (cnt : Counts) (ts : List (List GCell × GCell)) : Counts :=
  ⟨fun i => cnt.hit i + ts.countP fun t => cellIndex width t.2 = i,
   fun i => cnt.empty i + (ts.flatMap (·.1)).countP fun c => cellIndex width c = i⟩

theorem bump_ok_iff {size width : ℕ} {a b : ℕ → ℕ} {c : GCell} : bump size width a c = .ok b ↔
    InArray size width c ∧ b = fun i => a i + [c].countP fun c => cellIndex width c = i := by
  unfold bump InArray
  simp only
  split
  · rename_i h
    simp only [Except.ok.injEq, h, and_self, true_and]
    have : Function.update a (cellIndex width c).toNat (a (cellIndex width c).toNat + 1) =
        fun i : ℕ => a i + [c].countP fun c => cellIndex width c = i := by
      funext i
      by_cases hi : cellIndex width c = i
      · simp [hi]
      · have : i ≠ (cellIndex width c).toNat := by omega
        simp [Function.update_of_ne this, hi]
    rw [this]
    exact ⟨fun h => h.symm, fun h => h.symm⟩
  · rename_i h
    simp only [reduceCtorEq, false_iff, not_and]
    intro h1
    exact absurd h1 h

theorem bumps_ok_iff {size width : ℕ} (es : List GCell) : ∀ {a b : ℕ → ℕ}, es.foldlM (bump size width) a = .ok b ↔
    (∀ c ∈ es, InArray size width c) ∧ b = fun i : ℕ => a i + es.countP fun c => cellIndex width c = i := by
  induction es with
  | nil =>
    intro a b
    simp only [List.foldlM_nil, Res.pure_eq, Except.ok.injEq, List.countP_nil, add_zero, List.not_mem_nil, false_imp_iff,
      implies_true, true_and]
    exact eq_comm
  | cons c es ih =>
    intro a b
    rw [List.foldlM_cons]
    constructor
    · intro h
      cases hb : bump size width a c with
      | error e => rw [hb] at h; cases h
      | ok a' =>
        rw [hb, Res.ok_bind] at h
        obtain ⟨h1, h2⟩ := bump_ok_iff.mp hb
        obtain ⟨h3, h4⟩ := ih.mp h
        refine ⟨?_, ?_⟩
        · intro d hd
          rcases List.mem_cons.mp hd with rfl | hd
          · exact h1
          · exact h3 d hd
        · rw [h4, h2]
          funext i
          rw [← List.singleton_append (l := es), List.countP_append]
          simp only
          omega
    · rintro ⟨h1, h2⟩
      rw [bump_ok_iff.mpr ⟨h1 c (by simp), rfl⟩, Res.ok_bind, ih]
      refine ⟨fun d hd => h1 d (by simp [hd]), ?_⟩
      rw [h2]
      funext i
      rw [← List.singleton_append (l := es), List.countP_append]
      omega

/-- A ray that can be traced. -/
def GoodRay (size width : ℕ) (r : Ray) : Prop :=
  (r.dx < 2 ^ 28 ∧ -r.dy < 2 ^ 28) ∧ ∀ c ∈ r.trace.1 ++ [r.trace.2], InArray size width c

theorem renderRay_ok_iff {size width : ℕ} {cnt cnt' : Counts} {r : Ray} : renderRay size width cnt r = .ok cnt' ↔
    GoodRay size width r ∧ cnt' = addTraces width cnt [r.trace] := by
  unfold renderRay GoodRay
  have ht := r.loop_trace
  unfold Ray.fuel at ht
  rw [ht]
  by_cases ho : 2 ^ 28 ≤ r.dx ∨ 2 ^ 28 ≤ -r.dy
  · rw [if_pos ho]
    constructor
    · intro h; cases h
    · rintro ⟨⟨h1, _⟩, _⟩; omega
  · rw [if_neg ho]
    have hs : r.dx < 2 ^ 28 ∧ -r.dy < 2 ^ 28 := by omega
    simp only [hs, and_self, true_and]
    constructor
    · intro h
      cases hb : r.trace.1.foldlM (bump size width) cnt.empty with
      | error e => rw [hb] at h; cases h
      | ok em =>
        rw [hb, Res.ok_bind] at h
        cases hb2 : bump size width cnt.hit r.trace.2 with
        | error e => rw [hb2] at h; cases h
        | ok hi =>
          rw [hb2, Res.ok_bind] at h
          injection h with h
          obtain ⟨h1, h2⟩ := (bumps_ok_iff _).mp hb
          obtain ⟨h3, h4⟩ := bump_ok_iff.mp hb2
          refine ⟨?_, ?_⟩
          · intro c hc
            rcases List.mem_append.mp hc with hc | hc
            · exact h1 c hc
            · rw [List.mem_singleton] at hc; subst hc; exact h3
          · rw [← h, h2, h4]
            unfold addTraces
            simp [List.countP_cons]
    · rintro ⟨h1, h2⟩
      rw [(bumps_ok_iff _).mpr ⟨fun c hc => h1 c (by simp [hc]), rfl⟩, Res.ok_bind,
        bump_ok_iff.mpr ⟨h1 _ (by simp), rfl⟩, Res.ok_bind, h2]
      unfold addTraces
      simp [List.countP_cons]

theorem addTraces_append (width : ℕ) (cnt : Counts) (ts us : List (List GCell × GCell)) :
    addTraces width (addTraces width cnt ts) us = addTraces width cnt (ts ++ us) := by
  unfold addTraces
  simp only [Counts.mk.injEq]
  constructor <;> funext i
  · rw [List.countP_append]; omega
  · rw [List.flatMap_append, List.countP_append]; omega

/-! ## Cells of points -/

/-- The truncated cell. -/
def cellT (g : OccGrid) (ox oy : ℝ) (p : Point) : GCell :=
  (truncZ ((p.x - ox) / g.resolution), truncZ ((p.y - oy) / g.resolution))

/-- The cell fits two `int`s. -/
def Fits (c : GCell) : Prop := (-2 ^ 31 ≤ c.1 ∧ c.1 < 2 ^ 31) ∧ (-2 ^ 31 ≤ c.2 ∧ c.2 < 2 ^ 31)

theorem cellOf_ok_iff {g : OccGrid} {ox oy : ℝ} {p : Point} {c : GCell} :
    g.cellOf ox oy p = .ok c ↔ Fits (g.cellT ox oy p) ∧ c = g.cellT ox oy p := by
  unfold cellOf toI32 Fits cellT
  by_cases h1 : -2 ^ 31 ≤ truncZ ((p.x - ox) / g.resolution) ∧ truncZ ((p.x - ox) / g.resolution) < 2 ^ 31
  · rw [if_pos h1, Res.ok_bind]
    by_cases h2 : -2 ^ 31 ≤ truncZ ((p.y - oy) / g.resolution) ∧ truncZ ((p.y - oy) / g.resolution) < 2 ^ 31
    · rw [if_pos h2, Res.ok_bind]
      simp only [h1, h2, and_self, true_and, Except.ok.injEq]
      exact eq_comm
    · rw [if_neg h2]
      simp only [Res.error_bind, reduceCtorEq, false_iff, not_and]
      intro h; exact absurd h.2 h2
  · rw [if_neg h1]
    simp only [Res.error_bind, reduceCtorEq, false_iff, not_and]
    intro h; exact absurd h.1 h1

/-- The ray of a measurement. -/
def rayOf (g : OccGrid) (ox oy : ℝ) (q : Pose2d × Point) : Ray :=
  ⟨(g.cellT ox oy ⟨q.1.x, q.1.y⟩).1, (g.cellT ox oy ⟨q.1.x, q.1.y⟩).2,
   (g.cellT ox oy (worldPoint q.1 q.2)).1, (g.cellT ox oy (worldPoint q.1 q.2)).2⟩

/-- A measurement that can be rendered. -/
def GoodMeas (g : OccGrid) (ox oy : ℝ) (size width : ℕ) (q : Pose2d × Point) : Prop :=
  Fits (g.cellT ox oy (worldPoint q.1 q.2)) ∧ GoodRay size width (g.rayOf ox oy q)

theorem rays_ok_iff {g : OccGrid} {ox oy : ℝ} {size width : ℕ} {pose : Pose2d} (ps : List Point) :
    ∀ {cnt cnt' : Counts}, ps.foldlM (fun cnt p => do
        let e ← g.cellOf ox oy (worldPoint pose p)
        renderRay size width cnt ⟨(g.cellT ox oy ⟨pose.x, pose.y⟩).1, (g.cellT ox oy ⟨pose.x, pose.y⟩).2, e.1, e.2⟩) cnt
        = .ok cnt' ↔
      (∀ p ∈ ps, g.GoodMeas ox oy size width (pose, p)) ∧
        cnt' = addTraces width cnt (ps.map fun p => (g.rayOf ox oy (pose, p)).trace) := by
  induction ps with
  | nil =>
    intro cnt cnt'
    simp only [List.foldlM_nil, Res.pure_eq, Except.ok.injEq, List.not_mem_nil, false_imp_iff, implies_true, true_and,
      List.map_nil]
    exact ⟨fun h => by rw [← h]; rfl, fun h => by rw [h]; rfl⟩
  | cons p ps ih =>
    intro cnt cnt'
    rw [List.foldlM_cons]
    constructor
    · intro h
      cases hb : g.cellOf ox oy (worldPoint pose p) with
      | error e => rw [hb] at h; cases h
      | ok e =>
        rw [hb, Res.ok_bind] at h
        obtain ⟨h1, rfl⟩ := cellOf_ok_iff.mp hb
        cases hr : renderRay size width cnt (g.rayOf ox oy (pose, p)) with
        | error e => unfold rayOf at hr; rw [hr] at h; cases h
        | ok cnt1 =>
          have hr' := hr
          unfold rayOf at hr'
          rw [hr', Res.ok_bind] at h
          obtain ⟨h2, h3⟩ := renderRay_ok_iff.mp hr
          obtain ⟨h4, h5⟩ := ih.mp h
          refine ⟨?_, ?_⟩
          · intro q hq
            rcases List.mem_cons.mp hq with rfl | hq
            · exact ⟨h1, h2⟩
            · exact h4 q hq
          · rw [h5, h3, addTraces_append]; rfl
    · rintro ⟨h1, h2⟩
      have hp := h1 p (by simp)
      rw [cellOf_ok_iff.mpr ⟨hp.1, rfl⟩, Res.ok_bind]
      have := renderRay_ok_iff.mpr ⟨hp.2, (rfl : addTraces width cnt _ = _)⟩
      unfold rayOf at this
      rw [this, Res.ok_bind]
      rw [ih]
      refine ⟨fun q hq => h1 q (by simp [hq]), ?_⟩
      rw [h2, addTraces_append]; rfl

theorem scans_ok_iff {g : OccGrid} {ox oy : ℝ} {size width : ℕ} (scans : List Scan) :
    ∀ {cnt cnt' : Counts}, scans.foldlM (g.renderScan ox oy size width) cnt = .ok cnt' ↔
      (∀ pose ∈ scans.map (·.pose), Fits (g.cellT ox oy ⟨pose.x, pose.y⟩)) ∧
      (∀ q ∈ measured scans, g.GoodMeas ox oy size width q) ∧
        cnt' = addTraces width cnt ((measured scans).map fun q => (g.rayOf ox oy q).trace) := by
  induction scans with
  | nil =>
    intro cnt cnt'
    simp only [List.foldlM_nil, Res.pure_eq, Except.ok.injEq, List.not_mem_nil, false_imp_iff, implies_true, true_and,
      List.map_nil, measured, List.flatMap_nil]
    exact ⟨fun h => by rw [← h]; rfl, fun h => by rw [h]; rfl⟩
  | cons s scans ih =>
    intro cnt cnt'
    rw [List.foldlM_cons]
    have hmeas : measured (s :: scans) = (s.points.map fun p => (s.pose, p)) ++ measured scans := rfl
    rw [hmeas]
    unfold renderScan
    constructor
    · intro h
      cases hb : g.cellOf ox oy ⟨s.getPose.x, s.getPose.y⟩ with
      | error e => rw [hb] at h; cases h
      | ok e =>
        rw [hb, Res.ok_bind] at h
        obtain ⟨h1, rfl⟩ := cellOf_ok_iff.mp hb
        cases hr : s.points.foldlM (fun cnt p => do
            let e ← g.cellOf ox oy (worldPoint s.pose p)
            renderRay size width cnt
              ⟨(g.cellT ox oy ⟨s.pose.x, s.pose.y⟩).1, (g.cellT ox oy ⟨s.pose.x, s.pose.y⟩).2, e.1, e.2⟩) cnt with
        | error e => simp only [Scan.getPose, Scan.getPoints] at h; rw [hr] at h; cases h
        | ok cnt1 =>
          simp only [Scan.getPose, Scan.getPoints] at h
          rw [hr, Res.ok_bind] at h
          obtain ⟨h2, h3⟩ := (rays_ok_iff _).mp hr
          obtain ⟨h4, h5, h6⟩ := ih.mp h
          refine ⟨?_, ?_, ?_⟩
          · intro q hq
            rcases List.mem_cons.mp hq with rfl | hq
            · exact h1
            · exact h4 q hq
          · intro q hq
            rcases List.mem_append.mp hq with hq | hq
            · obtain ⟨p, hp, rfl⟩ := List.mem_map.mp hq
              exact h2 p hp
            · exact h5 q hq
          · rw [h6, h3, addTraces_append, List.map_append, List.map_map]; rfl
    · rintro ⟨h1, h2, h3⟩
      rw [show g.cellOf ox oy ⟨s.getPose.x, s.getPose.y⟩ = .ok _ from
        cellOf_ok_iff.mpr ⟨h1 s.pose (by simp), rfl⟩, Res.ok_bind]
      have := (rays_ok_iff (g := g) (ox := ox) (oy := oy) (size := size) (width := width) (pose := s.pose) s.points
        (cnt := cnt)).mpr ⟨fun p hp => h2 _ (List.mem_append_left _ (List.mem_map_of_mem hp)), rfl⟩
      simp only [Scan.getPose, Scan.getPoints]
      rw [this, Res.ok_bind]
      refine ih.mpr ⟨fun q hq => h1 q (List.mem_cons_of_mem _ hq), fun q hq => h2 q (List.mem_append_right _ hq), ?_⟩
      rw [h3, addTraces_append, List.map_append, List.map_map]; rfl

theorem render_ok_iff {g : OccGrid} {scans : List Scan} {m : GridMsg} : g.render scans = .ok m ↔
    g.resolution ≠ 0 ∧ ∃ width height,
      toU32 ((g.maxX - g.minX + 2 * (5 * g.resolution)) / g.resolution) = .ok width ∧
      toU32 ((g.maxY - g.minY + 2 * (5 * g.resolution)) / g.resolution) = .ok height ∧
      (∀ pose ∈ scans.map (·.pose), Fits (g.cellT (g.minX - 5 * g.resolution) (g.minY - 5 * g.resolution) ⟨pose.x, pose.y⟩)) ∧
      (∀ q ∈ measured scans,
        g.GoodMeas (g.minX - 5 * g.resolution) (g.minY - 5 * g.resolution) ((width * height) % 2 ^ 32) width q) ∧
      m = ⟨g.resolution, width, height, g.minX - 5 * g.resolution, g.minY - 5 * g.resolution,
        (List.range ((width * height) % 2 ^ 32)).map fun i => cellValue g.occThresh
          ((addTraces width ⟨fun _ => 0, fun _ => 0⟩ ((measured scans).map fun q =>
            (g.rayOf (g.minX - 5 * g.resolution) (g.minY - 5 * g.resolution) q).trace)).hit i)
          ((addTraces width ⟨fun _ => 0, fun _ => 0⟩ ((measured scans).map fun q =>
            (g.rayOf (g.minX - 5 * g.resolution) (g.minY - 5 * g.resolution) q).trace)).empty i)⟩ := by
  unfold render
  by_cases hr0 : g.resolution = 0
  · simp [hr0]
  rw [if_neg hr0, and_iff_right hr0]
  simp only
  cases hw : toU32 ((g.maxX - g.minX + 2 * (5 * g.resolution)) / g.resolution) with
  | error e => simp [Res.error_bind]
  | ok width =>
    rw [Res.ok_bind]
    cases hh : toU32 ((g.maxY - g.minY + 2 * (5 * g.resolution)) / g.resolution) with
    | error e => simp [Res.error_bind]
    | ok height =>
      rw [Res.ok_bind]
      constructor
      · intro h
        cases hf : scans.foldlM (g.renderScan (g.minX - 5 * g.resolution) (g.minY - 5 * g.resolution)
            ((width * height) % 2 ^ 32) width) ⟨fun _ => 0, fun _ => 0⟩ with
        | error e => rw [hf] at h; cases h
        | ok cnt =>
          rw [hf, Res.ok_bind] at h
          injection h with h
          obtain ⟨h1, h2, h3⟩ := (scans_ok_iff scans).mp hf
          exact ⟨width, height, rfl, rfl, h1, h2, by rw [← h, h3]⟩
      · rintro ⟨w, h, ew, eh, h1, h2, h3⟩
        injection ew with ew
        injection eh with eh
        subst ew eh
        rw [(scans_ok_iff scans).mpr ⟨h1, h2, rfl⟩, Res.ok_bind, h3]

/-! ## Bounds -/

theorem worldPoint_eq (pose : Pose2d) (p : Point) : worldPoint pose p = move pose p := by
  unfold worldPoint move
  ext <;> simp <;> ring

theorem widenScans_eq (scans : List Scan) : ∀ g : OccGrid,
    scans.foldl widenScan g = ((measured scans).map fun q => move q.1 q.2).foldl widen g := by
  induction scans with
  | nil => intro g; rfl
  | cons s scans ih =>
    intro g
    have hmeas : measured (s :: scans) = (s.points.map fun p => (s.pose, p)) ++ measured scans := rfl
    have hs : g.widenScan s = (List.map (fun q : Pose2d × Point => move q.1 q.2)
        (s.points.map fun p => (s.pose, p))).foldl widen g := by
      rw [List.map_map, List.foldl_map]
      unfold widenScan
      simp only [worldPoint_eq]
      rfl
    rw [List.foldl_cons, ih, hmeas, List.map_append, List.foldl_append, hs]

/-- The same grid up to larger extents. -/
def Wider (g g' : OccGrid) : Prop :=
  g'.resolution = g.resolution ∧ g'.occThresh = g.occThresh ∧ g'.numScans = g.numScans ∧
  g'.minX ≤ g.minX ∧ g.maxX ≤ g'.maxX ∧ g'.minY ≤ g.minY ∧ g.maxY ≤ g'.maxY

theorem Wider.refl (g : OccGrid) : Wider g g := ⟨rfl, rfl, rfl, le_rfl, le_rfl, le_rfl, le_rfl⟩

theorem Wider.trans {a b c : OccGrid} (h : Wider a b) (k : Wider b c) : Wider a c := by
  obtain ⟨h1, h2, h3, h4, h5, h6, h7⟩ := h
  obtain ⟨k1, k2, k3, k4, k5, k6, k7⟩ := k
  exact ⟨k1.trans h1, k2.trans h2, k3.trans h3, k4.trans h4, h5.trans k5, k6.trans h6, h7.trans k7⟩

theorem Wider.inside {a b : OccGrid} (h : Wider a b) {p : Point} (hp : Inside a p) : Inside b p := by
  obtain ⟨h1, h2, h3, h4, h5, h6, h7⟩ := h
  obtain ⟨⟨p1, p2⟩, p3, p4⟩ := hp
  exact ⟨⟨h4.trans p1, p2.trans h5⟩, h6.trans p3, p4.trans h7⟩

theorem widen_wider (g : OccGrid) (p : Point) : Wider g (g.widen p) :=
  ⟨rfl, rfl, rfl, min_le_right _ _, le_max_right _ _, min_le_right _ _, le_max_right _ _⟩

theorem widen_inside (g : OccGrid) (p : Point) : Inside (g.widen p) p :=
  ⟨⟨min_le_left _ _, le_max_left _ _⟩, min_le_left _ _, le_max_left _ _⟩

theorem widens_wider (ps : List Point) : ∀ g : OccGrid, Wider g (ps.foldl widen g) ∧ ∀ p ∈ ps, Inside (ps.foldl widen g) p := by
  induction ps with
  | nil => intro g; exact ⟨Wider.refl g, fun p hp => by cases hp⟩
  | cons p ps ih =>
    intro g
    obtain ⟨h1, h2⟩ := ih (g.widen p)
    refine ⟨(widen_wider g p).trans h1, ?_⟩
    intro q hq
    rcases List.mem_cons.mp hq with rfl | hq
    · exact h1.inside (widen_inside g q)
    · exact h2 q hq

instance : RightCommutative widen where
  right_comm g p q := by
    unfold widen
    simp only [OccGrid.mk.injEq, true_and, and_true]
    refine ⟨min_left_comm _ _ _, max_left_comm _ _ _, min_left_comm _ _ _, max_left_comm _ _ _⟩

/-- The rounding of the bounds. -/
def roundOut (g : OccGrid) : OccGrid :=
  { g with minX := ⌊g.minX / g.resolution⌋ * g.resolution, maxX := ⌈g.maxX / g.resolution⌉ * g.resolution,
           minY := ⌊g.minY / g.resolution⌋ * g.resolution, maxY := ⌈g.maxY / g.resolution⌉ * g.resolution }

theorem roundOut_wider {g : OccGrid} (hr : 0 < g.resolution) : Wider g g.roundOut := by
  refine ⟨rfl, rfl, rfl, ?_, ?_, ?_, ?_⟩
  · exact (le_div_iff₀ hr).mp (Int.floor_le _)
  · exact (div_le_iff₀ hr).mp (Int.le_ceil _)
  · exact (le_div_iff₀ hr).mp (Int.floor_le _)
  · exact (div_le_iff₀ hr).mp (Int.le_ceil _)

theorem updateBounds_eq (g : OccGrid) (scans : List Scan) : g.updateBounds scans =
    (((measured (scans.drop g.numScans)).map fun q => move q.1 q.2).foldl widen
      { g with numScans := scans.length }).roundOut := by
  unfold updateBounds
  rw [widenScans_eq]
  rfl

theorem updateBounds_wider {g : OccGrid} (hr : 0 < g.resolution) (scans : List Scan) :
    Wider { g with numScans := scans.length } (g.updateBounds scans) ∧
    ∀ q ∈ measured (scans.drop g.numScans), Inside (g.updateBounds scans) (move q.1 q.2) := by
  rw [updateBounds_eq]
  obtain ⟨h1, h2⟩ := widens_wider ((measured (scans.drop g.numScans)).map fun q => move q.1 q.2)
    { g with numScans := scans.length }
  have h3 := roundOut_wider (g := ((measured (scans.drop g.numScans)).map fun q => move q.1 q.2).foldl widen
      { g with numScans := scans.length }) (by rw [h1.1]; exact hr)
  exact ⟨h1.trans h3, fun q hq => h3.inside (h2 _ (List.mem_map_of_mem hq))⟩

/-! ## Covered grids -/

theorem cellIndex_eq {w h : ℕ} (hs : w * h < 2 ^ 31) {c : GCell} (hx : 0 ≤ c.1 ∧ c.1 < w) (hy : 0 ≤ c.2 ∧ c.2 < h) :
    cellIndex w c = c.1 + c.2 * w ∧ 0 ≤ c.1 + c.2 * w ∧ c.1 + c.2 * w < (w * h : ℕ) := by
  have h0 : 0 ≤ c.2 * (w : ℤ) := mul_nonneg hy.1 (by omega)
  have h1 : c.1 + c.2 * w < (w * h : ℕ) := by
    have : (c.2 + 1) * (w : ℤ) ≤ h * w := mul_le_mul_of_nonneg_right (by omega) (by omega)
    push_cast
    nlinarith
  refine ⟨?_, by omega, h1⟩
  unfold cellIndex
  rw [Int.emod_eq_of_lt (by omega) (by omega), wrapI32_of_lt (by omega)]
  omega

/-- Width or height. -/
def side (lo hi res : ℝ) : ℕ := ⌊(hi - lo) / res + 10⌋.toNat

theorem side_eq {lo hi res : ℝ} (hr : 0 < res) (hle : lo ≤ hi) (hs : (hi - lo) / res + 10 < 2 ^ 28) :
    toU32 ((hi - lo + 2 * (5 * res)) / res) = .ok (side lo hi res) := by
  have e : (hi - lo + 2 * (5 * res)) / res = (hi - lo) / res + 10 := by field_simp; ring
  have h0 : 0 ≤ (hi - lo) / res := div_nonneg (by linarith) hr.le
  rw [e, toU32_of_nonneg (by linarith) (by linarith [show (2 : ℝ) ^ 28 ≤ 2 ^ 32 by norm_num])]
  rfl

theorem side_cell {lo hi res x : ℝ} (hr : 0 < res) (h1 : lo ≤ x) (h2 : x ≤ hi) :
    truncZ ((x - (lo - 5 * res)) / res) = ⌊(x - (lo - 5 * res)) / res⌋ ∧
    5 ≤ ⌊(x - (lo - 5 * res)) / res⌋ ∧ ⌊(x - (lo - 5 * res)) / res⌋ + 5 ≤ side lo hi res := by
  have e : (x - (lo - 5 * res)) / res = (x - lo) / res + 5 := by field_simp; ring
  have h0 : 0 ≤ (x - lo) / res := div_nonneg (by linarith) hr.le
  have h3 : (x - lo) / res ≤ (hi - lo) / res := div_le_div_of_nonneg_right (by linarith) hr.le
  have h4 : (5 : ℤ) ≤ ⌊(x - lo) / res + 5⌋ := by
    rw [Int.le_floor]; push_cast; linarith
  rw [e]
  refine ⟨truncZ_of_nonneg (by linarith), h4, ?_⟩
  unfold side
  have h5 : ⌊(x - lo) / res + 5⌋ + 5 ≤ ⌊(hi - lo) / res + 10⌋ := by
    rw [Int.le_floor]
    push_cast
    have := Int.floor_le ((x - lo) / res + 5)
    linarith
  omega

theorem side_le {lo hi res : ℝ} (hr : 0 < res) (hle : lo ≤ hi) : (side lo hi res : ℝ) ≤ (hi - lo) / res + 10 := by
  have h0 : 0 ≤ (hi - lo) / res := div_nonneg (by linarith) hr.le
  have h1 : 0 ≤ ⌊(hi - lo) / res + 10⌋ := Int.floor_nonneg.mpr (by linarith)
  have h2 : ((side lo hi res : ℕ) : ℤ) = ⌊(hi - lo) / res + 10⌋ := by unfold side; omega
  have h3 : ((side lo hi res : ℕ) : ℝ) = ((⌊(hi - lo) / res + 10⌋ : ℤ) : ℝ) := by rw [← h2]; simp
  rw [h3]
  exact Int.floor_le _

/-- The width of the message of a covered grid. -/
def width (g : OccGrid) : ℕ := side g.minX g.maxX g.resolution
/-- The height of the message of a covered grid. -/
def height (g : OccGrid) : ℕ := side g.minY g.maxY g.resolution

theorem moderate_size {g : OccGrid} (hr : 0 < g.resolution) (hx : g.minX ≤ g.maxX) (hy : g.minY ≤ g.maxY)
    (hm : Moderate g) : g.width < 2 ^ 28 ∧ g.height < 2 ^ 28 ∧ g.width * g.height < 2 ^ 31 := by
  obtain ⟨h1, h2, h3⟩ := hm
  have k1 := side_le hr hx
  have k2 := side_le hr hy
  refine ⟨?_, ?_, ?_⟩
  · have : (g.width : ℝ) < 2 ^ 28 := lt_of_le_of_lt k1 h1
    exact_mod_cast this
  · have : (g.height : ℝ) < 2 ^ 28 := lt_of_le_of_lt k2 h2
    exact_mod_cast this
  · have : (g.width : ℝ) * g.height < 2 ^ 31 := by
      refine lt_of_le_of_lt (mul_le_mul k1 k2 (by positivity) ?_) h3
      exact le_trans (by positivity) k1
    exact_mod_cast this

theorem cellT_inside {g : OccGrid} (hr : 0 < g.resolution) {p : Point} (hp : Inside g p) :
    let c := g.cellT (g.minX - 5 * g.resolution) (g.minY - 5 * g.resolution) p
    c = square (g.minX - 5 * g.resolution) (g.minY - 5 * g.resolution) g.resolution p ∧
    (0 ≤ c.1 ∧ c.1 < g.width) ∧ (0 ≤ c.2 ∧ c.2 < g.height) := by
  have hx := side_cell hr hp.1.1 hp.1.2
  have hy := side_cell hr hp.2.1 hp.2.2
  intro c
  have e : c = square (g.minX - 5 * g.resolution) (g.minY - 5 * g.resolution) g.resolution p :=
    Prod.ext hx.1 hy.1
  rw [e]
  unfold square width height
  refine ⟨rfl, ⟨?_, ?_⟩, ?_, ?_⟩ <;> simp only <;> omega

theorem inBox_range {a b c : GCell} {w h : ℤ} (ha : (0 ≤ a.1 ∧ a.1 < w) ∧ (0 ≤ a.2 ∧ a.2 < h))
    (hb : (0 ≤ b.1 ∧ b.1 < w) ∧ (0 ≤ b.2 ∧ b.2 < h)) (hc : InBox a b c) :
    (0 ≤ c.1 ∧ c.1 < w) ∧ (0 ≤ c.2 ∧ c.2 < h) := by
  obtain ⟨⟨h1, h2⟩, h3, h4⟩ := hc
  constructor <;> constructor <;> omega

theorem ray_dx_lt {w h : ℕ} {r : Ray} (ha : (0 ≤ r.startX ∧ r.startX < w) ∧ (0 ≤ r.startY ∧ r.startY < h))
    (hb : (0 ≤ r.endX ∧ r.endX < w) ∧ (0 ≤ r.endY ∧ r.endY < h)) : r.dx < w ∧ -r.dy < h := by
  unfold Ray.dx Ray.dy
  rw [neg_neg]
  constructor <;> rw [abs_lt] <;> omega

/-- On a covered grid of moderate size every measurement can be rendered. -/
theorem covered_good {g : OccGrid} (hr : 0 < g.resolution) (hm : Moderate g) {q : Pose2d × Point}
    (h1 : Inside g ⟨q.1.x, q.1.y⟩) (h2 : Inside g (move q.1 q.2)) :
    g.GoodMeas (g.minX - 5 * g.resolution) (g.minY - 5 * g.resolution) ((g.width * g.height) % 2 ^ 32) g.width q ∧
    ∀ c ∈ (g.rayOf (g.minX - 5 * g.resolution) (g.minY - 5 * g.resolution) q).trace.1 ++
        [(g.rayOf (g.minX - 5 * g.resolution) (g.minY - 5 * g.resolution) q).trace.2],
      (0 ≤ c.1 ∧ c.1 < g.width) ∧ (0 ≤ c.2 ∧ c.2 < g.height) := by
  obtain ⟨s1, s2, s3⟩ := moderate_size hr (h1.1.1.trans h1.1.2) (h1.2.1.trans h1.2.2) hm
  obtain ⟨_, a⟩ := cellT_inside hr h1
  obtain ⟨_, b⟩ := cellT_inside hr h2
  rw [← worldPoint_eq] at b
  have hcells : ∀ c ∈ (g.rayOf (g.minX - 5 * g.resolution) (g.minY - 5 * g.resolution) q).trace.1 ++
        [(g.rayOf (g.minX - 5 * g.resolution) (g.minY - 5 * g.resolution) q).trace.2],
      (0 ≤ c.1 ∧ c.1 < g.width) ∧ (0 ≤ c.2 ∧ c.2 < g.height) := by
    intro c hc
    exact inBox_range a b (Ray.trace_inBox _ hc)
  refine ⟨⟨?_, ?_, ?_⟩, hcells⟩
  · refine ⟨⟨?_, ?_⟩, ?_, ?_⟩ <;> omega
  · have := ray_dx_lt (r := g.rayOf (g.minX - 5 * g.resolution) (g.minY - 5 * g.resolution) q) a b
    omega
  · intro c hc
    obtain ⟨c1, c2⟩ := hcells c hc
    obtain ⟨e, e1, e2⟩ := cellIndex_eq s3 c1 c2
    unfold InArray
    rw [e, Nat.mod_eq_of_lt (by omega)]
    exact ⟨e1, e2⟩

theorem covered_render {g : OccGrid} (hr : 0 < g.resolution) (hx : g.minX ≤ g.maxX) (hy : g.minY ≤ g.maxY)
    (hm : Moderate g) {scans : List Scan} (hp : CoversPoints g scans) (hs : CoversPoses g scans) :
    g.render scans = .ok ⟨g.resolution, g.width, g.height, g.minX - 5 * g.resolution, g.minY - 5 * g.resolution,
        (List.range ((g.width * g.height) % 2 ^ 32)).map fun i => cellValue g.occThresh
          ((addTraces g.width ⟨fun _ => 0, fun _ => 0⟩ ((measured scans).map fun q =>
            (g.rayOf (g.minX - 5 * g.resolution) (g.minY - 5 * g.resolution) q).trace)).hit i)
          ((addTraces g.width ⟨fun _ => 0, fun _ => 0⟩ ((measured scans).map fun q =>
            (g.rayOf (g.minX - 5 * g.resolution) (g.minY - 5 * g.resolution) q).trace)).empty i)⟩ := by
  obtain ⟨s1, s2, s3⟩ := moderate_size hr hx hy hm
  refine render_ok_iff.mpr ⟨hr.ne', g.width, g.height, side_eq hr hx hm.1, side_eq hr hy hm.2.1, ?_, ?_, rfl⟩
  · intro pose hpose
    obtain ⟨s, hs', rfl⟩ := List.mem_map.mp hpose
    obtain ⟨_, a⟩ := cellT_inside hr (hs s hs')
    refine ⟨⟨?_, ?_⟩, ?_, ?_⟩ <;> omega
  · intro q hq
    refine (covered_good hr hm ?_ (hp q hq)).1
    unfold measured at hq
    obtain ⟨s, hs', hq'⟩ := List.mem_flatMap.mp hq
    obtain ⟨p, _, rfl⟩ := List.mem_map.mp hq'
    exact hs s hs'

theorem cellValue_eq (th : ℝ) (h e : ℕ) : cellValue th h e = valueOf th h e := by
  unfold cellValue valueOf
  simp only
  by_cases h0 : h = 0 ∧ e = 0
  · obtain ⟨rfl, rfl⟩ := h0
    norm_num
  · have hpos : (1 : ℝ) ≤ ((h + e : ℕ) : ℝ) := by
      have : 1 ≤ h + e := by omega
      exact_mod_cast this
    rw [if_pos (by linarith), if_neg h0]
    have : ((h : ℝ) / ((h + e : ℕ) : ℝ) > th) ↔ th * ((h : ℝ) + e) < h := by
      rw [gt_iff_lt, lt_div_iff₀ (by linarith)]
      push_cast
      rfl
    by_cases hc : th * ((h : ℝ) + e) < h
    · rw [if_pos (this.mpr hc), if_pos hc]
    · rw [if_neg (fun k => hc (this.mp k)), if_neg hc]

theorem isChain_stair_upper {l : List GCell} (h : List.IsChain Stair l) :
    ∀ {p}, l.getLast? = some p → ∀ c ∈ l, c.1 ≤ p.1 ∧ c.2 ≤ p.2 := by
  induction l with
  | nil => intro p hp; cases hp
  | cons x l ih =>
    intro p hp c hc
    cases l with
    | nil =>
      simp at hp hc
      subst hp hc
      exact ⟨le_rfl, le_rfl⟩
    | cons y l =>
      rw [List.getLast?_cons_cons] at hp
      rw [List.isChain_cons_cons] at h
      have h1 := ih h.2 hp
      rcases List.mem_cons.mp hc with rfl | hc
      · have h2 := h1 y (by simp)
        rcases h.1 with rfl | rfl | rfl <;> simp only at h2 <;> constructor <;> omega
      · exact h1 c hc

/-- The cell of the hit. -/
theorem Ray.trace_hit (r : Ray) : r.trace.2 =
    if -r.dy < r.dx ∧ r.dx ≤ 2 * -r.dy then (r.endX - r.sx, r.endY) else (r.endX, r.endY) := by
  obtain ⟨es, h, e1, e2, _⟩ := r.loop_nloop
  have ht : r.trace = (es.map r.cell, r.cell h) := by
    have := r.loop_trace
    rw [e2] at this
    injection this with this
    exact this.symm
  have ha := r.dx_nonneg
  have hb := r.dy_nonneg
  rw [ht]
  simp only
  have hend : r.cell (r.dx, -r.dy) = (r.endX, r.endY) := by
    unfold cell; rw [← r.endX_eq, ← r.endY_eq]
  have hprev : r.cell (r.dx - 1, -r.dy) = (r.endX - r.sx, r.endY) := by
    unfold cell
    simp only
    rw [← r.endY_eq, r.endX_eq, mul_sub, mul_one]
    congr 1
    ring
  by_cases hab : -r.dy < r.dx
  · have := nloop_hit_shallow hb hab r.fuel 0 0 le_rfl ha le_rfl hb (by intro h; omega) (Or.inl rfl) _ e1
    simp only at this
    rw [this]
    by_cases h2 : r.dx ≤ 2 * -r.dy
    · rw [if_pos h2, if_pos ⟨hab, h2⟩, hprev]
    · rw [if_neg h2, if_neg (fun h => h2 h.2), hend]
  · have := nloop_hit_steep ha (by omega) r.fuel 0 0 le_rfl ha le_rfl hb (by simpa using hb) _ e1
    simp only at this
    rw [this, if_neg (fun h => hab h.1), hend]

/-- Whether the hit is also counted as empty, and whether the end is. -/
theorem Ray.trace_end (r : Ray) : (r.endX, r.endY) ∉ r.trace.1 ∧
    (r.trace.2 ≠ (r.endX, r.endY) → r.trace.2 ∈ r.trace.1) := by
  obtain ⟨es, h, _, e2, hc⟩ := r.loop_nloop
  have ht : r.trace = (es.map r.cell, r.cell h) := by
    have := r.loop_trace
    rw [e2] at this
    injection this with this
    exact this.symm
  have hend : r.cell (r.dx, -r.dy) = (r.endX, r.endY) := by
    unfold cell; rw [← r.endX_eq, ← r.endY_eq]
  rw [ht, ← hend]
  simp only
  rcases hc with ⟨rfl, g2, _, _⟩ | ⟨rfl, _, g3, _, g5, _⟩
  · refine ⟨?_, fun h => absurd rfl h⟩
    intro hm
    obtain ⟨d, hd, hd2⟩ := List.mem_map.mp hm
    have := r.cell_inj hd2
    subst this
    have := isChain_stair_nodup g2
    rw [List.nodup_append] at this
    exact this.2.2 _ hd _ (by simp) rfl
  · refine ⟨?_, fun _ => List.mem_map_of_mem (List.mem_of_getLast? g5)⟩
    intro hm
    obtain ⟨d, hd, hd2⟩ := List.mem_map.mp hm
    have := r.cell_inj hd2
    subst this
    have := isChain_stair_upper g3 g5 _ hd
    simp only at this
    omega

theorem mem_measured {scans : List Scan} {s : Scan} {p : Point} (hs : s ∈ scans) (hp : p ∈ s.points) :
    (s.pose, p) ∈ measured scans :=
  List.mem_flatMap.mpr ⟨s, hs, List.mem_map_of_mem hp⟩

theorem surrounded_covered {g : OccGrid} {scans : List Scan} (hp : CoversPoints g scans)
    (hs : ∀ s ∈ scans, Surrounded s) : CoversPoses g scans := by
  intro s hs'
  obtain ⟨⟨p1, m1, h1⟩, ⟨p2, m2, h2⟩, ⟨p3, m3, h3⟩, ⟨p4, m4, h4⟩⟩ := hs s hs'
  have k1 := hp _ (mem_measured hs' m1)
  have k2 := hp _ (mem_measured hs' m2)
  have k3 := hp _ (mem_measured hs' m3)
  have k4 := hp _ (mem_measured hs' m4)
  exact ⟨⟨k1.1.1.trans h1, h2.trans k2.1.2⟩, k3.2.1.trans h3, h4.trans k4.2.2⟩

/-- The bounds used by a call. -/
def refreshed (g : OccGrid) (scans : List Scan) : OccGrid :=
  if scans.length ≠ g.numScans then g.updateBounds scans else g

theorem getMsg_eq (g : OccGrid) (scans : List Scan) :
    g.getMsg scans = (do let m ← (g.refreshed scans).render scans; .ok (g.refreshed scans, m)) := rfl

theorem measured_append (a b : List Scan) : measured (a ++ b) = measured a ++ measured b := by
  unfold measured
  rw [List.flatMap_append]

/-- The bounds after a call on a list that extends one that was covered. -/
theorem refreshed_covers {g : OccGrid} (hr : 0 < g.resolution) {prev scans : List Scan} (hn : g.numScans = prev.length)
    (hc : CoversPoints g prev) (hp : prev <+: scans) :
    CoversPoints (g.refreshed scans) scans ∧ (g.refreshed scans).numScans = scans.length ∧
      (g.refreshed scans).resolution = g.resolution ∧ Wider { g with numScans := scans.length } (g.refreshed scans) := by
  obtain ⟨rest, rfl⟩ := hp
  unfold refreshed
  split
  · obtain ⟨h1, h2⟩ := updateBounds_wider hr (prev ++ rest)
    refine ⟨?_, h1.2.2.1, h1.1, h1⟩
    intro q hq
    rw [measured_append] at hq
    rcases List.mem_append.mp hq with hq | hq
    · exact h1.inside (hc q hq)
    · rw [hn, List.drop_left] at h2
      exact h2 q hq
  · rename_i hlen
    push Not at hlen
    have : rest = [] := by
      rw [hn, List.length_append] at hlen
      exact List.length_eq_zero_iff.mp (by omega)
    subst this
    rw [List.append_nil] at hlen ⊢
    refine ⟨hc, hlen.symm, rfl, ?_⟩
    rw [hlen]
    exact Wider.refl g

/-- Extents within `k` cells of the origin. -/
def Bounded (k : ℕ) (g : OccGrid) : Prop :=
  (-(k * g.resolution) ≤ g.minX ∧ g.minX ≤ 0) ∧ (0 ≤ g.maxX ∧ g.maxX ≤ k * g.resolution) ∧
  (-(k * g.resolution) ≤ g.minY ∧ g.minY ≤ 0) ∧ (0 ≤ g.maxY ∧ g.maxY ≤ k * g.resolution)

theorem bounded_widen {k : ℕ} {g : OccGrid} (h : Bounded k g) {p : Point} (hx : |p.x| ≤ k * g.resolution)
    (hy : |p.y| ≤ k * g.resolution) : Bounded k (g.widen p) := by
  obtain ⟨⟨a1, a2⟩, ⟨b1, b2⟩, ⟨c1, c2⟩, d1, d2⟩ := h
  rw [abs_le] at hx hy
  unfold Bounded widen
  simp only
  refine ⟨⟨le_min hx.1 a1, (min_le_right _ _).trans a2⟩, ⟨b1.trans (le_max_right _ _), max_le hx.2 b2⟩,
    ⟨le_min hy.1 c1, (min_le_right _ _).trans c2⟩, d1.trans (le_max_right _ _), max_le hy.2 d2⟩

theorem bounded_widens {k : ℕ} (ps : List Point) : ∀ {g : OccGrid}, Bounded k g →
    (∀ p ∈ ps, |p.x| ≤ k * g.resolution ∧ |p.y| ≤ k * g.resolution) → Bounded k (ps.foldl widen g) := by
  induction ps with
  | nil => intro g h _; exact h
  | cons p ps ih =>
    intro g h hp
    have h1 := hp p (by simp)
    exact ih (bounded_widen h h1.1 h1.2) fun q hq => hp q (by simp [hq])

theorem bounded_roundOut {k : ℕ} {g : OccGrid} (hr : 0 < g.resolution) (h : Bounded k g) : Bounded k g.roundOut := by
  obtain ⟨⟨a1, a2⟩, ⟨b1, b2⟩, ⟨c1, c2⟩, d1, d2⟩ := h
  have hfl : ∀ m : ℝ, -(k * g.resolution) ≤ m → m ≤ 0 →
      -(k * g.resolution) ≤ ⌊m / g.resolution⌋ * g.resolution ∧ ⌊m / g.resolution⌋ * g.resolution ≤ 0 := by
    intro m h1 h2
    have h3 : (-(k : ℤ)) ≤ ⌊m / g.resolution⌋ := by
      rw [Int.le_floor, le_div_iff₀ hr]; push_cast; linarith
    have h4 : ⌊m / g.resolution⌋ ≤ 0 := by
      have : m / g.resolution ≤ 0 := div_nonpos_of_nonpos_of_nonneg h2 hr.le
      have h5 := Int.floor_mono this
      rwa [Int.floor_zero] at h5
    have h3' : (-(k : ℝ)) ≤ (⌊m / g.resolution⌋ : ℝ) := by exact_mod_cast h3
    have h4' : (⌊m / g.resolution⌋ : ℝ) ≤ 0 := by exact_mod_cast h4
    constructor <;> nlinarith
  have hcl : ∀ m : ℝ, 0 ≤ m → m ≤ k * g.resolution →
      0 ≤ ⌈m / g.resolution⌉ * g.resolution ∧ ⌈m / g.resolution⌉ * g.resolution ≤ k * g.resolution := by
    intro m h1 h2
    have h3 : ⌈m / g.resolution⌉ ≤ (k : ℤ) := by
      rw [Int.ceil_le, div_le_iff₀ hr]; push_cast; linarith
    have h4 : 0 ≤ ⌈m / g.resolution⌉ := Int.ceil_nonneg (div_nonneg h1 hr.le)
    have h3' : (⌈m / g.resolution⌉ : ℝ) ≤ (k : ℝ) := by exact_mod_cast h3
    have h4' : (0 : ℝ) ≤ (⌈m / g.resolution⌉ : ℝ) := by exact_mod_cast h4
    constructor <;> nlinarith
  exact ⟨hfl _ a1 a2, hcl _ b1 b2, hfl _ c1 c2, hcl _ d1 d2⟩

theorem measured_drop_subset (n : ℕ) (scans : List Scan) {q} (h : q ∈ measured (scans.drop n)) : q ∈ measured scans := by
  unfold measured at *
  obtain ⟨s, hs, hq⟩ := List.mem_flatMap.mp h
  exact List.mem_flatMap.mpr ⟨s, List.mem_of_mem_drop hs, hq⟩

theorem bounded_refreshed {k : ℕ} {g : OccGrid} (hr : 0 < g.resolution) (h : Bounded k g) {scans : List Scan}
    (hw : Within (k * g.resolution) scans) : Bounded k (g.refreshed scans) := by
  unfold refreshed
  split
  · rw [updateBounds_eq]
    have h1 := (widens_wider ((measured (scans.drop g.numScans)).map fun q => move q.1 q.2)
      { g with numScans := scans.length }).1
    refine bounded_roundOut (by rw [h1.1]; exact hr) (bounded_widens _ (g := { g with numScans := scans.length }) h ?_)
    intro p hp
    obtain ⟨q, hq, rfl⟩ := List.mem_map.mp hp
    exact hw q (measured_drop_subset _ _ hq)
  · exact h

theorem bounded_moderate {g : OccGrid} (hr : 0 < g.resolution) (h : Bounded 20000 g) : Moderate g := by
  obtain ⟨⟨a1, a2⟩, ⟨b1, b2⟩, ⟨c1, c2⟩, d1, d2⟩ := h
  have hw : (g.maxX - g.minX) / g.resolution ≤ 40000 := by
    rw [div_le_iff₀ hr]; push_cast at *; linarith
  have hh : (g.maxY - g.minY) / g.resolution ≤ 40000 := by
    rw [div_le_iff₀ hr]; push_cast at *; linarith
  have hw0 : 0 ≤ (g.maxX - g.minX) / g.resolution := div_nonneg (by linarith) hr.le
  have hh0 : 0 ≤ (g.maxY - g.minY) / g.resolution := div_nonneg (by linarith) hr.le
  refine ⟨by norm_num; linarith, by norm_num; linarith, ?_⟩
  have : ((g.maxX - g.minX) / g.resolution + 10) * ((g.maxY - g.minY) / g.resolution + 10) ≤ 40010 * 40010 :=
    mul_le_mul (by linarith) (by linarith) (by linarith) (by norm_num)
  refine lt_of_le_of_lt this (by norm_num)

/-- A ray that starts outside of the array. -/
theorem renderRay_outOfBounds {size width : ℕ} {cnt : Counts} {r : Ray} (hs : r.dx < 2 ^ 28 ∧ -r.dy < 2 ^ 28)
    (h : ¬ InArray size width (r.startX, r.startY)) : renderRay size width cnt r = .error .outOfBounds := by
  unfold renderRay
  have ht := r.loop_trace
  unfold Ray.fuel at ht
  rw [ht, if_neg (by omega)]
  obtain ⟨path, hp, hh, hl, _⟩ := r.trace_path
  have hb : ∀ a, bump size width a (r.startX, r.startY) = .error .outOfBounds := by
    intro a
    unfold bump
    exact if_neg h
  cases he : r.trace.1 with
  | nil =>
    rw [he] at hp
    rcases hp with hp | hp
    · have : r.trace.2 = (r.startX, r.startY) := by
        rw [hp] at hh
        simpa using hh
      simp only [he, List.foldlM_nil, Res.pure_eq, Res.ok_bind]
      rw [this, hb]
      rfl
    · rw [hp] at hh; cases hh
  | cons c es =>
    have : c = (r.startX, r.startY) := by
      rw [he] at hp
      rcases hp with hp | hp <;> · rw [hp] at hh; simpa using hh
    simp only [he, List.foldlM_cons]
    rw [this, hb]
    rfl

theorem history_invariant {calls : List (List Scan)} : ∀ {g g' : OccGrid} {prev : List Scan}, 0 < g.resolution →
    g.numScans = prev.length → CoversPoints g prev → List.IsChain (· <+: ·) (prev :: calls) →
    gridHistory g calls = .ok g' →
    0 < g'.resolution ∧ g'.numScans = ((prev :: calls).getLast (by simp)).length ∧
      CoversPoints g' ((prev :: calls).getLast (by simp)) := by
  induction calls with
  | nil =>
    intro g g' prev hr hn hc _ h
    injection h with h
    subst h
    exact ⟨hr, hn, hc⟩
  | cons scans calls ih =>
    intro g g' prev hr hn hc hch h
    unfold gridHistory at h
    rw [List.foldlM_cons, getMsg_eq] at h
    rw [List.isChain_cons_cons] at hch
    cases hm : (g.refreshed scans).render scans with
    | error e => rw [hm] at h; cases h
    | ok m =>
      rw [hm] at h
      simp only [Res.ok_bind] at h
      obtain ⟨h1, h2, h3, _⟩ := refreshed_covers hr hn hc hch.1
      have := ih (by rw [h3]; exact hr) h2 h1 hch.2 h
      rwa [List.getLast_cons (by simp)]

theorem history_defined {calls : List (List Scan)} : ∀ {g : OccGrid} {prev : List Scan}, 0 < g.resolution →
    g.numScans = prev.length → CoversPoints g prev → Bounded 20000 g → List.IsChain (· <+: ·) (prev :: calls) →
    (∀ scans ∈ calls, Within (20000 * g.resolution) scans ∧ ∀ s ∈ scans, Surrounded s) →
    ∃ g', gridHistory g calls = .ok g' := by
  induction calls with
  | nil => intro g prev _ _ _ _ _ _; exact ⟨g, rfl⟩
  | cons scans calls ih =>
    intro g prev hr hn hc hb hch hall
    rw [List.isChain_cons_cons] at hch
    obtain ⟨h1, h2, h3, _⟩ := refreshed_covers hr hn hc hch.1
    have hw := hall scans (by simp)
    have hb' : Bounded 20000 (g.refreshed scans) := bounded_refreshed hr hb (by exact_mod_cast hw.1)
    have hr' : 0 < (g.refreshed scans).resolution := by rw [h3]; exact hr
    have hren := covered_render hr' (hb'.1.2.trans hb'.2.1.1) (hb'.2.2.1.2.trans hb'.2.2.2.1)
      (bounded_moderate hr' hb') h1 (surrounded_covered h1 hw.2)
    obtain ⟨g', hg'⟩ := ih hr' h2 h1 hb' hch.2 fun s hs => by rw [h3]; exact hall s (by simp [hs])
    refine ⟨g', ?_⟩
    unfold gridHistory
    rw [List.foldlM_cons, getMsg_eq, hren]
    simp only [Res.ok_bind]
    exact hg'

end

end Ndt.OccGrid
