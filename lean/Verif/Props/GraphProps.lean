import Verif.Spec.Graph
import Verif.Proof.Scan
import Mathlib.Tactic.Linarith
import Mathlib.Tactic.NormNum

/-! # C38-C41: the map graph -/

namespace Ndt

noncomputable section

open Spec

/-! ### C38 -/

theorem ofI64_toI64 {n : ℕ} (h : n < 2 ^ 64) : ofI64 (toI64 n) = n := by
  unfold ofI64 toI64
  rw [Nat.mod_eq_of_lt h]
  split <;> omega

theorem unpack_pack (inf : Mat3) (i j : Fin 3) : Graph.packInformation inf (i.val * 3 + j.val) = inf i j := by
  have e : List.finRange 3 = [0, 1, 2] := by decide
  unfold Graph.packInformation
  rw [e]
  simp only [List.foldl_cons, List.foldl_nil]
  fin_cases i <;> fin_cases j <;> simp [Function.update]

theorem scan_round_trip (s : Scan) : SameScan (Graph.scanOfMsg (Graph.scanToMsg s)) s := by
  refine ⟨rfl, rfl, ?_⟩
  show List.map _ (List.map _ s.points) = s.points
  rw [List.map_map]
  exact List.map_id _

theorem constraint_round_trip (c : Constraint) (h1 : c.begin_ < 2 ^ 64) (h2 : c.end_ < 2 ^ 64) :
    Graph.constraintOfMsg (Graph.constraintToMsg c) = c := by
  unfold Graph.constraintOfMsg Graph.constraintToMsg
  simp only [ofI64_toI64 h1, ofI64_toI64 h2, unpack_pack]

theorem load_append (g : Graph) (a b : List BagMsg) :
    (a ++ b).foldlM Graph.loadMsg g = (a.foldlM Graph.loadMsg g >>= fun g => b.foldlM Graph.loadMsg g) := by
  rw [List.foldlM_append]

/-- What loading does: scans and constraints are collected independently. -/
theorem load_collect (bag : List BagMsg) (ss : List ScanMsg) (cs : List ConstraintMsg)
    (hs : (bag.filter fun m => m.topic = "scans") = ss.map fun s => ⟨"scans", .scan s⟩)
    (hc : (bag.filter fun m => ¬ m.topic = "scans") = cs.map fun c => ⟨"constraints", .constraint c⟩) (g : Graph) :
    bag.foldlM Graph.loadMsg g = .ok { g with scans := g.scans ++ ss.map Graph.scanOfMsg,
                                              constraints := g.constraints ++ cs.map Graph.constraintOfMsg } := by
  induction bag generalizing g ss cs with
  | nil =>
    have e1 : ss = [] := by simpa using hs
    have e2 : cs = [] := by simpa using hc
    subst e1 e2
    simp
  | cons m bag ih =>
    rw [List.foldlM_cons]
    by_cases ht : m.topic = "scans"
    · rw [List.filter_cons_of_pos (by simpa using ht)] at hs
      rw [List.filter_cons_of_neg (by simpa using ht)] at hc
      cases ss with
      | nil => simp at hs
      | cons s ss =>
        rw [List.map_cons, List.cons.injEq] at hs
        have hm : Graph.loadMsg g m = .ok { g with scans := g.scans ++ [Graph.scanOfMsg s] } := by
          rw [hs.1]
          unfold Graph.loadMsg
          simp
        rw [hm, Res.ok_bind, ih ss cs hs.2 hc]
        simp
    · rw [List.filter_cons_of_neg (by simpa using ht)] at hs
      rw [List.filter_cons_of_pos (by simpa using ht)] at hc
      cases cs with
      | nil => simp at hc
      | cons c cs =>
        rw [List.map_cons, List.cons.injEq] at hc
        have hm : Graph.loadMsg g m = .ok { g with constraints := g.constraints ++ [Graph.constraintOfMsg c] } := by
          rw [hc.1]
          unfold Graph.loadMsg
          simp
        rw [hm, Res.ok_bind, ih ss cs hs hc.2]
        simp

/-- **C38** Loading a bag that holds what `save` wrote, in any reading order that keeps the order within each topic,
gives the same scans and the same constraints in the same order (scan indices being 64-bit). -/
theorem c38_save_load_lossless (g : Graph) (use : Bool) (bag : List BagMsg) (hi : Interleaving bag g.save)
    (h64 : ∀ c ∈ g.constraints, c.begin_ < 2 ^ 64 ∧ c.end_ < 2 ^ 64) :
    ∃ g', Graph.load use bag = .ok g' ∧ g'.useBarycenter = use ∧ g'.constraints = g.constraints ∧
      List.Forall₂ SameScan g'.scans g.scans := by
  have f1 : (g.save.filter fun m => m.topic = "scans") =
      (g.scans.map Graph.scanToMsg).map fun s => ⟨"scans", .scan s⟩ := by
    unfold Graph.save
    rw [List.filter_append, List.filter_eq_self.mpr (by simp), List.filter_eq_nil_iff.mpr (by simp),
      List.append_nil, List.map_map]
    rfl
  have f2 : (g.save.filter fun m => ¬ m.topic = "scans") =
      (g.constraints.map Graph.constraintToMsg).map fun c => ⟨"constraints", .constraint c⟩ := by
    unfold Graph.save
    rw [List.filter_append, List.filter_eq_nil_iff.mpr (by simp), List.filter_eq_self.mpr (by simp),
      List.nil_append, List.map_map]
    rfl
  have h := load_collect bag _ _ (hi.1.trans f1) (hi.2.trans f2) (Graph.new use)
  refine ⟨_, h, rfl, ?_, ?_⟩
  · simp only [Graph.new, List.nil_append, List.map_map]
    conv_rhs => rw [← List.map_id g.constraints]
    apply List.map_congr_left
    intro c hc
    exact constraint_round_trip c (h64 c hc).1 (h64 c hc).2
  · simp only [Graph.new, List.nil_append, List.map_map]
    rw [List.forall₂_map_left_iff]
    exact List.forall₂_same.mpr fun s _ => scan_round_trip s

/-- The order in which `save` writes is one such reading order, and so is constraints first. -/
example : Interleaving [⟨"constraints", .constraint (Graph.constraintToMsg ⟨0, 1, ⟨1, 2, 3⟩, fun _ _ => .nan, true⟩)⟩,
      ⟨"scans", .scan (Graph.scanToMsg (Scan.new 0))⟩, ⟨"scans", .scan (Graph.scanToMsg (Scan.new 1))⟩]
    (Graph.save ⟨true, [Scan.new 0, Scan.new 1], [⟨0, 1, ⟨1, 2, 3⟩, fun _ _ => .nan, true⟩]⟩) := by
  constructor <;> simp [Graph.save]

/-! ### C39, C40 -/

theorem scanInv_step (s : Scan) (op : ScanOp) (h : s.Inv) : (s.step op).1.Inv := by
  cases op with
  | getId => exact h
  | setPose p => intro hd; simp [Scan.step, Scan.setPose] at hd
  | getPose => exact h
  | getBarycenterPose =>
    intro _
    have := Scan.getBary_snd s h
    simp only [Scan.step, Scan.getBarycenterPose] at this ⊢
    by_cases hd : s.dirty
    · simp only [hd, if_true] at this ⊢
      rw [this]
      simp [Scan.update]
    · simp only [hd] at this ⊢
      simpa using this
  | setPoints ps => intro hd; simp [Scan.step, Scan.setPoints] at hd
  | getPoints => exact h

theorem built_inv {s : Scan} (h : BuiltByCalls s) : s.Inv := by
  obtain ⟨id, ops, rfl⟩ := h
  induction ops using List.reverseRecOn with
  | nil => intro hd; simp [Scan.new] at hd
  | append_singleton ops op ih =>
    rw [List.foldl_append]
    exact scanInv_step _ op ih

theorem sqDist_ref (use : Bool) {a b : Scan} (ha : a.Inv) (hb : b.Inv) :
    Graph.sqDist (Graph.refPose use a) (Graph.refPose use b) =
      Spec.dist (refPoint use a) (refPoint use b) ^ 2 := by
  have e : ∀ {s : Scan}, s.Inv → (Graph.refPose use s).x = (refPoint use s).x ∧
      (Graph.refPose use s).y = (refPoint use s).y := by
    intro s hs
    unfold Graph.refPose refPoint
    cases use
    · exact ⟨rfl, rfl⟩
    · simp only [if_true]
      rw [Scan.getBary_snd s hs]
      exact ⟨rfl, rfl⟩
  unfold Spec.dist Graph.sqDist
  rw [Real.sq_sqrt (by positivity), (e ha).1, (e ha).2, (e hb).1, (e hb).2]

theorem dist_nonneg' (p q : Point) : 0 ≤ Spec.dist p q := Real.sqrt_nonneg _

/-- **C39** `findNearest` returns, without repetition and ordered by distance, exactly the indices below the limit
whose reference point has a squared distance from the query's below `dist`; all of them are indices of scans. -/
theorem c39_find_nearest_exact (g : Graph) (visit : List ℕ) (scan : Scan) (dist : ℝ) (k : ℤ) {out : List ℕ}
    (hb : ∀ s ∈ g.scans, BuiltByCalls s) (hq : BuiltByCalls scan)
    (hv : visit.Perm (List.range (if 0 < k then k.toNat else g.scans.length)))
    (h : g.findNearest visit scan dist k = .ok out) :
    out.Nodup ∧
    (∀ i, i ∈ out ↔ i < (if 0 < k then k.toNat else g.scans.length) ∧ ∃ s, g.scans[i]? = some s ∧
      Spec.dist (refPoint g.useBarycenter scan) (refPoint g.useBarycenter s) ^ 2 < dist) ∧
    (∀ (i j : ℕ) (a b : ℕ) (s t : Scan), i < j → out[i]? = some a → out[j]? = some b → g.scans[a]? = some s →
      g.scans[b]? = some t →
      Spec.dist (refPoint g.useBarycenter scan) (refPoint g.useBarycenter s) ≤
      Spec.dist (refPoint g.useBarycenter scan) (refPoint g.useBarycenter t)) ∧
    ∀ i ∈ out, i < g.scans.length := by
  unfold Graph.findNearest at h
  simp only at h
  set limit := if 0 < k then k.toNat else g.scans.length with hlim
  split at h
  · cases h
  rename_i hle
  set d : ℕ → ℝ := fun i => match g.scans[i]? with
      | some s => Graph.sqDist (Graph.refPose g.useBarycenter scan) (Graph.refPose g.useBarycenter s)
      | none => 0 with hd
  have hd' : ∀ (i : ℕ) (s : Scan), g.scans[i]? = some s →
      d i = Spec.dist (refPoint g.useBarycenter scan) (refPoint g.useBarycenter s) ^ 2 := by
    intro i s hs
    simp only [hd, hs]
    exact sqDist_ref _ (built_inv hq) (built_inv (hb s (List.mem_of_getElem? hs)))
  injection h with h
  have hperm : out.Perm (visit.filter fun i => decide (d i < dist)) := by
    rw [← h]; exact List.mergeSort_perm _ _
  have hmem : ∀ i, i ∈ out ↔ i < limit ∧ d i < dist := by
    intro i
    rw [hperm.mem_iff, List.mem_filter, hv.mem_iff, List.mem_range]
    simp
  have hsorted : out.Pairwise fun i j => d i ≤ d j := by
    rw [← h]
    have := List.pairwise_mergeSort (le := fun i j => decide (d i ≤ d j))
      (by intro a b c; simp only [decide_eq_true_eq]; exact le_trans)
      (by intro a b; simp only [Bool.or_eq_true, decide_eq_true_eq]; exact le_total _ _)
      (visit.filter fun i => decide (d i < dist))
    exact this.imp fun h => by simpa using h
  have hlt : ∀ i ∈ out, i < g.scans.length := fun i hi => by
    have := ((hmem i).mp hi).1
    omega
  refine ⟨?_, ?_, ?_, hlt⟩
  · rw [hperm.nodup_iff]
    exact (hv.nodup_iff.mpr List.nodup_range).filter _
  · intro i
    rw [hmem]
    constructor
    · rintro ⟨h1, h2⟩
      have hi : i < g.scans.length := by omega
      refine ⟨h1, g.scans[i], List.getElem?_eq_getElem hi, ?_⟩
      rw [← hd' i _ (List.getElem?_eq_getElem hi)]
      exact h2
    · rintro ⟨h1, s, hs, h2⟩
      refine ⟨h1, ?_⟩
      rw [hd' i s hs]
      exact h2
  · intro i j a b s t hij ha hb' hs ht
    have h1 : d a ≤ d b := by
      obtain ⟨hi, rfl⟩ := List.getElem?_eq_some_iff.mp ha
      obtain ⟨hj, rfl⟩ := List.getElem?_eq_some_iff.mp hb'
      exact (List.pairwise_iff_getElem.mp hsorted) i j hi hj hij
    rw [hd' a s hs, hd' b t ht] at h1
    exact (pow_le_pow_iff_left₀ (dist_nonneg' _ _) (dist_nonneg' _ _) two_ne_zero).mp h1

/-- **C39** (limit) The call is defined exactly if the limit does not exceed the number of scans. -/
theorem c39_find_nearest_defined_iff (g : Graph) (visit : List ℕ) (scan : Scan) (dist : ℝ) (k : ℤ) :
    (∃ out, g.findNearest visit scan dist k = .ok out) ↔ k ≤ g.scans.length := by
  unfold Graph.findNearest
  simp only
  by_cases hk : 0 < k
  · rw [if_pos hk]
    by_cases h : g.scans.length < k.toNat
    · rw [if_pos h]
      constructor
      · rintro ⟨out, ho⟩; cases ho
      · intro hle; omega
    · rw [if_neg h]
      exact ⟨fun _ => by omega, fun _ => ⟨_, rfl⟩⟩
  · rw [if_neg hk, if_neg (by omega)]
    exact ⟨fun _ => by omega, fun _ => ⟨_, rfl⟩⟩

/-- **C40** A scan below the limit is returned exactly if its Euclidean distance from the query is below the *square
root* of `dist`. Missing from the full claim: that it is below `dist` itself, which holds for `dist = 1` only; see
`c40_distance_not_in_metres`. -/
theorem c40_returned_iff_below_sqrt_partial (g : Graph) (visit : List ℕ) (scan : Scan) (dist : ℝ) (k : ℤ)
    {out : List ℕ} (hb : ∀ s ∈ g.scans, BuiltByCalls s) (hq : BuiltByCalls scan)
    (hv : visit.Perm (List.range (if 0 < k then k.toNat else g.scans.length)))
    (h : g.findNearest visit scan dist k = .ok out) (i : ℕ) (s : Scan) (hs : g.scans[i]? = some s)
    (hi : i < if 0 < k then k.toNat else g.scans.length) :
    i ∈ out ↔ Spec.dist (refPoint g.useBarycenter scan) (refPoint g.useBarycenter s) < Real.sqrt dist := by
  obtain ⟨-, hm, -⟩ := c39_find_nearest_exact g visit scan dist k hb hq hv h
  rw [hm i, Real.lt_sqrt (dist_nonneg' _ _)]
  constructor
  · rintro ⟨-, t, ht, hlt⟩
    rw [hs] at ht
    injection ht with ht
    rw [ht]; exact hlt
  · intro hlt
    exact ⟨hi, s, hs, hlt⟩

/-- **C40** With `dist = 1` the claim as stated holds. -/
theorem c40_unit_distance_partial (g : Graph) (visit : List ℕ) (scan : Scan) (k : ℤ)
    {out : List ℕ} (hb : ∀ s ∈ g.scans, BuiltByCalls s) (hq : BuiltByCalls scan)
    (hv : visit.Perm (List.range (if 0 < k then k.toNat else g.scans.length)))
    (h : g.findNearest visit scan 1 k = .ok out) (i : ℕ) (s : Scan) (hs : g.scans[i]? = some s)
    (hi : i < if 0 < k then k.toNat else g.scans.length) :
    i ∈ out ↔ Spec.dist (refPoint g.useBarycenter scan) (refPoint g.useBarycenter s) < 1 := by
  rw [c40_returned_iff_below_sqrt_partial g visit scan 1 k hb hq hv h i s hs hi, Real.sqrt_one]

/-- A graph with two scans, at the origin and two metres along x. -/
def twoScans : Graph := ⟨false, [Scan.new 0, (Scan.new 1).setPose ⟨2, 0, 0⟩], []⟩

/-- **C40** (refuted) A scan 2 m away is not returned for a search distance of 3 m; only the one at the query is. -/
theorem c40_distance_not_in_metres :
    twoScans.findNearest [0, 1] (Scan.new 7) 3 (-1) = .ok [0] ∧
    Spec.dist (refPoint false (Scan.new 7)) (refPoint false ((Scan.new 1).setPose ⟨2, 0, 0⟩)) = 2 := by
  constructor
  · unfold Graph.findNearest twoScans
    simp [Graph.refPose, Graph.sqDist, Scan.new, Scan.setPose, Scan.getPose, Pose2d.zero]
    norm_num
  · unfold Spec.dist refPoint
    simp [Scan.new, Scan.setPose, Pose2d.zero]

/-- The hypotheses of C39 and C40 hold for this graph. -/
example : (∀ s ∈ twoScans.scans, BuiltByCalls s) ∧ BuiltByCalls (Scan.new 7) ∧
    [0, 1].Perm (List.range (if 0 < (-1 : ℤ) then (-1 : ℤ).toNat else twoScans.scans.length)) := by
  refine ⟨?_, ⟨7, [], rfl⟩, by simp [twoScans, List.range_succ]⟩
  intro s hs
  simp only [twoScans, List.mem_cons, List.not_mem_nil, or_false] at hs
  rcases hs with rfl | rfl
  · exact ⟨0, [], rfl⟩
  · exact ⟨1, [.setPose ⟨2, 0, 0⟩], rfl⟩

/-! ### C41 -/

theorem nodeMarkers_spec (scans : List Scan) : ∀ (m : Graph.Marker) (out : List Graph.Marker),
    m.ns = "nodes" → m.type = 2 →
    ∃ ms, (Graph.nodeMarkers m out scans).2 = out ++ ms ∧ List.Forall₂ IsNodeMarker scans ms := by
  induction scans with
  | nil => intro m out _ _; exact ⟨[], by simp [Graph.nodeMarkers], .nil⟩
  | cons s ss ih =>
    intro m out h1 h2
    unfold Graph.nodeMarkers
    obtain ⟨ms, e, hf⟩ := ih { m with id := wrapI32 s.getId, x := s.getPose.x, y := s.getPose.y }
      (out ++ [{ m with id := wrapI32 s.getId, x := s.getPose.x, y := s.getPose.y }]) h1 h2
    refine ⟨{ m with id := wrapI32 s.getId, x := s.getPose.x, y := s.getPose.y } :: ms, ?_,
      .cons ⟨h1, rfl, h2, rfl, rfl⟩ hf⟩
    rw [e]; simp

theorem edgeMarkers_spec (scans : List Scan) (cs : List Constraint) : ∀ (m : Graph.Marker) (out : List Graph.Marker)
    (n : ℕ), m.ns = "edges" → m.type = 4 → m.x = 0 → m.y = 0 → m.id = n → ∀ out',
    Graph.edgeMarkers scans m out cs = .ok out' →
    ∃ ms, out' = out ++ ms ∧ ms.length = cs.length ∧
      ∀ (i : ℕ) (c : Constraint) (x : Graph.Marker), cs[i]? = some c → ms[i]? = some x →
        IsEdgeMarker scans (n + i) c x := by
  induction cs with
  | nil =>
    intro m out n _ _ _ _ _ out' h
    cases h
    exact ⟨[], by simp, rfl, by simp⟩
  | cons c cs ih =>
    intro m out n h1 h2 h3 h4 h5 out' h
    unfold Graph.edgeMarkers at h
    split at h
    · rename_i b e hb he
      simp only at h
      cases hid : int32 (m.id + 1) with
      | error er => rw [hid] at h; cases h
      | ok id =>
        rw [hid] at h
        simp only [Res.ok_bind] at h
        have hid' : id = ((n + 1 : ℕ) : ℤ) := by
          unfold int32 at hid
          split at hid
          · injection hid with hid
            rw [← hid, h5]; push_cast; rfl
          · cases hid
        obtain ⟨ms, e1, e2, e3⟩ := ih
          { m with points := [⟨b.getPose.x, b.getPose.y⟩, ⟨e.getPose.x, e.getPose.y⟩],
                   color := if c.switchable then ![0, 1, 0] else ![0, 0, 1], id := id }
          _ (n + 1) h1 h2 h3 h4 hid' out' h
        refine ⟨{ m with points := [⟨b.getPose.x, b.getPose.y⟩, ⟨e.getPose.x, e.getPose.y⟩],
                         color := if c.switchable then ![0, 1, 0] else ![0, 0, 1] } :: ms,
          by rw [e1]; simp, by simp [e2], ?_⟩
        intro i c' x hc hx
        cases i with
        | zero =>
          simp only [List.getElem?_cons_zero, Option.some.injEq] at hc hx
          subst hc hx
          exact ⟨h1, by simpa using h5, h2, h3, h4, rfl, b, e, hb, he, rfl⟩
        | succ i =>
          have := e3 i c' x (by simpa using hc) (by simpa using hx)
          rw [show n + (i + 1) = n + 1 + i by omega]
          exact this
    · cases h

/-- **C41** The markers appended are one node marker per scan, in order, then one edge marker per constraint, in order,
numbered from 0. -/
theorem c41_markers_mirror_graph (g : Graph) (out out' : List Graph.Marker) (h : g.getMsg out = .ok out') :
    ∃ nodes edges, out' = out ++ nodes ++ edges ∧ List.Forall₂ IsNodeMarker g.scans nodes ∧
      edges.length = g.constraints.length ∧
      ∀ (i : ℕ) (c : Constraint) (m : Graph.Marker), g.constraints[i]? = some c → edges[i]? = some m →
        IsEdgeMarker g.scans i c m := by
  unfold Graph.getMsg at h
  obtain ⟨nodes, e1, hn⟩ := nodeMarkers_spec g.scans Graph.marker0 out rfl rfl
  obtain ⟨edges, e2, hl, he⟩ := edgeMarkers_spec g.scans g.constraints _ _ 0 rfl rfl rfl rfl rfl out' h
  refine ⟨nodes, edges, ?_, hn, hl, ?_⟩
  · rw [e2]
    show (Graph.nodeMarkers Graph.marker0 out g.scans).2 ++ edges = _
    rw [e1]
  · intro i c m hc hm
    have := he i c m hc hm
    rwa [Nat.zero_add] at this

/-- **C41** Within each namespace ids are distinct, if the scan ids are distinct and below 2^31. -/
theorem c41_marker_ids_distinct (g : Graph) (out out' : List Graph.Marker) (h : g.getMsg out = .ok out')
    (hd : (g.scans.map (·.id)).Nodup) (hlt : ∀ s ∈ g.scans, s.id < 2 ^ 31) :
    ∃ nodes edges, out' = out ++ nodes ++ edges ∧ (∀ m ∈ nodes, m.ns = "nodes") ∧ (∀ m ∈ edges, m.ns = "edges") ∧
      (nodes.map (·.id)).Nodup ∧ (edges.map (·.id)).Nodup := by
  obtain ⟨nodes, edges, e, hn, hl, he⟩ := c41_markers_mirror_graph g out out' h
  have hedge : ∀ (i : ℕ) (m : Graph.Marker), edges[i]? = some m → m.ns = "edges" ∧ m.id = i := by
    intro i m hm
    have hi : i < g.constraints.length := by
      rw [← hl]; exact (List.getElem?_eq_some_iff.mp hm).1
    have := he i _ m (List.getElem?_eq_getElem hi) hm
    exact ⟨this.1, this.2.1⟩
  refine ⟨nodes, edges, e, ?_, ?_, ?_, ?_⟩
  · clear e he hedge hl hd hlt h
    generalize g.scans = l at hn
    induction hn with
    | nil => simp
    | cons hx _ ih =>
      intro m hm
      rcases List.mem_cons.mp hm with rfl | hm
      · exact hx.1
      · exact ih m hm
  · intro m hm
    obtain ⟨i, hi, rfl⟩ := List.getElem_of_mem hm
    exact (hedge i _ (List.getElem?_eq_getElem hi)).1
  · have e2 : nodes.map (·.id) = (g.scans.map (·.id)).map fun n : ℕ => (n : ℤ) := by
      clear e he hedge hl hd h
      generalize g.scans = l at hn hlt
      induction hn with
      | nil => rfl
      | cons hx _ ih =>
        simp only [List.map_cons]
        rw [ih fun s hs => hlt s (by simp [hs]), hx.2.1, wrapI32_of_lt (hlt _ (by simp))]
    rw [e2]
    exact hd.map fun a b hab => by exact_mod_cast hab
  · rw [List.nodup_iff_injective_getElem]
    intro a b hab
    simp only [List.getElem_map] at hab
    have h1 := (hedge a.1 _ (List.getElem?_eq_getElem (by simpa using a.2))).2
    have h2 := (hedge b.1 _ (List.getElem?_eq_getElem (by simpa using b.2))).2
    rw [h1, h2] at hab
    exact Fin.ext (by exact_mod_cast hab)

/-- **C41** (limit) The message is defined for constraints between existing scans, fewer than 2^31 - 1 of them. -/
theorem c41_markers_defined (g : Graph) (out : List Graph.Marker)
    (hc : ∀ c ∈ g.constraints, c.begin_ < g.scans.length ∧ c.end_ < g.scans.length)
    (hn : g.constraints.length < 2 ^ 31) : ∃ out', g.getMsg out = .ok out' := by
  have gen : ∀ (cs : List Constraint) (m : Graph.Marker) (out : List Graph.Marker) (n : ℕ), m.id = n →
      (∀ c ∈ cs, c.begin_ < g.scans.length ∧ c.end_ < g.scans.length) → n + cs.length < 2 ^ 31 →
      ∃ out', Graph.edgeMarkers g.scans m out cs = .ok out' := by
    intro cs
    induction cs with
    | nil => intro m out n _ _ _; exact ⟨out, rfl⟩
    | cons c cs ih =>
      intro m out n hid hc hn
      obtain ⟨h1, h2⟩ := hc c (by simp)
      simp only [List.length_cons] at hn
      unfold Graph.edgeMarkers
      rw [List.getElem?_eq_getElem h1, List.getElem?_eq_getElem h2]
      simp only
      have hi : int32 (m.id + 1) = .ok ((n + 1 : ℕ) : ℤ) := by
        unfold int32
        rw [hid, if_pos (by omega)]
        push_cast; rfl
      rw [hi]
      simp only [Res.ok_bind]
      exact ih _ _ (n + 1) rfl (fun c hc' => hc c (by simp [hc'])) (by omega)
  exact gen g.constraints _ _ 0 rfl hc (by omega)

end

end Ndt
