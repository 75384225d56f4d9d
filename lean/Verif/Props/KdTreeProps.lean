import Verif.Proof.KdTree

/-! # C19, C20: the KD-tree -/

namespace Ndt

noncomputable section

open Spec

/-- **C19** After any history of insertions and clears, `getLeafCount` is the number of distinct bins inserted into
since the last clear. -/
theorem c19_leaf_count_is_distinct_bins (sx sy sth : ℝ) (ops : List KdTree.Op) {t : KdTree}
    (h : (KdTree.new sx sy sth).run ops = .ok t) :
    t.getLeafCount = (bins ![sx, sy, sth] (inserted ops)).card := by
  have hi := kdInv_run sx sy sth ops h
  unfold KdTree.getLeafCount bins
  rw [hi.count, ← List.length_map (f := fun x : Key × Fl => x.1), ← List.toFinset_card_of_nodup hi.nodup]
  congr 1
  ext k
  simp only [List.mem_toFinset, List.mem_map]
  exact hi.keys k

/-- **C19** The order of the insertions does not matter. -/
theorem c19_leaf_count_order_irrelevant (sx sy sth : ℝ) (ins ins' : List (Pose2d × Fl)) (hp : ins.Perm ins')
    {t t' : KdTree} (h : (KdTree.new sx sy sth).run (ins.map fun x => .insert x.1 x.2) = .ok t)
    (h' : (KdTree.new sx sy sth).run (ins'.map fun x => .insert x.1 x.2) = .ok t') :
    t.getLeafCount = t'.getLeafCount := by
  have key : ∀ l : List (Pose2d × Fl), inserted (l.map fun x => .insert x.1 x.2) = l := by
    intro l
    induction l using List.reverseRecOn with
    | nil => rfl
    | append_singleton l x ih =>
      rw [List.map_append, List.map_singleton, inserted_append, ih]
  rw [c19_leaf_count_is_distinct_bins _ _ _ _ h, c19_leaf_count_is_distinct_bins _ _ _ _ h', key, key]
  unfold bins
  congr 1
  ext k
  simp only [List.mem_toFinset, List.mem_map, hp.mem_iff]

/-- **C20** Every leaf holds the sum, in insertion order, of exactly the weights inserted under its bin; no bin has
two leaves and no inserted bin is without one. -/
theorem c20_leaf_values (sx sy sth : ℝ) (ops : List KdTree.Op) {t : KdTree}
    (h : (KdTree.new sx sy sth).run ops = .ok t) :
    ((treeLeaves t).map (·.1)).Nodup ∧
    (∀ k, (∃ v, (k, v) ∈ treeLeaves t) ↔ k ∈ bins ![sx, sy, sth] (inserted ops)) ∧
    ∀ k v, (k, v) ∈ treeLeaves t → v = sumFl (weightsOf ![sx, sy, sth] k (inserted ops)) := by
  have hi := kdInv_run sx sy sth ops h
  refine ⟨hi.nodup, ?_, fun k v hm => hi.vals _ hm⟩
  intro k
  unfold bins
  rw [List.mem_toFinset, List.mem_map, ← hi.keys k]
  constructor
  · rintro ⟨v, hv⟩; exact ⟨_, hv, rfl⟩
  · rintro ⟨x, hx, rfl⟩; exact ⟨x.2, hx⟩

/-- **C20** With numbers as weights, the total over the leaves is the total inserted. -/
theorem c20_total_weight (sx sy sth : ℝ) (ops : List KdTree.Op) {t : KdTree}
    (h : (KdTree.new sx sy sth).run ops = .ok t) (f : Pose2d × Fl → ℝ)
    (hf : ∀ x ∈ inserted ops, x.2 = .fin (f x)) :
    sumFl ((treeLeaves t).map (·.2)) = .fin ((inserted ops).map f).sum := by
  obtain ⟨h1, h2, h3⟩ := c20_leaf_values sx sy sth ops h
  set size : Fin 3 → ℝ := ![sx, sy, sth]
  set ins := inserted ops
  have hsum : ∀ (l : List Fl) (g : List ℝ), l = g.map Fl.fin → sumFl l = .fin g.sum := by
    intro l g hl
    subst hl
    have key : ∀ (g : List ℝ) (a : ℝ), (g.map Fl.fin).foldl (· + ·) (Fl.fin a) = .fin (a + g.sum) := by
      intro g
      induction g with
      | nil => intro a; simp
      | cons b g ih => intro a; simp only [List.map_cons, List.foldl_cons, Fl.fin_add, ih, List.sum_cons, add_assoc]
    unfold sumFl
    rw [key, zero_add]
  let val : Key → ℝ := fun k => ((ins.filter fun x => bin size x.1 = k).map f).sum
  have hval : ∀ x ∈ treeLeaves t, x.2 = .fin (val x.1) := by
    intro x hx
    rw [h3 x.1 x.2 hx]
    apply hsum
    unfold weightsOf
    rw [List.map_map]
    apply List.map_congr_left
    intro y hy
    exact hf y (List.mem_of_mem_filter hy)
  rw [hsum ((treeLeaves t).map (·.2)) (((treeLeaves t).map (·.1)).map val) (by
    rw [List.map_map, List.map_map]
    apply List.map_congr_left
    intro x hx
    exact hval x hx)]
  congr 1
  -- sum over distinct bins of per-bin sums = total
  have gen : ∀ (ks : List Key) (l : List (Pose2d × Fl)), ks.Nodup → (∀ x ∈ l, bin size x.1 ∈ ks) →
      (ks.map fun k => ((l.filter fun x => bin size x.1 = k).map f).sum).sum = (l.map f).sum := by
    intro ks l hnd
    induction l with
    | nil => intro _; simp
    | cons y l ih =>
      intro hmem
      have ih' := ih (fun x hx => hmem x (List.mem_cons_of_mem _ hx))
      rw [List.map_cons, List.sum_cons, ← ih']
      have e : (ks.map fun k => (((y :: l).filter fun x => bin size x.1 = k).map f).sum) =
          ks.map fun k => (if bin size y.1 = k then f y else 0) +
            ((l.filter fun x => bin size x.1 = k).map f).sum := by
        apply List.map_congr_left
        intro k _
        by_cases hk : bin size y.1 = k <;> simp [hk]
      rw [e, List.sum_map_add]
      congr 1
      have hy := hmem y List.mem_cons_self
      have aux : ∀ ks : List Key, ks.Nodup → bin size y.1 ∈ ks →
          (ks.map fun k => if bin size y.1 = k then f y else 0).sum = f y := by
        intro ks
        induction ks with
        | nil => intro _ h; cases h
        | cons k ks ihk =>
          intro hn hm
          rw [List.nodup_cons] at hn
          rw [List.map_cons, List.sum_cons]
          by_cases hk : bin size y.1 = k
          · rw [if_pos hk]
            have : (ks.map fun k => if bin size y.1 = k then f y else 0) = ks.map fun _ => 0 := by
              apply List.map_congr_left
              intro k' hk'
              rw [if_neg]
              intro e
              rw [← hk, e] at hn
              exact hn.1 hk'
            rw [this]; simp
          · rw [if_neg hk, zero_add]
            exact ihk hn.2 ((List.mem_cons.mp hm).resolve_left hk)
      exact aux ks hnd hy
  apply gen _ _ h1
  intro x hx
  obtain ⟨v, hv⟩ := (h2 (bin size x.1)).mpr (by
    unfold bins
    rw [List.mem_toFinset]
    exact List.mem_map.mpr ⟨x, hx, rfl⟩)
  exact List.mem_map.mpr ⟨_, hv, rfl⟩

/-- **C19, C20** The histories these theorems speak of include every history of poses whose bins are below 2^30 in
magnitude (half a billion metres at the half-metre bins the particle filter uses). -/
theorem c19_histories_defined (sx sy sth : ℝ) (hc : ∀ i, (![sx, sy, sth] : Fin 3 → ℝ) i ≠ 0)
    (ops : List KdTree.Op) (hf : ∀ p w, KdTree.Op.insert p w ∈ ops → BinFits ![sx, sy, sth] p) :
    ∃ t, (KdTree.new sx sy sth).run ops = .ok t := kd_run_total sx sy sth hc ops hf

theorem truncZ_frac {x : ℝ} (z : ℤ) (h : 0 ≤ x) (h1 : (z : ℝ) ≤ x) (h2 : x < z + 1) : truncZ x = z := by
  rw [truncZ_of_nonneg h, Int.floor_eq_iff]; exact ⟨h1, h2⟩

/-- Three poses, two in one bin (both sides of zero), one in another, with the bin sizes the filter uses. -/
example : ∃ t, (KdTree.new 0.5 0.5 0.2671).run
    [.insert ⟨0.4, 0, 0⟩ (.fin 1), .insert ⟨3, 1, 0⟩ (.fin 2), .insert ⟨-0.4, 0, 0⟩ (.fin 5)] = .ok t ∧
    t.getLeafCount = 2 := by
  have b1 : bin ![0.5, 0.5, 0.2671] ⟨0.4, 0, 0⟩ = ![0, 0, 0] := by
    simp only [bin, Matrix.cons_val_zero, Matrix.cons_val_one, Matrix.cons_val]
    rw [truncZ_frac 0 (by norm_num) (by norm_num) (by norm_num), truncZ_frac 0 (by norm_num) (by norm_num) (by norm_num),
      truncZ_frac 0 (by norm_num) (by norm_num) (by norm_num)]
  have b2 : bin ![0.5, 0.5, 0.2671] ⟨3, 1, 0⟩ = ![6, 2, 0] := by
    simp only [bin, Matrix.cons_val_zero, Matrix.cons_val_one, Matrix.cons_val]
    rw [truncZ_frac 6 (by norm_num) (by norm_num) (by norm_num), truncZ_frac 2 (by norm_num) (by norm_num) (by norm_num),
      truncZ_frac 0 (by norm_num) (by norm_num) (by norm_num)]
  have b3 : bin ![0.5, 0.5, 0.2671] ⟨-0.4, 0, 0⟩ = ![0, 0, 0] := by
    have hn : truncZ (-0.4 / 0.5) = 0 := by
      unfold truncZ
      rw [if_neg (by norm_num), Int.ceil_eq_iff]; norm_num
    simp only [bin, Matrix.cons_val_zero, Matrix.cons_val_one, Matrix.cons_val]
    rw [hn, truncZ_frac 0 (by norm_num) (by norm_num) (by norm_num),
      truncZ_frac 0 (by norm_num) (by norm_num) (by norm_num)]
  obtain ⟨t, ht⟩ := c19_histories_defined 0.5 0.5 0.2671
    (by intro i; fin_cases i <;> norm_num [Matrix.cons_val_zero, Matrix.cons_val_one, Matrix.cons_val])
    [.insert ⟨0.4, 0, 0⟩ (.fin 1), .insert ⟨3, 1, 0⟩ (.fin 2), .insert ⟨-0.4, 0, 0⟩ (.fin 5)] (by
      intro p w hm
      simp only [List.mem_cons, KdTree.Op.insert.injEq, List.not_mem_nil, or_false] at hm
      rcases hm with ⟨rfl, -⟩ | ⟨rfl, -⟩ | ⟨rfl, -⟩ <;> intro i
      · rw [b1]; fin_cases i <;> norm_num [Matrix.cons_val_zero, Matrix.cons_val_one, Matrix.cons_val]
      · rw [b2]; fin_cases i <;> norm_num [Matrix.cons_val_zero, Matrix.cons_val_one, Matrix.cons_val]
      · rw [b3]; fin_cases i <;> norm_num [Matrix.cons_val_zero, Matrix.cons_val_one, Matrix.cons_val])
  refine ⟨t, ht, ?_⟩
  rw [c19_leaf_count_is_distinct_bins _ _ _ _ ht]
  simp only [bins, inserted, List.foldl_cons, List.foldl_nil, List.nil_append, List.cons_append, List.map_cons,
    List.map_nil, b1, b2, b3]
  decide

end

end Ndt
