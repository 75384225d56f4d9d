import Verif.Spec.KdTree
import Mathlib.Tactic.Linarith

/-! # Lemmas about the KD-tree -/

namespace Ndt

noncomputable section

open Spec

/-- Search order: left of a node are smaller keys, right the others. -/
def KdNode.Sorted : KdNode → Prop
  | .leaf _ _ => True
  | .inner p v l r => (∀ x ∈ leaves l, ((x.1 p : ℤ) : ℝ) < v) ∧ (∀ x ∈ leaves r, v ≤ ((x.1 p : ℤ) : ℝ)) ∧
      l.Sorted ∧ r.Sorted

theorem key_eq_iff (a b : Key) : (a 0 = b 0 ∧ a 1 = b 1 ∧ a 2 = b 2) ↔ a = b := by
  constructor
  · rintro ⟨h0, h1, h2⟩
    funext i
    fin_cases i
    · exact h0
    · exact h1
    · exact h2
  · rintro rfl; exact ⟨rfl, rfl, rfl⟩

theorem int32_ok {z r : ℤ} (h : int32 z = .ok r) : r = z := by
  unfold int32 at h
  split at h
  · cases h; rfl
  · cases h

theorem int32_of_abs {z : ℤ} (h : |z| < 2 ^ 31) : int32 z = .ok z := by
  unfold int32
  obtain ⟨h1, h2⟩ := abs_lt.mp h
  rw [if_pos ⟨by omega, h2⟩]

theorem variation_ok {a b v : ℤ} (h : KdNode.variation a b = .ok v) : v = |a - b| := by
  unfold KdNode.variation at h
  cases h1 : int32 (a - b) with
  | error e => rw [h1] at h; cases h
  | ok d =>
    rw [h1] at h
    have := int32_ok h1
    subst this
    exact int32_ok h

/-- What the axis search computes when it meets no overflow. -/
theorem pivotAxis_ok {a b : Key} {p : Option (Fin 3)} (h : KdNode.pivotAxis a b = .ok p) :
    (p = none → a = b) ∧ ∀ i, p = some i → a i ≠ b i := by
  unfold KdNode.pivotAxis at h
  simp only [List.foldlM_cons, List.foldlM_nil] at h
  cases h0 : KdNode.variation (a 0) (b 0) with
  | error e => rw [h0] at h; cases h
  | ok v0 =>
    cases h1 : KdNode.variation (a 1) (b 1) with
    | error e => rw [h0, h1] at h; cases h
    | ok v1 =>
      cases h2 : KdNode.variation (a 2) (b 2) with
      | error e => rw [h0, h1, h2] at h; cases h
      | ok v2 =>
        rw [h0, h1, h2] at h
        simp only [Res.ok_bind, Res.pure_eq, Except.ok.injEq] at h
        have e0 := variation_ok h0
        have e1 := variation_ok h1
        have e2 := variation_ok h2
        have hpos : ∀ x : ℤ, |x| > 0 → x ≠ 0 := fun x hx h => by simp [h] at hx
        have hz : ∀ x : ℤ, ¬ (|x| > 0) → x = 0 := fun x hx => by
          by_contra hne
          exact hx (abs_pos.mpr hne)
        have g0 := abs_nonneg (a 0 - b 0)
        have g1 := abs_nonneg (a 1 - b 1)
        have g2 := abs_nonneg (a 2 - b 2)
        rw [← e0] at g0
        rw [← e1] at g1
        rw [← e2] at g2
        have q0 : v0 > 0 → a 0 ≠ b 0 := fun hv hab => by simp [hab] at e0; omega
        have q1 : v1 > 0 → a 1 ≠ b 1 := fun hv hab => by simp [hab] at e1; omega
        have q2 : v2 > 0 → a 2 ≠ b 2 := fun hv hab => by simp [hab] at e2; omega
        have z0 : ¬ v0 > 0 → a 0 = b 0 := fun hv => by
          have : v0 = 0 := by omega
          rw [this] at e0
          have := abs_eq_zero.mp e0.symm
          omega
        have z1 : ¬ v1 > 0 → a 1 = b 1 := fun hv => by
          have : v1 = 0 := by omega
          rw [this] at e1
          have := abs_eq_zero.mp e1.symm
          omega
        have z2 : ¬ v2 > 0 → a 2 = b 2 := fun hv => by
          have : v2 = 0 := by omega
          rw [this] at e2
          have := abs_eq_zero.mp e2.symm
          omega
        clear e0 e1 e2 h0 h1 h2 hpos hz
        subst h
        by_cases c0 : v0 > 0
        · rw [if_pos c0]
          by_cases c1 : v1 > v0
          · rw [if_pos c1]
            by_cases c2 : v2 > v1
            · rw [if_pos c2]
              refine ⟨fun h => by simp at h, fun i hi => ?_⟩
              simp only [Option.some.injEq] at hi
              subst hi; exact q2 (by omega)
            · rw [if_neg c2]
              refine ⟨fun h => by simp at h, fun i hi => ?_⟩
              simp only [Option.some.injEq] at hi
              subst hi; exact q1 (by omega)
          · rw [if_neg c1]
            by_cases c2 : v2 > v0
            · rw [if_pos c2]
              refine ⟨fun h => by simp at h, fun i hi => ?_⟩
              simp only [Option.some.injEq] at hi
              subst hi; exact q2 (by omega)
            · rw [if_neg c2]
              refine ⟨fun h => by simp at h, fun i hi => ?_⟩
              simp only [Option.some.injEq] at hi
              subst hi; exact q0 (by omega)
        · rw [if_neg c0]
          by_cases c1 : v1 > 0
          · rw [if_pos c1]
            by_cases c2 : v2 > v1
            · rw [if_pos c2]
              refine ⟨fun h => by simp at h, fun i hi => ?_⟩
              simp only [Option.some.injEq] at hi
              subst hi; exact q2 (by omega)
            · rw [if_neg c2]
              refine ⟨fun h => by simp at h, fun i hi => ?_⟩
              simp only [Option.some.injEq] at hi
              subst hi; exact q1 (by omega)
          · rw [if_neg c1]
            by_cases c2 : v2 > 0
            · rw [if_pos c2]
              refine ⟨fun h => by simp at h, fun i hi => ?_⟩
              simp only [Option.some.injEq] at hi
              subst hi; exact q2 (by omega)
            · rw [if_neg c2]
              refine ⟨fun _ => (key_eq_iff a b).mp ⟨z0 c0, z1 c1, z2 c2⟩, fun i hi => by simp at hi⟩

/-- Adding a weight to the leaf with the given key. -/
def bump (k : Key) (w : Fl) (l : List (Key × Fl)) : List (Key × Fl) :=
  l.map fun x => if x.1 = k then (x.1, x.2 + w) else x

theorem bump_of_not_mem {k : Key} {w : Fl} {l : List (Key × Fl)} (h : ∀ x ∈ l, x.1 ≠ k) : bump k w l = l := by
  unfold bump
  conv_rhs => rw [← List.map_id l]
  apply List.map_congr_left
  intro x hx
  simp [h x hx]

theorem bump_keys (k : Key) (w : Fl) (l : List (Key × Fl)) : (bump k w l).map (·.1) = l.map (·.1) := by
  unfold bump
  rw [List.map_map]
  apply List.map_congr_left
  intro x _
  simp only [Function.comp]
  split <;> rfl

/-- The effect of an insertion on the leaves. -/
theorem insert_leaves (t : KdNode) (k : Key) (w : Fl) (hs : t.Sorted) {t' : KdNode} {n : ℕ}
    (h : t.insert k w = .ok (t', n)) :
    t'.Sorted ∧ (∀ x ∈ leaves t', x.1 = k ∨ ∃ y ∈ leaves t, y.1 = x.1) ∧
      ((n = 0 ∧ (∃ x ∈ leaves t, x.1 = k) ∧ leaves t' = bump k w (leaves t)) ∨
       (n = 1 ∧ (∀ x ∈ leaves t, x.1 ≠ k) ∧ (leaves t').Perm ((k, w) :: leaves t))) := by
  induction t generalizing t' n with
  | leaf k0 v0 =>
    unfold KdNode.insert at h
    by_cases hk : k0 = k
    · rw [if_pos ((key_eq_iff k0 k).mpr hk)] at h
      cases h
      refine ⟨trivial, ?_, Or.inl ⟨rfl, ⟨(k0, v0), by simp [leaves], hk⟩, ?_⟩⟩
      · intro x hx
        simp only [leaves, List.mem_singleton] at hx
        subst hx
        exact Or.inl hk
      · simp [leaves, bump, hk]
    · rw [if_neg (fun c => hk ((key_eq_iff k0 k).mp c))] at h
      cases hp : KdNode.pivotAxis k0 k with
      | error e => rw [hp] at h; cases h
      | ok p =>
        rw [hp] at h
        cases p with
        | none => cases h
        | some p =>
          simp only [Res.ok_bind] at h
          cases hsum : int32 (k0 p + k p) with
          | error e => rw [hsum] at h; cases h
          | ok s =>
            rw [hsum] at h
            have es := int32_ok hsum
            subst es
            simp only [Res.ok_bind, Res.pure_eq, Except.ok.injEq, Prod.mk.injEq] at h
            obtain ⟨rfl, rfl⟩ := h
            have hne := (pivotAxis_ok hp).2 p rfl
            rw [Int.cast_add]
            by_cases hlt : (k p : ℝ) < (k0 p + k p : ℝ) / 2
            · rw [if_pos hlt]
              refine ⟨⟨?_, ?_, trivial, trivial⟩, ?_, Or.inr ⟨rfl, ?_, ?_⟩⟩
              · intro x hx
                simp only [leaves, List.mem_singleton] at hx
                subst hx; exact hlt
              · intro x hx
                simp only [leaves, List.mem_singleton] at hx
                subst hx
                simp only
                linarith
              · intro x hx
                simp only [leaves, List.cons_append, List.nil_append, List.mem_cons, List.not_mem_nil, or_false] at hx
                rcases hx with rfl | rfl
                · exact Or.inl rfl
                · exact Or.inr ⟨(k0, v0), by simp [leaves], rfl⟩
              · intro x hx
                simp only [leaves, List.mem_singleton] at hx
                subst hx; exact hk
              · simp [leaves]
            · rw [if_neg hlt]
              have hlt' : (k0 p : ℝ) < k p := by
                have h1 : (k0 p : ℝ) ≤ k p := by linarith
                exact lt_of_le_of_ne h1 (by exact_mod_cast hne)
              refine ⟨⟨?_, ?_, trivial, trivial⟩, ?_, Or.inr ⟨rfl, ?_, ?_⟩⟩
              · intro x hx
                simp only [leaves, List.mem_singleton] at hx
                subst hx
                simp only
                linarith
              · intro x hx
                simp only [leaves, List.mem_singleton] at hx
                subst hx
                simp only
                linarith
              · intro x hx
                simp only [leaves, List.cons_append, List.nil_append, List.mem_cons, List.not_mem_nil, or_false] at hx
                rcases hx with rfl | rfl
                · exact Or.inr ⟨(k0, v0), by simp [leaves], rfl⟩
                · exact Or.inl rfl
              · intro x hx
                simp only [leaves, List.mem_singleton] at hx
                subst hx; exact hk
              · simp only [leaves, List.cons_append, List.nil_append]
                exact List.Perm.swap _ _ _
  | inner p v l r ihl ihr =>
    obtain ⟨hl, hr, hsl, hsr⟩ := hs
    unfold KdNode.insert at h
    by_cases hlt : (k p : ℝ) < v
    · rw [if_pos hlt] at h
      cases hi : l.insert k w with
      | error e => rw [hi] at h; cases h
      | ok q =>
        obtain ⟨l', m⟩ := q
        rw [hi] at h
        simp only [Res.ok_bind, Res.pure_eq, Except.ok.injEq, Prod.mk.injEq] at h
        obtain ⟨rfl, rfl⟩ := h
        obtain ⟨g1, g2, g3⟩ := ihl hsl hi
        have hnr : ∀ x ∈ leaves r, x.1 ≠ k := by
          intro x hx hxk
          have := hr x hx
          rw [hxk] at this
          linarith
        refine ⟨⟨?_, hr, g1, hsr⟩, ?_, ?_⟩
        · intro x hx
          rcases g2 x hx with e | ⟨y, hy, e⟩
          · rw [e]; exact hlt
          · rw [← e]; exact hl y hy
        · intro x hx
          simp only [leaves, List.mem_append] at hx
          rcases hx with hx | hx
          · rcases g2 x hx with e | ⟨y, hy, e⟩
            · exact Or.inl e
            · exact Or.inr ⟨y, by simp [leaves, hy], e⟩
          · exact Or.inr ⟨x, by simp [leaves, hx], rfl⟩
        · rcases g3 with ⟨e, ⟨x, hx, hxk⟩, e2⟩ | ⟨e, hn, hp⟩
          · refine Or.inl ⟨e, ⟨x, by simp [leaves, hx], hxk⟩, ?_⟩
            have e3 := bump_of_not_mem (w := w) hnr
            simp only [leaves, e2]
            unfold bump at *
            rw [List.map_append, e3]
          · refine Or.inr ⟨e, ?_, ?_⟩
            · intro x hx
              simp only [leaves, List.mem_append] at hx
              rcases hx with hx | hx
              · exact hn x hx
              · exact hnr x hx
            · simp only [leaves]
              exact List.Perm.append_right _ hp
    · rw [if_neg hlt] at h
      cases hi : r.insert k w with
      | error e => rw [hi] at h; cases h
      | ok q =>
        obtain ⟨r', m⟩ := q
        rw [hi] at h
        simp only [Res.ok_bind, Res.pure_eq, Except.ok.injEq, Prod.mk.injEq] at h
        obtain ⟨rfl, rfl⟩ := h
        obtain ⟨g1, g2, g3⟩ := ihr hsr hi
        have hnl : ∀ x ∈ leaves l, x.1 ≠ k := by
          intro x hx hxk
          have := hl x hx
          rw [hxk] at this
          exact hlt this
        refine ⟨⟨hl, ?_, hsl, g1⟩, ?_, ?_⟩
        · intro x hx
          rcases g2 x hx with e | ⟨y, hy, e⟩
          · rw [e]; linarith
          · rw [← e]; exact hr y hy
        · intro x hx
          simp only [leaves, List.mem_append] at hx
          rcases hx with hx | hx
          · exact Or.inr ⟨x, by simp [leaves, hx], rfl⟩
          · rcases g2 x hx with e | ⟨y, hy, e⟩
            · exact Or.inl e
            · exact Or.inr ⟨y, by simp [leaves, hy], e⟩
        · rcases g3 with ⟨e, ⟨x, hx, hxk⟩, e2⟩ | ⟨e, hn, hp⟩
          · refine Or.inl ⟨e, ⟨x, by simp [leaves, hx], hxk⟩, ?_⟩
            have e3 := bump_of_not_mem (w := w) hnl
            simp only [leaves, e2]
            unfold bump at *
            rw [List.map_append, e3]
          · refine Or.inr ⟨e, ?_, ?_⟩
            · intro x hx
              simp only [leaves, List.mem_append] at hx
              rcases hx with hx | hx
              · exact hnl x hx
              · exact hn x hx
            · simp only [leaves]
              exact (List.Perm.append_left _ hp).trans List.perm_middle

theorem sumFl_append (ws : List Fl) (w : Fl) : sumFl (ws ++ [w]) = sumFl ws + w := by
  simp [sumFl, List.foldl_append]

theorem Fl.zero_add' (w : Fl) : (Fl.fin 0 + w : Fl) = w := by
  cases w with
  | fin x => rw [Fl.fin_add, zero_add]
  | _ => rfl

/-- The representation invariant of a tree after insertions `ins`. -/
structure KdInv (t : KdTree) (size : Fin 3 → ℝ) (ins : List (Pose2d × Fl)) : Prop where
  cell : t.cellSize = size
  sorted : ∀ r, t.root = some r → r.Sorted
  nodup : ((treeLeaves t).map (·.1)).Nodup
  count : t.leafCount = (treeLeaves t).length
  keys : ∀ k, (∃ x ∈ treeLeaves t, x.1 = k) ↔ ∃ x ∈ ins, bin size x.1 = k
  vals : ∀ x ∈ treeLeaves t, x.2 = sumFl (weightsOf size x.1 ins)

theorem keyOf_ok {t : KdTree} {p : Pose2d} {k : Key} (h : t.keyOf p = .ok k) : k = bin t.cellSize p := by
  unfold KdTree.keyOf at h
  have conv : ∀ (x c : ℝ) (z : ℤ), toI32F (.fin x / .fin c) = .ok z → z = truncZ (x / c) := by
    intro x c z hz
    by_cases hc : c = 0
    · subst hc
      by_cases hx : x = 0
      · subst hx
        rw [Fl.zero_div_zero] at hz
        cases hz
      · have : (Fl.fin x / Fl.fin 0 : Fl) = .pinf ∨ (Fl.fin x / Fl.fin 0 : Fl) = .ninf := by
          show Fl.div _ _ = _ ∨ Fl.div _ _ = _
          unfold Fl.div
          simp only [if_true, hx, if_false]
          by_cases h0 : 0 < x <;> simp [h0]
        rcases this with e | e <;> (rw [e] at hz; cases hz)
    · rw [Fl.fin_div hc] at hz
      unfold toI32F toI32 at hz
      simp only at hz
      split at hz
      · cases hz; rfl
      · cases hz
  cases h0 : toI32F (.fin p.x / .fin (t.cellSize 0)) with
  | error e => rw [h0] at h; cases h
  | ok a =>
    cases h1 : toI32F (.fin p.y / .fin (t.cellSize 1)) with
    | error e => rw [h0, h1] at h; cases h
    | ok b =>
      cases h2 : toI32F (.fin p.theta / .fin (t.cellSize 2)) with
      | error e => rw [h0, h1, h2] at h; cases h
      | ok c =>
        rw [h0, h1, h2] at h
        simp only [Res.ok_bind, Res.pure_eq, Except.ok.injEq] at h
        rw [← h, bin, conv _ _ _ h0, conv _ _ _ h1, conv _ _ _ h2]

theorem weightsOf_append (size : Fin 3 → ℝ) (k : Key) (ins : List (Pose2d × Fl)) (p : Pose2d) (w : Fl) :
    weightsOf size k (ins ++ [(p, w)]) =
      if bin size p = k then weightsOf size k ins ++ [w] else weightsOf size k ins := by
  unfold weightsOf
  rw [List.filter_append, List.map_append]
  by_cases h : bin size p = k <;> simp [h]

theorem weightsOf_nil_of {size : Fin 3 → ℝ} {k : Key} {ins : List (Pose2d × Fl)}
    (h : ¬ ∃ x ∈ ins, bin size x.1 = k) : weightsOf size k ins = [] := by
  unfold weightsOf
  rw [List.map_eq_nil_iff, List.filter_eq_nil_iff]
  intro x hx
  simp only [decide_eq_true_eq]
  exact fun e => h ⟨x, hx, e⟩

theorem kdInv_insert {t t' : KdTree} {size : Fin 3 → ℝ} {ins : List (Pose2d × Fl)} (h : KdInv t size ins)
    {p : Pose2d} {w : Fl} (hi : t.insert p w = .ok t') : KdInv t' size (ins ++ [(p, w)]) := by
  unfold KdTree.insert at hi
  cases hk : t.keyOf p with
  | error e => rw [hk] at hi; cases hi
  | ok k =>
    have ek := keyOf_ok hk
    rw [h.cell] at ek
    rw [hk] at hi
    simp only [Res.ok_bind] at hi
    have hw : ∀ k', weightsOf size k' (ins ++ [(p, w)]) =
        if k = k' then weightsOf size k' ins ++ [w] else weightsOf size k' ins := by
      intro k'; rw [weightsOf_append, ← ek]
    cases hr : t.root with
    | none =>
      rw [hr] at hi
      cases hi
      have hl0 : treeLeaves t = [] := by simp [treeLeaves, hr]
      have hnone : ∀ k', ¬ ∃ x ∈ ins, bin size x.1 = k' := by
        intro k' hex
        obtain ⟨x, hx, -⟩ := (h.keys k').mpr hex
        rw [hl0] at hx
        cases hx
      have hins : ins = [] := by
        cases ins with
        | nil => rfl
        | cons x l => exact absurd ⟨x, List.mem_cons_self, rfl⟩ (hnone (bin size x.1))
      subst hins
      refine ⟨h.cell, ?_, ?_, ?_, ?_, ?_⟩
      · intro r hr'
        simp only [Option.some.injEq] at hr'
        subst hr'; trivial
      · simp [treeLeaves, leaves]
      · have := h.count
        rw [hl0] at this
        simp [treeLeaves, leaves, this]
      · intro k'
        simp [treeLeaves, leaves, ← ek]
      · intro x hx
        simp only [treeLeaves, leaves, Option.map_some, Option.getD_some, List.mem_singleton] at hx
        subst hx
        simp only [hw, if_pos]
        simp [weightsOf, sumFl, Fl.zero_add']
    | some r =>
      rw [hr] at hi
      simp only at hi
      cases hri : r.insert k w with
      | error e => rw [hri] at hi; cases hi
      | ok q =>
        obtain ⟨r', n⟩ := q
        rw [hri] at hi
        cases hi
        have hl0 : treeLeaves t = leaves r := by simp [treeLeaves, hr]
        obtain ⟨g1, -, g3⟩ := insert_leaves r k w (h.sorted r hr) hri
        have hkeys := h.keys
        have hvals := h.vals
        have hnodup := h.nodup
        have hcount := h.count
        rw [hl0] at hkeys hvals hnodup hcount
        have hl1 : treeLeaves { t with root := some r', leafCount := t.leafCount + n } = leaves r' := by
          simp [treeLeaves]
        rcases g3 with ⟨e, ⟨y, hy, hyk⟩, e2⟩ | ⟨e, hn, hp⟩
        · refine ⟨h.cell, ?_, ?_, ?_, ?_, ?_⟩
          · intro r2 hr2
            simp only [Option.some.injEq] at hr2
            subst hr2; exact g1
          · rw [hl1, e2, bump_keys]; exact hnodup
          · rw [hl1, e2, e]
            simp [bump, hcount]
          · intro k'
            rw [hl1]
            have : (∃ x ∈ leaves r', x.1 = k') ↔ ∃ x ∈ leaves r, x.1 = k' := by
              have := bump_keys k w (leaves r)
              rw [← e2] at this
              constructor
              · rintro ⟨x, hx, hxk⟩
                have hm : k' ∈ (leaves r').map (·.1) := List.mem_map.mpr ⟨x, hx, hxk⟩
                rw [this] at hm
                obtain ⟨z, hz, hzk⟩ := List.mem_map.mp hm
                exact ⟨z, hz, hzk⟩
              · rintro ⟨x, hx, hxk⟩
                have hm : k' ∈ (leaves r).map (·.1) := List.mem_map.mpr ⟨x, hx, hxk⟩
                rw [← this] at hm
                obtain ⟨z, hz, hzk⟩ := List.mem_map.mp hm
                exact ⟨z, hz, hzk⟩
            rw [this, hkeys k']
            constructor
            · rintro ⟨x, hx, hxk⟩
              exact ⟨x, List.mem_append_left _ hx, hxk⟩
            · rintro ⟨x, hx, hxk⟩
              rcases List.mem_append.mp hx with hx | hx
              · exact ⟨x, hx, hxk⟩
              · rw [List.mem_singleton] at hx
                subst hx
                simp only at hxk
                rw [← hxk, ← ek]
                exact (hkeys k).mp ⟨y, hy, hyk⟩
          · intro x hx
            rw [hl1, e2] at hx
            unfold bump at hx
            obtain ⟨z, hz, rfl⟩ := List.mem_map.mp hx
            rw [hw]
            by_cases hzk : z.1 = k
            · rw [if_pos hzk, if_pos hzk.symm, sumFl_append, hvals z hz]
            · rw [if_neg hzk, if_neg (fun e => hzk e.symm), hvals z hz]
        · have hnew : ¬ ∃ x ∈ ins, bin size x.1 = k := by
            intro hex
            obtain ⟨x, hx, hxk⟩ := (hkeys k).mpr hex
            exact hn x hx hxk
          refine ⟨h.cell, ?_, ?_, ?_, ?_, ?_⟩
          · intro r2 hr2
            simp only [Option.some.injEq] at hr2
            subst hr2; exact g1
          · rw [hl1, (hp.map (·.1)).nodup_iff]
            simp only [List.map_cons, List.nodup_cons]
            refine ⟨?_, hnodup⟩
            intro hm
            obtain ⟨x, hx, hxk⟩ := List.mem_map.mp hm
            exact hn x hx hxk
          · rw [hl1, hp.length_eq, e]
            simp [hcount]
          · intro k'
            rw [hl1]
            have : (∃ x ∈ leaves r', x.1 = k') ↔ (k = k' ∨ ∃ x ∈ leaves r, x.1 = k') := by
              simp only [hp.mem_iff, List.mem_cons]
              constructor
              · rintro ⟨x, rfl | hx, hxk⟩
                · exact Or.inl hxk
                · exact Or.inr ⟨x, hx, hxk⟩
              · rintro (hk' | ⟨x, hx, hxk⟩)
                · exact ⟨(k, w), Or.inl rfl, hk'⟩
                · exact ⟨x, Or.inr hx, hxk⟩
            rw [this, hkeys k']
            constructor
            · rintro (hk' | ⟨x, hx, hxk⟩)
              · exact ⟨(p, w), by simp, by rw [← hk', ek]⟩
              · exact ⟨x, List.mem_append_left _ hx, hxk⟩
            · rintro ⟨x, hx, hxk⟩
              rcases List.mem_append.mp hx with hx | hx
              · exact Or.inr ⟨x, hx, hxk⟩
              · rw [List.mem_singleton] at hx
                subst hx
                exact Or.inl (by rw [ek]; exact hxk)
          · intro x hx
            rw [hl1, hp.mem_iff, List.mem_cons] at hx
            rw [hw]
            rcases hx with rfl | hx
            · simp only [if_pos]
              rw [weightsOf_nil_of hnew]
              simp [sumFl, Fl.zero_add']
            · rw [if_neg (fun e => hn x hx e.symm), hvals x hx]

theorem kdInv_empty (t : KdTree) : KdInv t.clear t.cellSize [] := by
  refine ⟨rfl, ?_, ?_, ?_, ?_, ?_⟩ <;> simp [KdTree.clear, treeLeaves]

theorem inserted_append (ops : List KdTree.Op) (op : KdTree.Op) :
    inserted (ops ++ [op]) = (match op with | .insert p w => inserted ops ++ [(p, w)] | .clear => []) := by
  unfold inserted
  rw [List.foldl_append]
  cases op <;> rfl

/-- The invariant holds after any history that meets no undefined behaviour. -/
theorem kdInv_run (sx sy sth : ℝ) (ops : List KdTree.Op) {t : KdTree}
    (h : (KdTree.new sx sy sth).run ops = .ok t) : KdInv t ![sx, sy, sth] (inserted ops) := by
  induction ops using List.reverseRecOn generalizing t with
  | nil =>
    cases h
    exact kdInv_empty (KdTree.new sx sy sth)
  | append_singleton l op ih =>
    unfold KdTree.run at h
    rw [List.foldlM_append] at h
    cases hl : l.foldlM KdTree.step (KdTree.new sx sy sth) with
    | error e => rw [hl] at h; cases h
    | ok t1 =>
      rw [hl] at h
      simp only [Res.ok_bind, List.foldlM_cons, List.foldlM_nil] at h
      have hi := ih hl
      rw [inserted_append]
      cases op with
      | insert p w =>
        cases hs : t1.step (.insert p w) with
        | error e => rw [hs] at h; cases h
        | ok t2 =>
          rw [hs] at h
          cases h
          exact kdInv_insert hi hs
      | clear =>
        cases h
        have := kdInv_empty t1
        rw [hi.cell] at this
        exact this

/-! ### Definedness -/

theorem variation_of_small {a b : ℤ} (ha : |a| < 2 ^ 30) (hb : |b| < 2 ^ 30) :
    KdNode.variation a b = .ok |a - b| := by
  have h : |a - b| < 2 ^ 31 := by
    have := abs_sub a b
    have e : (2 : ℤ) ^ 31 = 2 ^ 30 + 2 ^ 30 := by norm_num
    omega
  unfold KdNode.variation
  rw [int32_of_abs h]
  simp only [Res.ok_bind]
  exact int32_of_abs (by rwa [abs_abs])

theorem pivotAxis_total {a b : Key} (ha : ∀ i, |a i| < 2 ^ 30) (hb : ∀ i, |b i| < 2 ^ 30) (hne : a ≠ b) :
    ∃ p, KdNode.pivotAxis a b = .ok (some p) := by
  have : ∃ p, KdNode.pivotAxis a b = .ok p := by
    unfold KdNode.pivotAxis
    simp only [List.foldlM_cons, List.foldlM_nil, variation_of_small (ha _) (hb _), Res.ok_bind, Res.pure_eq]
    exact ⟨_, rfl⟩
  obtain ⟨p, hp⟩ := this
  cases p with
  | none => exact absurd ((pivotAxis_ok hp).1 rfl) hne
  | some p => exact ⟨p, hp⟩

theorem node_insert_total (t : KdNode) (k : Key) (w : Fl) (hk : ∀ i, |k i| < 2 ^ 30)
    (ht : ∀ x ∈ leaves t, ∀ i, |x.1 i| < 2 ^ 30) : ∃ q, t.insert k w = .ok q := by
  induction t with
  | leaf k0 v0 =>
    unfold KdNode.insert
    by_cases h : k0 = k
    · rw [if_pos ((key_eq_iff k0 k).mpr h)]; exact ⟨_, rfl⟩
    · rw [if_neg (fun c => h ((key_eq_iff k0 k).mp c))]
      have h0 : ∀ i, |k0 i| < 2 ^ 30 := ht (k0, v0) (by simp [leaves])
      obtain ⟨p, hp⟩ := pivotAxis_total h0 hk h
      rw [hp]
      simp only [Res.ok_bind]
      have : |k0 p + k p| < 2 ^ 31 := by
        have := abs_add_le (k0 p) (k p)
        have := h0 p
        have := hk p
        have e : (2 : ℤ) ^ 31 = 2 ^ 30 + 2 ^ 30 := by norm_num
        omega
      rw [int32_of_abs this]
      exact ⟨_, rfl⟩
  | inner p v l r ihl ihr =>
    unfold KdNode.insert
    have hl : ∀ x ∈ leaves l, ∀ i, |x.1 i| < 2 ^ 30 := fun x hx => ht x (by simp [leaves, hx])
    have hr : ∀ x ∈ leaves r, ∀ i, |x.1 i| < 2 ^ 30 := fun x hx => ht x (by simp [leaves, hx])
    by_cases h : (k p : ℝ) < v
    · rw [if_pos h]
      obtain ⟨q, hq⟩ := ihl hl
      rw [hq]; exact ⟨_, rfl⟩
    · rw [if_neg h]
      obtain ⟨q, hq⟩ := ihr hr
      rw [hq]; exact ⟨_, rfl⟩

theorem keyOf_total {t : KdTree} {p : Pose2d} (hc : ∀ i, t.cellSize i ≠ 0) (hf : BinFits t.cellSize p) :
    t.keyOf p = .ok (bin t.cellSize p) := by
  have conv : ∀ (x c : ℝ), c ≠ 0 → |truncZ (x / c)| < 2 ^ 30 →
      toI32F (.fin x / .fin c) = .ok (truncZ (x / c)) := by
    intro x c hc h
    rw [Fl.fin_div hc]
    unfold toI32F toI32
    obtain ⟨h1, h2⟩ := abs_lt.mp h
    simp only
    rw [if_pos ⟨by omega, by omega⟩]
  unfold KdTree.keyOf
  have f0 := hf 0
  have f1 := hf 1
  have f2 := hf 2
  simp only [bin, Matrix.cons_val_zero, Matrix.cons_val_one, Matrix.cons_val] at f0 f1 f2
  rw [conv _ _ (hc 0) f0, conv _ _ (hc 1) f1, conv _ _ (hc 2) f2]
  rfl

theorem kd_insert_total {t : KdTree} {size : Fin 3 → ℝ} {ins : List (Pose2d × Fl)} (h : KdInv t size ins)
    (hc : ∀ i, size i ≠ 0) (hins : ∀ x ∈ ins, BinFits size x.1) (p : Pose2d) (w : Fl) (hp : BinFits size p) :
    ∃ t', t.insert p w = .ok t' := by
  unfold KdTree.insert
  rw [keyOf_total (by rw [h.cell]; exact hc) (by rw [h.cell]; exact hp), h.cell]
  simp only [Res.ok_bind]
  cases hr : t.root with
  | none => exact ⟨_, rfl⟩
  | some r =>
    simp only
    obtain ⟨q, hq⟩ := node_insert_total r (bin size p) w hp (by
      intro x hx
      have hx' : x ∈ treeLeaves t := by simpa [treeLeaves, hr] using hx
      obtain ⟨y, hy, e⟩ := (h.keys x.1).mp ⟨x, hx', rfl⟩
      rw [← e]
      exact hins y hy)
    rw [hq]
    exact ⟨_, rfl⟩

/-- A history of insertions of poses with small bins meets no undefined behaviour. -/
theorem kd_run_total (sx sy sth : ℝ) (hc : ∀ i, (![sx, sy, sth] : Fin 3 → ℝ) i ≠ 0) (ops : List KdTree.Op)
    (hf : ∀ p w, KdTree.Op.insert p w ∈ ops → BinFits ![sx, sy, sth] p) :
    ∃ t, (KdTree.new sx sy sth).run ops = .ok t := by
  have hall : ∀ l : List KdTree.Op, (∀ p w, KdTree.Op.insert p w ∈ l → BinFits ![sx, sy, sth] p) →
      ∀ x ∈ inserted l, BinFits ![sx, sy, sth] x.1 := by
    intro l
    induction l using List.reverseRecOn with
    | nil => intro _ x hx; simp [inserted] at hx
    | append_singleton l op ih =>
      intro hl x hx
      rw [inserted_append] at hx
      cases op with
      | insert p w =>
        rcases List.mem_append.mp hx with hx | hx
        · exact ih (fun p w h => hl p w (List.mem_append_left _ h)) x hx
        · rw [List.mem_singleton] at hx
          subst hx
          exact hl p w (by simp)
      | clear => cases hx
  induction ops using List.reverseRecOn with
  | nil => exact ⟨_, rfl⟩
  | append_singleton l op ih =>
    have hl : ∀ p w, KdTree.Op.insert p w ∈ l → BinFits ![sx, sy, sth] p :=
      fun p w h => hf p w (List.mem_append_left _ h)
    obtain ⟨t, ht⟩ := ih hl
    have hi := kdInv_run sx sy sth l ht
    unfold KdTree.run at ht ⊢
    rw [List.foldlM_append, ht]
    simp only [Res.ok_bind, List.foldlM_cons, List.foldlM_nil]
    cases op with
    | insert p w =>
      obtain ⟨t', ht'⟩ := kd_insert_total hi hc (hall l hl) p w (hf p w (by simp))
      exact ⟨t', by simp only [KdTree.step, ht']; rfl⟩
    | clear => exact ⟨_, rfl⟩

end

end Ndt
