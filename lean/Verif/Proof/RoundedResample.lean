import Verif.Proof.RoundedKld
import Verif.Spec.RoundedResample
import Verif.Proof.Filter

/-! # Lemmas about resampling in double precision -/

namespace Ndt.Rounded

noncomputable section

open Spec Ndt.Filter

/-! ### Bins -/

/-- A pose in the middle of the bin that is computed for `p`, to reuse what is known about the tree of exact bins. -/
def snap (rd : ℝ → ℝ) (size : Fin 3 → ℝ) (p : Pose2d) : Pose2d :=
  ⟨computedBin rd size p 0 * size 0, computedBin rd size p 1 * size 1, computedBin rd size p 2 * size 2⟩

theorem truncZ_int (n : ℤ) : truncZ (n : ℝ) = n := by
  unfold truncZ
  split <;> simp

theorem bin_snap {rd : ℝ → ℝ} {size : Fin 3 → ℝ} (hs : ∀ i, size i ≠ 0) (p : Pose2d) :
    bin size (snap rd size p) = computedBin rd size p := by
  unfold bin snap
  simp only [mul_div_assoc, div_self (hs _), mul_one, truncZ_int]
  funext i
  fin_cases i <;> rfl

theorem toI32F_snap (rd : ℝ → ℝ) {x s : ℝ} (hs : s ≠ 0) :
    toI32F (Fl.rounded rd (.fin x / .fin s)) = toI32F (.fin ((truncZ (rd (x / s)) : ℝ) * s) / .fin s) := by
  rw [Fl.fin_div hs, Fl.fin_div hs, mul_div_assoc, div_self hs, mul_one]
  simp only [Fl.rounded, toI32F, toI32, truncZ_int]

theorem keyOf_snap (rd : ℝ → ℝ) {t : KdTree} (hs : ∀ i, t.cellSize i ≠ 0) (p : Pose2d) :
    keyOf rd t p = t.keyOf (snap rd t.cellSize p) := by
  unfold keyOf KdTree.keyOf
  rw [toI32F_snap rd (hs 0), toI32F_snap rd (hs 1), toI32F_snap rd (hs 2)]
  rfl

theorem kdInsert_snap (rd : ℝ → ℝ) {t : KdTree} (hs : ∀ i, t.cellSize i ≠ 0) (p : Pose2d) (w : Fl) :
    kdInsert rd t p w = t.insert (snap rd t.cellSize p) w := by
  unfold kdInsert KdTree.insert
  rw [keyOf_snap rd hs]
  rfl

/-! ### The loop -/

/-- What holds between draws. -/
structure LoopInv (rd : ℝ → ℝ) (f : Filter) (err z : ℝ) (draw : ℕ → ℕ) (size : Fin 3 → ℝ) (rs : List Pose2d) (ws : List Fl)
    (kd : KdTree) (mx : ℕ) : Prop where
  len : ws.length = rs.length
  drawn : ∀ i < rs.length, rs[i]? = f.particles[draw i]? ∧ ws[i]? = f.weights[draw i]?
  tree : KdInv kd size ((rs.map (snap rd size)).zip ws)
  bound : (mx = f.maxP ∧ kd.getLeafCount ≤ 1) ∨ (1 < kd.getLeafCount ∧ kldSize rd err z kd.getLeafCount = .ok mx)

theorem loopInv_start (rd : ℝ → ℝ) (f : Filter) (err z : ℝ) (draw : ℕ → ℕ) :
    LoopInv rd f err z draw f.kd.cellSize [] [] f.kd.clear f.maxP := by
  refine ⟨rfl, fun i hi => by simp at hi, kdInv_empty f.kd, Or.inl ⟨rfl, ?_⟩⟩
  simp [KdTree.clear, KdTree.getLeafCount]

theorem leafCount_bins {rd : ℝ → ℝ} {f : Filter} {err z : ℝ} {draw : ℕ → ℕ} {size : Fin 3 → ℝ} (hs : ∀ i, size i ≠ 0) {rs : List Pose2d}
    {ws : List Fl} {kd : KdTree} {mx : ℕ} (hinv : LoopInv rd f err z draw size rs ws kd mx) :
    kd.getLeafCount = (rs.map (computedBin rd size)).toFinset.card := by
  have htree := hinv.tree
  unfold KdTree.getLeafCount
  rw [htree.count, ← List.length_map (f := fun x : Key × Fl => x.1), ← List.toFinset_card_of_nodup htree.nodup]
  congr 1
  ext b
  simp only [List.mem_toFinset, List.mem_map]
  rw [htree.keys b]
  constructor
  · rintro ⟨x, hx, hb⟩
    obtain ⟨p, hp, e⟩ := List.mem_map.mp (List.of_mem_zip hx).1
    exact ⟨p, hp, by rw [← bin_snap hs, e]; exact hb⟩
  · rintro ⟨p, hp, hb⟩
    obtain ⟨i, hi, rfl⟩ := List.getElem_of_mem hp
    have hi' : i < ws.length := by rw [hinv.len]; exact hi
    refine ⟨(snap rd size rs[i], ws[i]), ?_, by rw [bin_snap hs]; exact hb⟩
    rw [List.mem_iff_getElem]
    exact ⟨i, by simp [hi, hi'], by simp⟩

theorem loopInv_step {rd : ℝ → ℝ} {f : Filter} {err z : ℝ} {draw : ℕ → ℕ} {size : Fin 3 → ℝ} (hs : ∀ i, size i ≠ 0) {rs : List Pose2d}
    {ws : List Fl} {kd kd1 : KdTree} {mx mx1 : ℕ} (hinv : LoopInv rd f err z draw size rs ws kd mx) {x : Pose2d} {w : Fl}
    (hx : f.particles[draw rs.length]? = some x) (hw : f.weights[draw rs.length]? = some w) (hk : kdInsert rd kd x w = .ok kd1)
    (hm : (if 1 < kd1.getLeafCount then kldSize rd err z kd1.getLeafCount else .ok mx) = .ok mx1) :
    LoopInv rd f err z draw size (rs ++ [x]) (ws ++ [w]) kd1 mx1 := by
  rw [kdInsert_snap rd (by rw [hinv.tree.cell]; exact hs), hinv.tree.cell] at hk
  have hle := kd_insert_leafCount hk
  refine ⟨by simp [hinv.len], ?_, ?_, ?_⟩
  · intro i hi
    simp only [List.length_append, List.length_cons, List.length_nil, zero_add] at hi
    by_cases hi' : i < rs.length
    · have := hinv.drawn i hi'
      rw [List.getElem?_append_left hi', List.getElem?_append_left (by rw [hinv.len]; exact hi')]
      exact this
    · have : i = rs.length := by omega
      subst this
      rw [hx, hw]
      constructor
      · simp
      · rw [← hinv.len]; simp
  · have := kdInv_insert hinv.tree hk
    rwa [List.map_append, List.zip_append (by rw [List.length_map]; exact hinv.len.symm)]
  · by_cases h1 : 1 < kd1.getLeafCount
    · rw [if_pos h1] at hm
      exact Or.inr ⟨h1, hm⟩
    · rw [if_neg h1] at hm
      cases hm
      rcases hinv.bound with ⟨e, -⟩ | ⟨e, -⟩
      · exact Or.inl ⟨e, by omega⟩
      · exact absurd (lt_of_lt_of_le e hle) h1

/-- The state before the last draw, in which one more particle was wanted. -/
def Wanted (rd : ℝ → ℝ) (f : Filter) (err z : ℝ) (draw : ℕ → ℕ) (size : Fin 3 → ℝ) (rs : List Pose2d) : Prop :=
  rs = [] ∨ ∃ x ws kd mx, rs = rs.dropLast ++ [x] ∧ LoopInv rd f err z draw size rs.dropLast ws kd mx ∧
    rs.dropLast.length < max f.minP mx

theorem resampleLoop_spec (rd : ℝ → ℝ) (f : Filter) (err z : ℝ) (draw : ℕ → ℕ) (size : Fin 3 → ℝ) (hs : ∀ i, size i ≠ 0) :
    ∀ (n : ℕ) (rs : List Pose2d) (ws : List Fl) (kd : KdTree) (mx : ℕ), f.maxP - rs.length = n →
      LoopInv rd f err z draw size rs ws kd mx → (rs.length = 0 ∨ rs.length < f.maxP) → Wanted rd f err z draw size rs →
      ∀ {rs' : List Pose2d} {ws' : List Fl} {kd' : KdTree},
        resampleLoop rd f err z draw rs ws kd mx = .ok (rs', ws', kd') →
        ∃ mx', LoopInv rd f err z draw size rs' ws' kd' mx' ∧ rs'.length ≤ max f.minP f.maxP ∧ rs'.length ≤ max 1 f.maxP ∧
          (f.maxP ≤ rs'.length ∨ max f.minP mx' ≤ rs'.length) ∧ Wanted rd f err z draw size rs' := by
  intro n
  induction n using Nat.strong_induction_on with
  | _ n ih =>
    intro rs ws kd mx hn hinv h0 hwt rs' ws' kd' h
    rw [resampleLoop] at h
    by_cases hc : rs.length < max f.minP mx
    · rw [if_pos hc] at h
      cases hx : f.particles[draw rs.length]? with
      | none => rw [hx] at h; cases h
      | some x =>
        cases hw : f.weights[draw rs.length]? with
        | none => rw [hx, hw] at h; cases h
        | some w =>
          rw [hx, hw] at h
          simp only at h
          cases hk : kdInsert rd kd x w with
          | error e => rw [hk] at h; cases h
          | ok kd1 =>
            rw [hk] at h
            simp only at h
            cases hm : (if 1 < kd1.getLeafCount then kldSize rd err z kd1.getLeafCount else .ok mx) with
            | error e => rw [hm] at h; cases h
            | ok mx1 =>
              rw [hm] at h
              simp only at h
              have hinv1 := loopInv_step hs hinv hx hw hk hm
              have hw1 : Wanted rd f err z draw size (rs ++ [x]) :=
                Or.inr ⟨x, ws, kd, mx, by simp, by simpa using hinv, by simpa using hc⟩
              have hmin : rs.length + 1 ≤ max f.minP f.maxP := by
                rcases h0 with h0 | h0
                · rcases hinv.bound with ⟨e, -⟩ | ⟨e, -⟩
                  · rw [e, h0] at hc; omega
                  · exfalso
                    rw [leafCount_bins hs hinv, List.eq_nil_of_length_eq_zero h0] at e
                    simp at e
                · omega
              by_cases hb : f.maxP ≤ rs.length + 1
              · rw [dif_pos hb] at h
                simp only [Except.ok.injEq, Prod.mk.injEq] at h
                obtain ⟨rfl, rfl, rfl⟩ := h
                refine ⟨mx1, hinv1, by simpa using hmin, ?_, Or.inl (by simpa using hb), hw1⟩
                simp only [List.length_append, List.length_cons, List.length_nil]; omega
              · rw [dif_neg hb] at h
                refine ih (f.maxP - (rs ++ [x]).length) ?_ (rs ++ [x]) (ws ++ [w]) kd1 mx1 rfl hinv1 ?_ hw1 h
                · simp only [List.length_append, List.length_cons, List.length_nil]; omega
                · right; simp only [List.length_append, List.length_cons, List.length_nil]; omega
    · rw [if_neg hc] at h
      simp only [Except.ok.injEq, Prod.mk.injEq] at h
      obtain ⟨rfl, rfl, rfl⟩ := h
      refine ⟨mx, hinv, ?_, ?_, Or.inr (by omega), hwt⟩ <;> (rcases h0 with h0 | h0 <;> omega)

theorem resampled_ok {rd : ℝ → ℝ} {f : Filter} {err z : ℝ} {draw : ℕ → ℕ} (hs : ∀ i, f.kd.cellSize i ≠ 0) {rs : List Pose2d}
    {ws : List Fl} (h : resampled rd f err z draw = .ok (rs, ws)) :
    ∃ kd mx, LoopInv rd f err z draw f.kd.cellSize rs ws kd mx ∧ rs.length ≤ max f.minP f.maxP ∧ rs.length ≤ max 1 f.maxP ∧
      (f.maxP ≤ rs.length ∨ max f.minP mx ≤ rs.length) ∧ Wanted rd f err z draw f.kd.cellSize rs := by
  unfold resampled at h
  cases hl : resampleLoop rd f err z draw [] [] f.kd.clear f.maxP with
  | error e => rw [hl] at h; cases h
  | ok q =>
    obtain ⟨rs', ws', kd⟩ := q
    rw [hl] at h
    simp only [Except.ok.injEq, Prod.mk.injEq] at h
    obtain ⟨rfl, rfl⟩ := h
    obtain ⟨mx, h1⟩ := resampleLoop_spec rd f err z draw f.kd.cellSize hs _ [] [] f.kd.clear f.maxP rfl
      (loopInv_start rd f err z draw) (Or.inl rfl) (Or.inl rfl) hl
    exact ⟨kd, mx, h1⟩

/-- The loop meets no undefined behaviour when the draws are valid, bins fit and the bound can be converted. -/
theorem resampleLoop_total (rd : ℝ → ℝ) (f : Filter) (err z : ℝ) (draw : ℕ → ℕ) (size : Fin 3 → ℝ) (hs : ∀ i, size i ≠ 0)
    (hd : ∀ n, draw n < f.particles.length) (hlen : f.weights.length = f.particles.length)
    (hfit : ∀ p ∈ f.particles, ∀ i, |computedBin rd size p i| < 2 ^ 30)
    (hb : ∀ k, 1 < k → k ≤ max 1 f.maxP → ∃ m, kldSize rd err z k = .ok m) :
    ∀ (n : ℕ) (rs : List Pose2d) (ws : List Fl) (kd : KdTree) (mx : ℕ), f.maxP - rs.length = n →
      LoopInv rd f err z draw size rs ws kd mx → (rs.length = 0 ∨ rs.length < f.maxP) →
      ∃ q, resampleLoop rd f err z draw rs ws kd mx = .ok q := by
  intro n
  induction n using Nat.strong_induction_on with
  | _ n ih =>
    intro rs ws kd mx hn hinv h0
    rw [resampleLoop]
    by_cases hc : rs.length < max f.minP mx
    · rw [if_pos hc]
      have hx := List.getElem?_eq_getElem (hd rs.length)
      have hw := List.getElem?_eq_getElem (l := f.weights) (i := draw rs.length) (by rw [hlen]; exact hd _)
      rw [hx, hw]
      set x := f.particles[draw rs.length]'(hd _) with hxdef
      set w := f.weights[draw rs.length]'(by rw [hlen]; exact hd _) with hwdef
      simp only
      have hmemrs : ∀ y ∈ (rs.map (snap rd size)).zip ws, BinFits size y.1 := by
        intro y hy
        obtain ⟨p, hp, e⟩ := List.mem_map.mp (List.of_mem_zip hy).1
        obtain ⟨i, hi, e2⟩ := List.getElem_of_mem hp
        have := (hinv.drawn i hi).1
        rw [List.getElem?_eq_getElem hi, e2] at this
        unfold BinFits
        rw [← e, bin_snap hs]
        exact hfit _ (List.mem_of_getElem? this.symm)
      obtain ⟨kd1, hk⟩ := kd_insert_total hinv.tree hs hmemrs (snap rd size x) w (by
        unfold BinFits
        rw [bin_snap hs]
        exact hfit _ (List.getElem_mem _))
      have hk' : kdInsert rd kd x w = .ok kd1 := by
        rw [kdInsert_snap rd (by rw [hinv.tree.cell]; exact hs), hinv.tree.cell]; exact hk
      rw [hk']
      simp only
      have hcard : kd1.getLeafCount ≤ rs.length + 1 := by
        have hcell : kd1.cellSize = size := (kdInv_insert hinv.tree hk).cell
        have hinvk := kdInv_insert hinv.tree hk
        have hnd := hinvk.nodup
        have hc1 := hinvk.count
        have hsub : ((treeLeaves kd1).map (·.1)) ⊆
            (((rs.map (snap rd size)).zip ws ++ [(snap rd size x, w)]).map fun y => bin size y.1) := by
          intro k hkm
          obtain ⟨y, hy, e⟩ := List.mem_map.mp hkm
          obtain ⟨z', hz', e'⟩ := (hinvk.keys k).mp ⟨y, hy, e⟩
          exact List.mem_map.mpr ⟨z', hz', e'⟩
        have hle2 := (List.Nodup.subperm hnd hsub).length_le
        simp only [List.length_map, List.length_append, List.length_zip, List.length_cons, List.length_nil,
          hinv.len, min_self] at hle2
        unfold KdTree.getLeafCount
        omega
      obtain ⟨mx1, hm⟩ : ∃ m, (if 1 < kd1.getLeafCount then kldSize rd err z kd1.getLeafCount else .ok mx) = .ok m := by
        by_cases h1 : 1 < kd1.getLeafCount
        · rw [if_pos h1]
          exact hb _ h1 (by omega)
        · rw [if_neg h1]; exact ⟨_, rfl⟩
      rw [hm]
      simp only
      by_cases hbk : f.maxP ≤ rs.length + 1
      · rw [dif_pos hbk]; exact ⟨_, rfl⟩
      · rw [dif_neg hbk]
        refine ih (f.maxP - (rs ++ [x]).length) ?_ (rs ++ [x]) (ws ++ [w]) kd1 mx1 rfl (loopInv_step hs hinv hx hw hk' hm) ?_
        · simp only [List.length_append, List.length_cons, List.length_nil]; omega
        · right; simp only [List.length_append, List.length_cons, List.length_nil]; omega
    · rw [if_neg hc]; exact ⟨_, rfl⟩

end

end Ndt.Rounded
