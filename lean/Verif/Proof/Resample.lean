import Verif.Proof.Filter
import Mathlib.Tactic.Linarith

/-! # The last draw of a resampling (C107) -/

namespace Ndt

noncomputable section

open Spec

namespace Filter

theorem loopInv_step {f : Filter} {err z : ℝ} {draw : ℕ → ℕ} {size : Fin 3 → ℝ} {rs : List Pose2d} {ws : List Fl}
    {kd kd1 : KdTree} {mx mx1 : ℕ} (hinv : LoopInv f err z draw size rs ws kd mx) {x : Pose2d} {w : Fl}
    (hx : f.particles[draw rs.length]? = some x) (hw : f.weights[draw rs.length]? = some w) (hk : kd.insert x w = .ok kd1)
    (hm : (if 1 < kd1.getLeafCount then kldSize err z kd1.getLeafCount else .ok mx) = .ok mx1) :
    LoopInv f err z draw size (rs ++ [x]) (ws ++ [w]) kd1 mx1 := by
  have hle := kd_insert_leafCount hk
  refine ⟨by simp [hinv.len], ?_, ?_, ?_⟩
  · intro i hi
    simp only [List.length_append, List.length_cons, List.length_nil, zero_add] at hi
    by_cases hi' : i < rs.length
    · have := hinv.drawn i hi'
      rw [List.getElem?_append_left hi', List.getElem?_append_left (by rw [hinv.len]; exact hi')]
      exact this
    · have : i = rs.length := by omega
      subst this
      rw [hx, hw]
      constructor
      · simp
      · rw [← hinv.len]; simp
  · have := kdInv_insert hinv.tree hk
    rwa [List.zip_append hinv.len.symm]
  · by_cases h1 : 1 < kd1.getLeafCount
    · rw [if_pos h1] at hm
      exact Or.inr ⟨h1, hm⟩
    · rw [if_neg h1] at hm
      cases hm
      rcases hinv.bound with ⟨e, -⟩ | ⟨e, -⟩
      · exact Or.inl ⟨e, by omega⟩
      · exact absurd (lt_of_lt_of_le e hle) h1

/-- The state before the last draw, in which one more particle was wanted. -/
def Wanted (f : Filter) (err z : ℝ) (draw : ℕ → ℕ) (size : Fin 3 → ℝ) (rs : List Pose2d) : Prop :=
  rs = [] ∨ ∃ x ws kd mx, rs = rs.dropLast ++ [x] ∧ LoopInv f err z draw size rs.dropLast ws kd mx ∧
    rs.dropLast.length < max f.minP mx

theorem resampleLoop_wanted (f : Filter) (err z : ℝ) (draw : ℕ → ℕ) (size : Fin 3 → ℝ) :
    ∀ (n : ℕ) (rs : List Pose2d) (ws : List Fl) (kd : KdTree) (mx : ℕ), f.maxP - rs.length = n →
      LoopInv f err z draw size rs ws kd mx → Wanted f err z draw size rs →
      ∀ {rs' : List Pose2d} {ws' : List Fl} {kd' : KdTree},
        resampleLoop f err z draw rs ws kd mx = .ok (rs', ws', kd') → Wanted f err z draw size rs' := by
  intro n
  induction n using Nat.strong_induction_on with
  | _ n ih =>
    intro rs ws kd mx hn hinv hwt rs' ws' kd' h
    rw [resampleLoop] at h
    by_cases hc : rs.length < max f.minP mx
    · rw [if_pos hc] at h
      cases hx : f.particles[draw rs.length]? with
      | none => rw [hx] at h; cases h
      | some x =>
        cases hw : f.weights[draw rs.length]? with
        | none => rw [hx, hw] at h; cases h
        | some w =>
          rw [hx, hw] at h
          simp only at h
          cases hk : kd.insert x w with
          | error e => rw [hk] at h; cases h
          | ok kd1 =>
            rw [hk] at h
            simp only at h
            cases hm : (if 1 < kd1.getLeafCount then kldSize err z kd1.getLeafCount else .ok mx) with
            | error e => rw [hm] at h; cases h
            | ok mx1 =>
              rw [hm] at h
              simp only at h
              have hinv1 := loopInv_step hinv hx hw hk hm
              have hw1 : Wanted f err z draw size (rs ++ [x]) :=
                Or.inr ⟨x, ws, kd, mx, by simp, by simpa using hinv, by simpa using hc⟩
              by_cases hb : f.maxP ≤ rs.length + 1
              · rw [dif_pos hb] at h
                simp only [Except.ok.injEq, Prod.mk.injEq] at h
                obtain ⟨rfl, rfl, rfl⟩ := h
                exact hw1
              · rw [dif_neg hb] at h
                refine ih (f.maxP - (rs ++ [x]).length) ?_ (rs ++ [x]) (ws ++ [w]) kd1 mx1 rfl hinv1 hw1 h
                simp only [List.length_append, List.length_cons, List.length_nil]
                omega
    · rw [if_neg hc] at h
      simp only [Except.ok.injEq, Prod.mk.injEq] at h
      obtain ⟨rfl, rfl, rfl⟩ := h
      exact hwt

theorem resample_wanted {f f' : Filter} {err z : ℝ} {draw : ℕ → ℕ} (h : f.resample err z draw = .ok f') :
    Wanted f err z draw f.kd.cellSize f'.particles := by
  unfold resample at h
  cases hl : resampleLoop f err z draw [] [] f.kd.clear f.maxP with
  | error e => rw [hl] at h; cases h
  | ok q =>
    obtain ⟨rs, ws, kd⟩ := q
    rw [hl] at h
    have := resampleLoop_wanted f err z draw f.kd.cellSize _ [] [] f.kd.clear f.maxP rfl (loopInv_start f err z draw)
      (Or.inl rfl) hl
    obtain ⟨-, -, -, e, -⟩ := updateStatistics_ok h
    rw [e]
    exact this

/-- The number of leaves is the number of occupied bins. -/
theorem leafCount_bins {f : Filter} {err z : ℝ} {draw : ℕ → ℕ} {size : Fin 3 → ℝ} {rs : List Pose2d} {ws : List Fl}
    {kd : KdTree} {mx : ℕ} (hinv : LoopInv f err z draw size rs ws kd mx) :
    kd.getLeafCount = (rs.map (bin size)).toFinset.card := by
  have htree := hinv.tree
  unfold KdTree.getLeafCount
  rw [htree.count, ← List.length_map (f := fun x : Key × Fl => x.1), ← List.toFinset_card_of_nodup htree.nodup]
  congr 1
  ext b
  simp only [List.mem_toFinset, List.mem_map]
  rw [htree.keys b]
  constructor
  · rintro ⟨x, hx, hb⟩
    exact ⟨x.1, (List.of_mem_zip hx).1, hb⟩
  · rintro ⟨p, hp, hb⟩
    obtain ⟨i, hi, rfl⟩ := List.getElem_of_mem hp
    have hi' : i < ws.length := by rw [hinv.len]; exact hi
    refine ⟨(rs[i], ws[i]), ?_, hb⟩
    rw [List.mem_iff_getElem]
    exact ⟨i, by simp [hi, hi'], by simp⟩

end Filter

end

end Ndt
