import Verif.Spec.Filter
import Verif.Proof.KdTree
import Verif.Proof.Angles
import Verif.Proof.Matcher
import Mathlib.Tactic.Linarith
import Mathlib.Tactic.FieldSimp
import Mathlib.Tactic.Ring

/-! # Lemmas about the particle filter -/

namespace Ndt

noncomputable section

open Spec

namespace Filter

theorem sumWeights_fin (v : List ℝ) : sumWeights (v.map Fl.fin) = .fin v.sum := by
  have key : ∀ (v : List ℝ) (a : ℝ), (v.map Fl.fin).foldl (· + ·) (Fl.fin a) = .fin (a + v.sum) := by
    intro v
    induction v with
    | nil => intro a; simp
    | cons b v ih => intro a; simp only [List.map_cons, List.foldl_cons, Fl.fin_add, ih, List.sum_cons, add_assoc]
  unfold sumWeights
  rw [key, zero_add]

theorem accum_fin (v : List ℝ) (ps : List Pose2d) (f : Pose2d → ℝ) :
    accum (v.map Fl.fin) ps f = .fin (wmean v ps f) := by
  have key : ∀ (v : List ℝ) (ps : List Pose2d) (a : ℝ),
      ((v.map Fl.fin).zip ps).foldl (fun acc wp => acc + wp.1 * .fin (f wp.2)) (Fl.fin a) =
        .fin (a + ((v.zip ps).map fun wp => wp.1 * f wp.2).sum) := by
    intro v
    induction v with
    | nil => intro ps a; simp
    | cons b v ih =>
      intro ps a
      cases ps with
      | nil => simp
      | cons p ps =>
        simp only [List.map_cons, List.zip_cons_cons, List.foldl_cons, Fl.fin_mul, Fl.fin_add, ih, List.sum_cons,
          add_assoc]
  unfold accum wmean
  rw [key, zero_add]

theorem accum2_fin (a : ℝ) (v : List ℝ) (ps : List Pose2d) (f g : Pose2d → ℝ) :
    accum2 (.fin a) (v.map Fl.fin) ps (fun p => .fin (f p)) (fun p => .fin (g p)) =
      .fin (a + wmean v ps fun p => f p * g p) := by
  have key : ∀ (v : List ℝ) (ps : List Pose2d) (a : ℝ),
      ((v.map Fl.fin).zip ps).foldl (fun acc wp => acc + wp.1 * .fin (f wp.2) * .fin (g wp.2)) (Fl.fin a) =
        .fin (a + ((v.zip ps).map fun wp => wp.1 * (f wp.2 * g wp.2)).sum) := by
    intro v
    induction v with
    | nil => intro ps a; simp
    | cons b v ih =>
      intro ps a
      cases ps with
      | nil => simp
      | cons p ps =>
        simp only [List.map_cons, List.zip_cons_cons, List.foldl_cons, Fl.fin_mul, Fl.fin_add, ih, List.sum_cons]
        congr 1; ring
  unfold accum2 wmean
  rw [key]

theorem updateStatistics_ok {f f' : Filter} (h : f.updateStatistics = .ok f') :
    f'.motion = f.motion ∧ f'.minP = f.minP ∧ f'.maxP = f.maxP ∧ f'.particles = f.particles ∧
    f'.weights = f.weights.map (· / sumWeights f.weights) ∧ f.particles.length ≤ f.weights.length ∧
    f'.kd = f.kd := by
  unfold updateStatistics at h
  simp only at h
  split at h
  · cases h
  · rename_i hl
    cases h
    simp only [List.length_map, not_lt] at hl
    exact ⟨rfl, rfl, rfl, rfl, rfl, hl, rfl⟩

theorem updateStatistics_total {f : Filter} (h : f.particles.length ≤ f.weights.length) :
    ∃ f', f.updateStatistics = .ok f' := by
  unfold updateStatistics
  simp only [List.length_map]
  rw [if_neg (by omega)]
  exact ⟨_, rfl⟩

/-- What is stored when the normalised weights are numbers. -/
theorem updateStatistics_stats {f f' : Filter} (h : f.updateStatistics = .ok f') {v : List ℝ}
    (hv : AreNumbers f'.weights v) :
    f'.mean 0 = .fin (wmean v f'.particles (·.x)) ∧ f'.mean 1 = .fin (wmean v f'.particles (·.y)) ∧
    f'.mean 2 = .fin (atan2 (wmean v f'.particles fun p => Real.sin p.theta)
      (wmean v f'.particles fun p => Real.cos p.theta)) ∧
    f'.cov 0 0 = .fin ((wmean v f'.particles fun p => p.x * p.x) -
      wmean v f'.particles (·.x) * wmean v f'.particles (·.x)) ∧
    f'.cov 0 1 = .fin ((wmean v f'.particles fun p => p.x * p.y) -
      wmean v f'.particles (·.x) * wmean v f'.particles (·.y)) ∧
    f'.cov 1 0 = f'.cov 0 1 ∧
    f'.cov 1 1 = .fin ((wmean v f'.particles fun p => p.y * p.y) -
      wmean v f'.particles (·.y) * wmean v f'.particles (·.y)) ∧
    (∀ c, f.cov 2 2 = .fin c → f'.cov 2 2 = .fin (c + wmean v f'.particles fun p =>
      normalizeAngle (atan2 (wmean v f'.particles fun p => Real.sin p.theta)
        (wmean v f'.particles fun p => Real.cos p.theta) - p.theta) *
      normalizeAngle (atan2 (wmean v f'.particles fun p => Real.sin p.theta)
        (wmean v f'.particles fun p => Real.cos p.theta) - p.theta))) ∧
    f'.cov 0 2 = f.cov 0 2 ∧ f'.cov 1 2 = f.cov 1 2 ∧ f'.cov 2 0 = f.cov 2 0 ∧ f'.cov 2 1 = f.cov 2 1 := by
  obtain ⟨-, -, -, hp, hw, -, -⟩ := updateStatistics_ok h
  have hv' : f.weights.map (· / sumWeights f.weights) = v.map Fl.fin := by rw [← hw]; exact hv
  unfold updateStatistics at h
  simp only at h
  split at h
  · cases h
  · injection h with h
    rw [hv'] at h
    simp only [accum_fin, atan2F, normalizeAngleF, Fl.fin_sub] at h
    have hps : f'.particles = f.particles := hp
    rw [hps]
    subst h
    have hxx := accum2_fin 0 v f.particles (·.x) (·.x)
    have hxy := accum2_fin 0 v f.particles (·.x) (·.y)
    have hyy := accum2_fin 0 v f.particles (·.y) (·.y)
    rw [zero_add] at hxx hxy hyy
    simp only [Matrix.cons_val_zero, Matrix.cons_val_one, Matrix.cons_val, hxx, hxy, hyy, Fl.fin_mul, Fl.fin_sub,
      true_and, and_true]
    intro c hc
    rw [hc]
    exact accum2_fin c v f.particles _ _

theorem mapM_length {α β : Type} (g : α → Res β) (l : List α) {r : List β} (h : l.mapM g = .ok r) :
    r.length = l.length := by
  induction l generalizing r with
  | nil => cases h; rfl
  | cons a l ih =>
    rw [List.mapM_cons] at h
    cases ha : g a with
    | error e => rw [ha] at h; cases h
    | ok b =>
      cases hl : l.mapM g with
      | error e => rw [ha, hl] at h; cases h
      | ok bs =>
        rw [ha, hl] at h
        cases h
        simp [ih hl]

/-! ### The resampling loop -/

/-- What holds between draws. -/
structure LoopInv (f : Filter) (err z : ℝ) (draw : ℕ → ℕ) (size : Fin 3 → ℝ) (rs : List Pose2d) (ws : List Fl)
    (kd : KdTree) (mx : ℕ) : Prop where
  len : ws.length = rs.length
  drawn : ∀ i < rs.length, rs[i]? = f.particles[draw i]? ∧ ws[i]? = f.weights[draw i]?
  tree : KdInv kd size (rs.zip ws)
  bound : (mx = f.maxP ∧ kd.getLeafCount ≤ 1) ∨
    (1 < kd.getLeafCount ∧ kldSize err z kd.getLeafCount = .ok mx)

theorem kd_insert_leafCount {kd kd' : KdTree} {x : Pose2d} {w : Fl} (h : kd.insert x w = .ok kd') :
    kd.leafCount ≤ kd'.leafCount := by
  unfold KdTree.insert at h
  cases hk : kd.keyOf x with
  | error e => rw [hk] at h; cases h
  | ok k =>
    rw [hk] at h
    simp only [Res.ok_bind] at h
    cases hr : kd.root with
    | none => rw [hr] at h; cases h; simp
    | some r =>
      rw [hr] at h
      simp only at h
      cases hi : r.insert k w with
      | error e => rw [hi] at h; cases h
      | ok q => rw [hi] at h; cases h; simp

theorem resampleLoop_spec (f : Filter) (err z : ℝ) (draw : ℕ → ℕ) (size : Fin 3 → ℝ) :
    ∀ (n : ℕ) (rs : List Pose2d) (ws : List Fl) (kd : KdTree) (mx : ℕ), f.maxP - rs.length = n →
      LoopInv f err z draw size rs ws kd mx → rs.length ≤ max 1 f.maxP → (rs.length = 0 ∨ rs.length < f.maxP) →
      ∀ {rs' : List Pose2d} {ws' : List Fl} {kd' : KdTree},
        resampleLoop f err z draw rs ws kd mx = .ok (rs', ws', kd') →
        ∃ mx', LoopInv f err z draw size rs' ws' kd' mx' ∧
          rs'.length ≤ max 1 f.maxP ∧ (rs'.length ≤ max f.minP f.maxP) ∧
          (f.maxP ≤ rs'.length ∨ max f.minP mx' ≤ rs'.length) := by
  intro n
  induction n using Nat.strong_induction_on with
  | _ n ih =>
    intro rs ws kd mx hn hinv hlen h0 rs' ws' kd' h
    rw [resampleLoop] at h
    by_cases hc : rs.length < max f.minP mx
    · rw [if_pos hc] at h
      cases hx : f.particles[draw rs.length]? with
      | none => rw [hx] at h; cases h
      | some x =>
        cases hw : f.weights[draw rs.length]? with
        | none => rw [hx, hw] at h; cases h
        | some w =>
          rw [hx, hw] at h
          simp only at h
          cases hk : kd.insert x w with
          | error e => rw [hk] at h; cases h
          | ok kd1 =>
            rw [hk] at h
            simp only at h
            cases hm : (if 1 < kd1.getLeafCount then kldSize err z kd1.getLeafCount else .ok mx) with
            | error e => rw [hm] at h; cases h
            | ok mx1 =>
              rw [hm] at h
              simp only at h
              have hle := kd_insert_leafCount hk
              have hinv1 : LoopInv f err z draw size (rs ++ [x]) (ws ++ [w]) kd1 mx1 := by
                refine ⟨by simp [hinv.len], ?_, ?_, ?_⟩
                · intro i hi
                  simp only [List.length_append, List.length_cons, List.length_nil, zero_add] at hi
                  by_cases hi' : i < rs.length
                  · have := hinv.drawn i hi'
                    rw [List.getElem?_append_left hi', List.getElem?_append_left (by rw [hinv.len]; exact hi')]
                    exact this
                  · have : i = rs.length := by omega
                    subst this
                    rw [hx, hw]
                    constructor
                    · simp
                    · rw [← hinv.len]; simp
                · have := kdInv_insert hinv.tree hk
                  rwa [List.zip_append hinv.len.symm]
                · by_cases h1 : 1 < kd1.getLeafCount
                  · rw [if_pos h1] at hm
                    exact Or.inr ⟨h1, hm⟩
                  · rw [if_neg h1] at hm
                    cases hm
                    rcases hinv.bound with ⟨e, -⟩ | ⟨e, -⟩
                    · exact Or.inl ⟨e, by omega⟩
                    · exact absurd (lt_of_lt_of_le e hle) h1
              have hmxle : rs.length + 1 ≤ max 1 f.maxP := by omega
              have hmin : rs.length + 1 ≤ max f.minP f.maxP := by
                rcases h0 with h0 | h0
                · -- first draw: max(min, mx) > 0 and mx is max at the start or a bound
                  rcases hinv.bound with ⟨e, -⟩ | ⟨e, -⟩
                  · rw [e, h0] at hc; omega
                  · -- no leaf without a draw
                    exfalso
                    have hz : rs = [] := List.eq_nil_of_length_eq_zero h0
                    have hcount := hinv.tree.count
                    have hk := hinv.tree.keys
                    subst hz
                    have : treeLeaves kd = [] := by
                      cases htl : treeLeaves kd with
                      | nil => rfl
                      | cons a l =>
                        obtain ⟨y, hy, -⟩ := (hk a.1).mp ⟨a, by rw [htl]; simp, rfl⟩
                        simp at hy
                    rw [this] at hcount
                    have : kd.getLeafCount = 0 := hcount
                    omega
                · omega
              by_cases hb : f.maxP ≤ rs.length + 1
              · rw [dif_pos hb] at h
                simp only [Except.ok.injEq, Prod.mk.injEq] at h
                obtain ⟨rfl, rfl, rfl⟩ := h
                refine ⟨mx1, hinv1, ?_, ?_, Or.inl ?_⟩
                · simpa using hmxle
                · simpa using hmin
                · simpa using hb
              · rw [dif_neg hb] at h
                refine ih (f.maxP - (rs ++ [x]).length) ?_ (rs ++ [x]) (ws ++ [w]) kd1 mx1 rfl hinv1 ?_ ?_ h
                · simp only [List.length_append, List.length_cons, List.length_nil]; omega
                · simpa using hmxle
                · right; simp only [List.length_append, List.length_cons, List.length_nil]; omega
    · rw [if_neg hc] at h
      simp only [Except.ok.injEq, Prod.mk.injEq] at h
      obtain ⟨rfl, rfl, rfl⟩ := h
      refine ⟨mx, hinv, hlen, ?_, Or.inr (by omega)⟩
      rcases h0 with h0 | h0 <;> omega

theorem loopInv_start (f : Filter) (err z : ℝ) (draw : ℕ → ℕ) :
    LoopInv f err z draw f.kd.cellSize [] [] f.kd.clear f.maxP := by
  refine ⟨rfl, fun i hi => by simp at hi, kdInv_empty f.kd, Or.inl ⟨rfl, ?_⟩⟩
  simp [KdTree.clear, KdTree.getLeafCount]

/-- Everything `resample` guarantees. -/
theorem resample_ok {f f' : Filter} {err z : ℝ} {draw : ℕ → ℕ} (h : f.resample err z draw = .ok f') :
    ∃ rs ws kd mx, LoopInv f err z draw f.kd.cellSize rs ws kd mx ∧ rs.length ≤ max 1 f.maxP ∧
      rs.length ≤ max f.minP f.maxP ∧ (f.maxP ≤ rs.length ∨ max f.minP mx ≤ rs.length) ∧
      updateStatistics { f with particles := rs, weights := ws, kd := kd } = .ok f' := by
  unfold resample at h
  cases hl : resampleLoop f err z draw [] [] f.kd.clear f.maxP with
  | error e => rw [hl] at h; cases h
  | ok q =>
    obtain ⟨rs, ws, kd⟩ := q
    rw [hl] at h
    obtain ⟨mx, h1, h2, h3, h4⟩ := resampleLoop_spec f err z draw f.kd.cellSize _ [] [] f.kd.clear f.maxP rfl
      (loopInv_start f err z draw) (by simp) (Or.inl rfl) hl
    exact ⟨rs, ws, kd, mx, h1, h2, h3, h4, h⟩

/-- The loop meets no undefined behaviour when the draws are valid, bins fit and the bound can be converted. -/
theorem resampleLoop_total (f : Filter) (err z : ℝ) (draw : ℕ → ℕ) (size : Fin 3 → ℝ) (hsz : ∀ i, size i ≠ 0)
    (hd : ∀ n, draw n < f.particles.length) (hlen : f.weights.length = f.particles.length)
    (hfit : ∀ p ∈ f.particles, BinFits size p)
    (hb : ∀ k, 1 < k → k ≤ max 1 f.maxP → ∃ m, kldSize err z k = .ok m) :
    ∀ (n : ℕ) (rs : List Pose2d) (ws : List Fl) (kd : KdTree) (mx : ℕ), f.maxP - rs.length = n →
      LoopInv f err z draw size rs ws kd mx → (rs.length = 0 ∨ rs.length < f.maxP) →
      ∃ q, resampleLoop f err z draw rs ws kd mx = .ok q := by
  intro n
  induction n using Nat.strong_induction_on with
  | _ n ih =>
    intro rs ws kd mx hn hinv h0
    rw [resampleLoop]
    by_cases hc : rs.length < max f.minP mx
    · rw [if_pos hc]
      have hx := List.getElem?_eq_getElem (hd rs.length)
      have hw := List.getElem?_eq_getElem (l := f.weights) (i := draw rs.length) (by rw [hlen]; exact hd _)
      rw [hx, hw]
      set x := f.particles[draw rs.length]'(hd _) with hxdef
      set w := f.weights[draw rs.length]'(by rw [hlen]; exact hd _) with hwdef
      simp only
      have hmemrs : ∀ y ∈ rs.zip ws, BinFits size y.1 := by
        intro y hy
        have hy1 : y.1 ∈ rs := (List.of_mem_zip hy).1
        obtain ⟨i, hi, e⟩ := List.getElem_of_mem hy1
        have := (hinv.drawn i hi).1
        rw [List.getElem?_eq_getElem hi, e] at this
        exact hfit _ (List.mem_of_getElem? this.symm)
      obtain ⟨kd1, hk⟩ := kd_insert_total hinv.tree hsz hmemrs x w (hfit _ (List.getElem_mem _))
      rw [hk]
      simp only
      have hinvk := kdInv_insert hinv.tree hk
      have hcard : kd1.getLeafCount ≤ rs.length + 1 := by
        have hnd := hinvk.nodup
        have hc1 := hinvk.count
        have hsub : ((treeLeaves kd1).map (·.1)) ⊆ ((rs.zip ws ++ [(x, w)]).map fun y => bin size y.1) := by
          intro k hkm
          obtain ⟨y, hy, e⟩ := List.mem_map.mp hkm
          obtain ⟨z', hz', e'⟩ := (hinvk.keys k).mp ⟨y, hy, e⟩
          exact List.mem_map.mpr ⟨z', hz', e'⟩
        have hle2 := (List.Nodup.subperm hnd hsub).length_le
        simp only [List.length_map, List.length_append, List.length_zip, List.length_cons, List.length_nil,
          hinv.len, min_self] at hle2
        unfold KdTree.getLeafCount
        omega
      obtain ⟨mx1, hm⟩ : ∃ m, (if 1 < kd1.getLeafCount then kldSize err z kd1.getLeafCount else .ok mx) = .ok m := by
        by_cases h1 : 1 < kd1.getLeafCount
        · rw [if_pos h1]
          exact hb _ h1 (by omega)
        · rw [if_neg h1]; exact ⟨_, rfl⟩
      rw [hm]
      simp only
      by_cases hbk : f.maxP ≤ rs.length + 1
      · rw [dif_pos hbk]; exact ⟨_, rfl⟩
      · rw [dif_neg hbk]
        refine ih (f.maxP - (rs ++ [x]).length) ?_ (rs ++ [x]) (ws ++ [w]) kd1 mx1 rfl ?_ ?_
        · simp only [List.length_append, List.length_cons, List.length_nil]; omega
        · have hle := kd_insert_leafCount hk
          refine ⟨by simp [hinv.len], ?_, ?_, ?_⟩
          · intro i hi
            simp only [List.length_append, List.length_cons, List.length_nil, zero_add] at hi
            by_cases hi' : i < rs.length
            · have := hinv.drawn i hi'
              rw [List.getElem?_append_left hi', List.getElem?_append_left (by rw [hinv.len]; exact hi')]
              exact this
            · have : i = rs.length := by omega
              subst this
              rw [hx, hw]
              constructor
              · simp
              · rw [← hinv.len]; simp
          · rwa [List.zip_append hinv.len.symm]
          · by_cases h1 : 1 < kd1.getLeafCount
            · rw [if_pos h1] at hm
              exact Or.inr ⟨h1, hm⟩
            · rw [if_neg h1] at hm
              cases hm
              rcases hinv.bound with ⟨e, -⟩ | ⟨e, -⟩
              · exact Or.inl ⟨e, by omega⟩
              · exact absurd (lt_of_lt_of_le e hle) h1
        · right; simp only [List.length_append, List.length_cons, List.length_nil]; omega
    · rw [if_neg hc]; exact ⟨_, rfl⟩

/-! ### Every state comes out of `updateStatistics` -/

/-- Every operation ends by computing the statistics of some intermediate state. -/
theorem step_stats {f f' : Filter} {op : Op} (h : f.step op = .ok f') :
    ∃ g, updateStatistics g = .ok f' ∧ g.cov = f.cov ∧ g.minP = f.minP ∧ g.maxP = f.maxP ∧ g.motion = f.motion := by
  cases op with
  | init nrm x y theta sx sy sth => exact ⟨_, h, rfl, rfl, rfl, rfl⟩
  | update nrm dx dy dth => exact ⟨_, h, rfl, rfl, rfl, rfl⟩
  | measure score =>
    simp only [step, measure] at h
    cases hm : f.particles.mapM score with
    | error e => rw [hm] at h; cases h
    | ok ws =>
      rw [hm] at h
      simp only [Res.ok_bind] at h
      split at h
      · cases h
      · exact ⟨_, h, rfl, rfl, rfl, rfl⟩
  | resample err z draw =>
    obtain ⟨rs, ws, kd, mx, -, -, -, -, hu⟩ := resample_ok h
    exact ⟨_, hu, rfl, rfl, rfl, rfl⟩

theorem step_motion {f f' : Filter} {op : Op} (h : f.step op = .ok f') : f'.motion = f.motion := by
  obtain ⟨g, hu, -, -, -, hm⟩ := step_stats h
  exact (updateStatistics_ok hu).1.trans hm

theorem run_append (f : Filter) (ops : List Op) (op : Op) :
    f.run (ops ++ [op]) = (f.run ops >>= fun g => g.step op) := by
  unfold run
  rw [List.foldlM_append]
  congr 1
  funext g
  simp only [List.foldlM_cons, List.foldlM_nil]
  cases g.step op <;> rfl

theorem reachable_stats {m : MotionModel} {minP maxP : ℕ} {ops : List Op} {f : Filter}
    (h : (new m minP maxP >>= fun f => f.run ops) = .ok f) : ∃ g, updateStatistics g = .ok f := by
  cases h0 : new m minP maxP with
  | error e => rw [h0] at h; cases h
  | ok f0 =>
    rw [h0] at h
    simp only [Res.ok_bind] at h
    rcases List.eq_nil_or_concat ops with rfl | ⟨l, op, rfl⟩
    · cases h; exact ⟨_, h0⟩
    · rw [List.concat_eq_append, run_append] at h
      cases hl : f0.run l with
      | error e => rw [hl] at h; cases h
      | ok g =>
        rw [hl] at h
        obtain ⟨g', hg', -⟩ := step_stats h
        exact ⟨g', hg'⟩

end Filter

end

end Ndt
