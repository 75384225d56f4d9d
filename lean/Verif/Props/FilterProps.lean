import Verif.Proof.Filter
import Mathlib.Analysis.Real.Pi.Bounds

/-! # C21-C27: the particle filter -/

namespace Ndt

noncomputable section

open Spec Real

/-! ### C21 -/

theorem withinLimits_step {f f' : Filter} {op : Filter.Op} (hw : WithinLimits f) (h : f.step op = .ok f') :
    WithinLimits f' ∧ f'.minP = f.minP ∧ f'.maxP = f.maxP := by
  obtain ⟨h1, h2, h3⟩ := hw
  cases op with
  | init nrm x y theta sx sy sth =>
    obtain ⟨-, e1, e2, e3, e4, -, -⟩ := Filter.updateStatistics_ok h
    refine ⟨⟨?_, ?_, ?_⟩, e1, e2⟩
    · rw [e1, e2, e3]; simpa using h1
    · rw [e1, e2, e3]; simpa using h2
    · rw [e3, e4]; simp
  | update nrm dx dy dth =>
    obtain ⟨-, e1, e2, e3, e4, -, -⟩ := Filter.updateStatistics_ok h
    have hl : (f.motion.sample nrm dx dy dth f.particles).length = f.particles.length := by
      simp [MotionModel.sample]
    refine ⟨⟨?_, ?_, ?_⟩, e1, e2⟩
    · rw [e1, e2, e3]; simpa [hl] using h1
    · rw [e1, e2, e3]; simpa [hl] using h2
    · rw [e3, e4]; simpa [hl] using h3
  | measure score =>
    simp only [Filter.step, Filter.measure] at h
    cases hm : f.particles.mapM score with
    | error e => rw [hm] at h; cases h
    | ok ws =>
      rw [hm] at h
      simp only [Res.ok_bind] at h
      split at h
      · cases h
      · obtain ⟨-, e1, e2, e3, e4, -, -⟩ := Filter.updateStatistics_ok h
        have hl := Filter.mapM_length score _ hm
        refine ⟨⟨?_, ?_, ?_⟩, e1, e2⟩
        · rw [e1, e2, e3]; exact h1
        · rw [e1, e2, e3]; exact h2
        · rw [e3, e4]; simp [hl, h3]
  | resample err z draw =>
    obtain ⟨rs, ws, kd, mx, hinv, -, hle, hge, hu⟩ := Filter.resample_ok h
    obtain ⟨-, e1, e2, e3, e4, -, -⟩ := Filter.updateStatistics_ok hu
    refine ⟨⟨?_, ?_, ?_⟩, e1, e2⟩
    · rw [e1, e2, e3]
      show min f.minP f.maxP ≤ rs.length
      omega
    · rw [e1, e2, e3]; exact hle
    · rw [e3, e4]; simpa using hinv.len

theorem new_ok {m : MotionModel} {minP maxP : ℕ} {f : Filter} (h : Filter.new m minP maxP = .ok f) :
    WithinLimits f ∧ f.minP = minP ∧ f.maxP = maxP ∧ f.kd.cellSize = ![0.5, 0.5, 0.2671] := by
  obtain ⟨-, e1, e2, e3, e4, -, e5⟩ := Filter.updateStatistics_ok h
  refine ⟨⟨?_, ?_, ?_⟩, e1, e2, by rw [e5]; rfl⟩
  · rw [e1, e2, e3]; simp
  · rw [e1, e2, e3]; simp
  · rw [e3, e4]; simp

theorem kd_size_step {f f' : Filter} {op : Filter.Op} (h : f.step op = .ok f') :
    f'.kd.cellSize = f.kd.cellSize := by
  cases op with
  | init nrm x y theta sx sy sth => rw [(Filter.updateStatistics_ok h).2.2.2.2.2.2]
  | update nrm dx dy dth => rw [(Filter.updateStatistics_ok h).2.2.2.2.2.2]
  | measure score =>
    simp only [Filter.step, Filter.measure] at h
    cases hm : f.particles.mapM score with
    | error e => rw [hm] at h; cases h
    | ok ws =>
      rw [hm] at h
      simp only [Res.ok_bind] at h
      split at h
      · cases h
      · rw [(Filter.updateStatistics_ok h).2.2.2.2.2.2]
  | resample err z draw =>
    obtain ⟨rs, ws, kd, mx, hinv, -, -, -, hu⟩ := Filter.resample_ok h
    rw [(Filter.updateStatistics_ok hu).2.2.2.2.2.2]
    exact hinv.tree.cell

/-- **C21** After construction and any history of operations (that meets no undefined behaviour) the number of
particles is within the limits and there are as many weights. -/
theorem c21_particle_count_within_limits (m : MotionModel) (minP maxP : ℕ) (ops : List Filter.Op) {f : Filter}
    (h : (Filter.new m minP maxP >>= fun f => f.run ops) = .ok f) :
    min minP maxP ≤ f.particles.length ∧ f.particles.length ≤ max minP maxP ∧
    f.weights.length = f.particles.length ∧ f.minP = minP ∧ f.maxP = maxP ∧
    f.kd.cellSize = ![0.5, 0.5, 0.2671] := by
  cases h0 : Filter.new m minP maxP with
  | error e => rw [h0] at h; cases h
  | ok f0 =>
    rw [h0] at h
    simp only [Res.ok_bind] at h
    obtain ⟨hw, e1, e2, e3⟩ := new_ok h0
    suffices hs : WithinLimits f ∧ f.minP = minP ∧ f.maxP = maxP ∧ f.kd.cellSize = ![0.5, 0.5, 0.2671] by
      obtain ⟨⟨a, b, c⟩, d, e, g⟩ := hs
      rw [d, e] at a b
      exact ⟨a, b, c, d, e, g⟩
    clear h0
    induction ops using List.reverseRecOn generalizing f with
    | nil => cases h; exact ⟨hw, e1, e2, e3⟩
    | append_singleton l op ih =>
      rw [Filter.run_append] at h
      cases hl : f0.run l with
      | error e => rw [hl] at h; cases h
      | ok g =>
        rw [hl] at h
        obtain ⟨a, b, c, d⟩ := ih hl
        obtain ⟨a', b', c'⟩ := withinLimits_step a h
        exact ⟨a', b'.trans b, c'.trans c, (kd_size_step h).trans d⟩

/-- **C21** `resample` yields at most `max_particles` particles (for a positive limit; one particle for limit 0). -/
theorem c21_resample_at_most_max {f f' : Filter} {err z : ℝ} {draw : ℕ → ℕ}
    (h : f.resample err z draw = .ok f') : f'.particles.length ≤ max 1 f.maxP ∧
      (0 < f.maxP → f'.particles.length ≤ f.maxP) := by
  obtain ⟨rs, ws, kd, mx, -, hle, -, -, hu⟩ := Filter.resample_ok h
  obtain ⟨-, -, -, e3, -⟩ := Filter.updateStatistics_ok hu
  rw [e3]
  show rs.length ≤ _ ∧ (_ → rs.length ≤ _)
  exact ⟨hle, fun h0 => by omega⟩

/-- The code's bound is the KLD bound rounded down, when it fits a `size_t`. -/
theorem kldSize_eq {err z : ℝ} (he : 0 < err) (hz : 0 ≤ z) {k : ℕ} (hk : 1 < k) (hfit : kldBound err z k < 2 ^ 64) :
    Filter.kldSize err z k = .ok ⌊kldBound err z k⌋.toNat ∧ 0 ≤ kldBound err z k := by
  have hk' : (1 : ℝ) < k := by exact_mod_cast hk
  have hcast : ((k - 1 : ℕ) : ℝ) = k - 1 := by
    rw [Nat.cast_sub hk.le]; simp
  have hk2 : (2 : ℝ) ≤ k := by exact_mod_cast hk
  have hb : 2 / (9 * ((k : ℝ) - 1)) ≤ 1 := by
    rw [div_le_one (by linarith)]; linarith
  have hc : 0 ≤ 1 - 2 / (9 * ((k : ℝ) - 1)) + sqrt (2 / (9 * ((k : ℝ) - 1))) * z := by
    have := mul_nonneg (sqrt_nonneg (2 / (9 * ((k : ℝ) - 1)))) hz
    linarith
  have hnn : 0 ≤ kldBound err z k := by
    unfold kldBound
    have h1 : 0 ≤ ((k : ℝ) - 1) / (2 * err) := div_nonneg (by linarith) (by linarith)
    exact mul_nonneg h1 (pow_nonneg hc 3)
  refine ⟨?_, hnn⟩
  unfold Filter.kldSize
  simp only [hcast]
  rw [Fl.fin_div (by linarith)]
  simp only [Fl.fin_mul]
  have e : ((k : ℝ) - 1) / (2 * err) * (1 - 2 / (9 * ((k : ℝ) - 1)) + sqrt (2 / (9 * ((k : ℝ) - 1))) * z) *
      (1 - 2 / (9 * ((k : ℝ) - 1)) + sqrt (2 / (9 * ((k : ℝ) - 1))) * z) *
      (1 - 2 / (9 * ((k : ℝ) - 1)) + sqrt (2 / (9 * ((k : ℝ) - 1))) * z) = kldBound err z k := by
    unfold kldBound; ring
  rw [e]
  exact toU64_of_nonneg hnn hfit

/-- **C21** `resample` comes to an end without undefined behaviour whenever the distribution draws existing
particles, the poses are within half a billion metres and the KLD bounds fit a `size_t`. -/
theorem c21_resample_defined {f : Filter} {err z : ℝ} {draw : ℕ → ℕ} (he : 0 < err) (hz : 0 ≤ z)
    (hlen : f.weights.length = f.particles.length) (hsz : f.kd.cellSize = ![0.5, 0.5, 0.2671])
    (hd : ∀ n, draw n < f.particles.length) (hfit : ∀ p ∈ f.particles, BinFits ![0.5, 0.5, 0.2671] p)
    (hb : ∀ k, 1 < k → k ≤ max 1 f.maxP → kldBound err z k < 2 ^ 64) :
    ∃ f', f.resample err z draw = .ok f' := by
  obtain ⟨⟨rs, ws, kd⟩, hq⟩ := Filter.resampleLoop_total f err z draw f.kd.cellSize
    (by rw [hsz]; intro i; fin_cases i <;> norm_num [Matrix.cons_val_zero, Matrix.cons_val_one, Matrix.cons_val])
    hd hlen (by rw [hsz]; exact hfit) (fun k h1 h2 => ⟨_, (kldSize_eq he hz h1 (hb k h1 h2)).1⟩)
    _ [] [] f.kd.clear f.maxP rfl (Filter.loopInv_start f err z draw) (Or.inl rfl)
  obtain ⟨mx, hinv, -⟩ := Filter.resampleLoop_spec f err z draw f.kd.cellSize _ [] [] f.kd.clear f.maxP rfl
    (Filter.loopInv_start f err z draw) (by simp) (Or.inl rfl) hq
  obtain ⟨f', hf'⟩ := Filter.updateStatistics_total
    (f := { f with particles := rs, weights := ws, kd := kd }) (le_of_eq hinv.len.symm)
  refine ⟨f', ?_⟩
  unfold Filter.resample
  rw [hq]
  exact hf'

/-- **C21** Construction, `init` and `update` never meet undefined behaviour in a reachable state; `measure` only
if the scan matcher does. -/
theorem c21_other_operations_defined {f : Filter} (hw : WithinLimits f) :
    (∀ nrm x y theta sx sy sth, ∃ f', f.init nrm x y theta sx sy sth = .ok f') ∧
    (∀ nrm dx dy dth, ∃ f', f.update nrm dx dy dth = .ok f') ∧
    (∀ score : Pose2d → Fl, ∃ f', f.measure (fun p => .ok (score p)) = .ok f') := by
  obtain ⟨-, -, h3⟩ := hw
  refine ⟨?_, ?_, ?_⟩
  · intro nrm x y theta sx sy sth
    exact Filter.updateStatistics_total (by simp)
  · intro nrm dx dy dth
    exact Filter.updateStatistics_total (by simp [MotionModel.sample, h3])
  · intro score
    unfold Filter.measure
    have hm : f.particles.mapM (fun p => (.ok (score p) : Res Fl)) = .ok (f.particles.map score) := by
      apply mapM_ok
      intro x _; rfl
    rw [hm]
    simp only [Res.ok_bind]
    rw [if_neg (by omega)]
    exact Filter.updateStatistics_total (by simp)

theorem new_defined (m : MotionModel) (minP maxP : ℕ) : ∃ f, Filter.new m minP maxP = .ok f :=
  Filter.updateStatistics_total (by simp)

/-- A filter with the default limits meets the hypotheses of C21: it can be built, initialised and updated. -/
example : ∃ f, (Filter.new ⟨0.2, 0.2, 0.2, 0.2, 0.2⟩ 500 2000 >>= fun f =>
    f.run [.init (fun _ m s => m + s) 1 2 3 0.1 0.1 0.1, .update (fun _ m _ => m) 1 0 0]) = .ok f := by
  obtain ⟨f0, h0⟩ := new_defined ⟨0.2, 0.2, 0.2, 0.2, 0.2⟩ 500 2000
  have w0 := (new_ok h0).1
  obtain ⟨f1, h1⟩ := (c21_other_operations_defined w0).1 (fun _ m s => m + s) 1 2 3 0.1 0.1 0.1
  have w1 := (withinLimits_step (op := .init (fun _ m s => m + s) 1 2 3 0.1 0.1 0.1) w0 h1).1
  obtain ⟨f2, h2⟩ := (c21_other_operations_defined w1).2.1 (fun _ m _ => m) 1 0 0
  refine ⟨f2, ?_⟩
  rw [h0]
  simp only [Res.ok_bind, Filter.run, List.foldlM_cons, List.foldlM_nil, Filter.step, h1, h2]
  rfl

/-! ### C22 -/

theorem areNumbers_unique {ws : List Fl} {v v' : List ℝ} (h : AreNumbers ws v) (h' : AreNumbers ws v') : v = v' := by
  unfold AreNumbers at h h'
  have : v.map Fl.fin = v'.map Fl.fin := h.symm.trans h'
  exact List.map_injective_iff.mpr (fun a b e => by injection e) this

/-- Normalising numbers of one sign that are not all zero gives a distribution. -/
theorem normalise_distribution {f f' : Filter} (h : f.updateStatistics = .ok f') {v : List ℝ}
    (hv : AreNumbers f.weights v) (hs : (∀ x ∈ v, 0 ≤ x) ∨ (∀ x ∈ v, x ≤ 0)) (hne : ∃ x ∈ v, x ≠ 0) :
    Distribution f'.weights := by
  obtain ⟨-, -, -, -, hw, -, -⟩ := Filter.updateStatistics_ok h
  have hsum : v.sum ≠ 0 := by
    obtain ⟨x, hx, hx0⟩ := hne
    rcases hs with hs | hs
    · have := List.single_le_sum hs x hx
      have := lt_of_le_of_ne (hs x hx) (Ne.symm hx0)
      linarith
    · have h1 : ∀ y ∈ v.map (fun a => -a), (0 : ℝ) ≤ y := by
        intro y hy
        obtain ⟨a, ha, rfl⟩ := List.mem_map.mp hy
        linarith [hs a ha]
      have := List.single_le_sum h1 (-x) (List.mem_map.mpr ⟨x, hx, rfl⟩)
      have h2 := lt_of_le_of_ne (hs x hx) hx0
      have h3 : (v.map (fun a => -a)).sum = -v.sum := by
        clear hs hx h1 this hv
        induction v with
        | nil => simp
        | cons a v ih => simp only [List.map_cons, List.sum_cons, ih]; ring
      rw [h3] at this
      linarith
  refine ⟨v.map (· / v.sum), ?_, ?_, ?_⟩
  · unfold AreNumbers at *
    rw [hw, hv, Filter.sumWeights_fin, List.map_map, List.map_map]
    apply List.map_congr_left
    intro x _
    simp only [Function.comp]
    exact Fl.fin_div hsum
  · intro y hy
    obtain ⟨x, hx, rfl⟩ := List.mem_map.mp hy
    rcases hs with hs | hs
    · exact div_nonneg (hs x hx) (List.sum_nonneg hs)
    · apply div_nonneg_of_nonpos (hs x hx)
      clear hv hne hsum hy hx
      induction v with
      | nil => simp
      | cons a v ih =>
        rw [List.sum_cons]
        have := hs a List.mem_cons_self
        have := ih (fun x hx => hs x (List.mem_cons_of_mem _ hx))
        linarith
  · have key : ∀ (l : List ℝ) (c : ℝ), (l.map (· / c)).sum = l.sum / c := by
      intro l c
      induction l with
      | nil => simp
      | cons a l ih => simp only [List.map_cons, List.sum_cons, ih]; ring
    rw [key, div_self hsum]

/-- The operation is informative in state `f`: scores are non-positive numbers, not all zero, and resampling draws
existing particles of positive weight (as a discrete distribution does). -/
def Informative (f : Filter) : Filter.Op → Prop
  | .init .. => True
  | .update .. => True
  | .measure score => ∃ s : Pose2d → ℝ, (∀ p ∈ f.particles, score p = .ok (.fin (s p)) ∧ s p ≤ 0) ∧
      ∃ p ∈ f.particles, s p ≠ 0
  | .resample _ _ draw => ∀ n, ∃ r : ℝ, f.weights[draw n]? = some (.fin r) ∧ 0 < r

/-- Every operation of a history is informative in the state it is applied to. -/
def InformativeHistory (f : Filter) : List Filter.Op → Prop
  | [] => True
  | op :: ops => Informative f op ∧ ∀ f', f.step op = .ok f' → InformativeHistory f' ops

theorem distribution_step {f f' : Filter} {op : Filter.Op} (hmin : 0 < f.minP) (hmax : 0 < f.maxP)
    (hw : WithinLimits f) (hd : Distribution f.weights) (hi : Informative f op) (h : f.step op = .ok f') :
    Distribution f'.weights := by
  have hpos : 0 < f.particles.length := by
    have := hw.1
    omega
  cases op with
  | init nrm x y theta sx sy sth =>
    have hn : ((f.particles.length : ℕ) : ℝ) ≠ 0 := by exact_mod_cast hpos.ne'
    refine normalise_distribution h (v := List.replicate f.particles.length (1 / (f.particles.length : ℕ))) ?_ ?_ ?_
    · unfold AreNumbers
      simp only [List.length_mapIdx, List.map_replicate]
      rw [Fl.fin_div hn]
    · left
      intro a ha
      rw [List.eq_of_mem_replicate ha]; positivity
    · exact ⟨_, List.mem_replicate.mpr ⟨hpos.ne', rfl⟩, one_div_ne_zero hn⟩
  | update nrm dx dy dth =>
    obtain ⟨v, h1, h2, h3⟩ := hd
    refine normalise_distribution h (v := v) h1 (Or.inl h2) ?_
    by_contra hcon
    push Not at hcon
    have : v.sum = 0 := List.sum_eq_zero hcon
    linarith
  | measure score =>
    obtain ⟨s, h1, p, hp, hp0⟩ := hi
    simp only [Filter.step, Filter.measure] at h
    rw [mapM_ok _ score (fun p => .fin (s p)) (fun p hp => (h1 p hp).1)] at h
    simp only [Res.ok_bind] at h
    rw [if_neg (by rw [hw.2.2]; omega), List.drop_eq_nil_of_le (le_of_eq hw.2.2), List.append_nil] at h
    refine normalise_distribution h (v := f.particles.map s) ?_ ?_ ?_
    · unfold AreNumbers
      rw [List.map_map]; rfl
    · right
      intro a ha
      obtain ⟨q, hq, rfl⟩ := List.mem_map.mp ha
      exact (h1 q hq).2
    · exact ⟨s p, List.mem_map.mpr ⟨p, hp, rfl⟩, hp0⟩
  | resample err z draw =>
    obtain ⟨rs, ws, kd, mx, hinv, -, -, hge, hu⟩ := Filter.resample_ok h
    have hlen : 0 < rs.length := by omega
    let r : ℕ → ℝ := fun n => (hi n).choose
    have hr : ∀ n, f.weights[draw n]? = some (.fin (r n)) ∧ 0 < r n := fun n => (hi n).choose_spec
    refine normalise_distribution hu (v := (List.range rs.length).map r) ?_ ?_ ?_
    · unfold AreNumbers
      apply List.ext_getElem?
      intro i
      by_cases hil : i < rs.length
      · show ws[i]? = _
        rw [(hinv.drawn i hil).2, (hr i).1]
        simp [List.getElem?_range hil]
      · show ws[i]? = _
        rw [List.getElem?_eq_none (by rw [hinv.len]; omega), List.getElem?_eq_none (by simp; omega)]
    · left
      intro a ha
      obtain ⟨n, -, rfl⟩ := List.mem_map.mp ha
      exact (hr n).2.le
    · exact ⟨r 0, List.mem_map.mpr ⟨0, List.mem_range.mpr hlen, rfl⟩, (hr 0).2.ne'⟩

theorem distribution_new {m : MotionModel} {minP maxP : ℕ} (hmin : 0 < minP) {f : Filter}
    (h : Filter.new m minP maxP = .ok f) : Distribution f.weights := by
  have hn : ((minP : ℕ) : ℝ) ≠ 0 := by exact_mod_cast hmin.ne'
  refine normalise_distribution h (v := List.replicate minP (1 / (minP : ℕ))) ?_ ?_ ?_
  · unfold AreNumbers
    simp only [List.map_replicate]
    rw [Fl.fin_div hn]
  · left
    intro a ha
    rw [List.eq_of_mem_replicate ha]; positivity
  · exact ⟨_, List.mem_replicate.mpr ⟨hmin.ne', rfl⟩, one_div_ne_zero hn⟩

/-- **C22** After every operation the weights form a distribution, provided limits are positive, every measurement
so far gave at least one particle a non-zero score (all scores being non-positive numbers) and draws had positive
weight. Missing from the full claim: measurements that score zero everywhere, see `c22_zero_scores_give_nan`. -/
theorem c22_weights_form_distribution_partial (m : MotionModel) {minP maxP : ℕ} (hmin : 0 < minP) (hmax : 0 < maxP)
    (ops : List Filter.Op) {f0 f : Filter} (h0 : Filter.new m minP maxP = .ok f0)
    (hi : InformativeHistory f0 ops) (h : f0.run ops = .ok f) : Distribution f.weights := by
  obtain ⟨hw, e1, e2, -⟩ := new_ok h0
  have hd := distribution_new hmin h0
  rw [← e1] at hmin
  rw [← e2] at hmax
  clear h0 e1 e2
  induction ops generalizing f0 with
  | nil => cases h; exact hd
  | cons op ops ih =>
    unfold Filter.run at h
    rw [List.foldlM_cons] at h
    cases hs : f0.step op with
    | error e => rw [hs] at h; cases h
    | ok f1 =>
      rw [hs] at h
      obtain ⟨hw1, e1, e2⟩ := withinLimits_step hw hs
      exact ih (by rw [e2]; exact hmax) (by rw [e1]; exact hmin) (hi.2 f1 hs) h hw1
        (distribution_step hmin hmax hw hd hi.1 hs)

/-- **C22** (refuted) A measurement that scores zero for every particle, such as one against a matcher without a
map or a scan that does not overlap the map, turns every weight into NaN. -/
theorem c22_zero_scores_give_nan (f : Filter) (hw : WithinLimits f) :
    ∃ f', f.measure (fun _ => .ok (.fin 0)) = .ok f' ∧ ∀ w ∈ f'.weights, w = .nan := by
  obtain ⟨f', h⟩ := (c21_other_operations_defined hw).2.2 (fun _ => .fin 0)
  refine ⟨f', h, ?_⟩
  unfold Filter.measure at h
  rw [mapM_ok _ (fun _ => (.ok (.fin 0) : Res Fl)) (fun _ => .fin 0) (fun _ _ => rfl)] at h
  simp only [Res.ok_bind] at h
  rw [if_neg (by rw [hw.2.2]; omega), List.drop_eq_nil_of_le (le_of_eq hw.2.2), List.append_nil] at h
  obtain ⟨-, -, -, -, e, -, -⟩ := Filter.updateStatistics_ok h
  have hs : Filter.sumWeights (f.particles.map fun _ => Fl.fin 0) = .fin 0 := by
    have := Filter.sumWeights_fin (f.particles.map fun _ => (0 : ℝ))
    rw [List.map_map] at this
    rw [show (f.particles.map fun _ => Fl.fin 0) = f.particles.map (Fl.fin ∘ fun _ => (0 : ℝ)) from rfl, this]
    simp
  intro w hw'
  rw [e] at hw'
  simp only [hs] at hw'
  obtain ⟨x, hx, rfl⟩ := List.mem_map.mp hw'
  obtain ⟨p, -, rfl⟩ := List.mem_map.mp hx
  exact Fl.zero_div_zero

/-- Construct, initialise, measure with scores -1/4 and -3/4: an informative history. -/
example : ∃ f0, Filter.new ⟨0, 0, 0, 0, 0⟩ 2 2 = .ok f0 ∧
    InformativeHistory f0 [.init (fun k _ _ => k) 0 0 0 1 1 1,
      .measure fun p => .ok (.fin (if p.x = 0 then -1 / 4 else -3 / 4))] := by
  obtain ⟨f0, h0⟩ := new_defined ⟨0, 0, 0, 0, 0⟩ 2 2
  refine ⟨f0, h0, trivial, fun f1 h1 => ⟨⟨fun p => if p.x = 0 then -1 / 4 else -3 / 4, ?_, ?_⟩, fun _ _ => trivial⟩⟩
  · intro p _
    refine ⟨rfl, ?_⟩
    simp only
    split <;> norm_num
  · obtain ⟨hw0, e1, e2, -⟩ := new_ok h0
    obtain ⟨hw1, e3, e4⟩ := withinLimits_step hw0 h1
    have hlen : 0 < f1.particles.length := by
      have := hw1.1
      rw [e3, e4, e1, e2] at this
      omega
    refine ⟨f1.particles[0], List.getElem_mem hlen, ?_⟩
    simp only
    split <;> norm_num

/-! ### C23 -/

theorem wmean_const (v : List ℝ) (ps : List Pose2d) (hl : v.length = ps.length) (c : ℝ) :
    wmean v ps (fun _ => c) = v.sum * c := by
  unfold wmean
  induction v generalizing ps with
  | nil => simp
  | cons a v ih =>
    cases ps with
    | nil => simp at hl
    | cons p ps =>
      simp only [List.zip_cons_cons, List.map_cons, List.sum_cons]
      rw [ih ps (by simpa using hl)]; ring

theorem wmean_linear (v : List ℝ) (ps : List Pose2d) (f g : Pose2d → ℝ) (a b : ℝ) :
    wmean v ps (fun p => a * f p + b * g p) = a * wmean v ps f + b * wmean v ps g := by
  unfold wmean
  generalize v.zip ps = l
  induction l with
  | nil => simp
  | cons x l ih => simp only [List.map_cons, List.sum_cons, ih]; ring

theorem wmean_mono (v : List ℝ) (ps : List Pose2d) (hv : ∀ x ∈ v, 0 ≤ x) (f g : Pose2d → ℝ)
    (h : ∀ p ∈ ps, f p ≤ g p) : wmean v ps f ≤ wmean v ps g := by
  unfold wmean
  apply List.sum_le_sum
  intro x hx
  have := List.of_mem_zip hx
  exact mul_le_mul_of_nonneg_left (h _ this.2) (hv _ this.1)

theorem wcov_expand (v : List ℝ) (ps : List Pose2d) (hl : v.length = ps.length) (hs : v.sum = 1) (i j : Fin 2) :
    wcov v ps i j = (wmean v ps fun p => coord i p * coord j p) -
      wmean v ps (coord i) * wmean v ps (coord j) := by
  unfold wcov
  set a := wmean v ps (coord i)
  set b := wmean v ps (coord j)
  have e : (fun p => (coord i p - a) * (coord j p - b)) =
      fun p => 1 * (coord i p * coord j p) + 1 * (-b * coord i p + 1 * (-a * coord j p + 1 * (a * b))) := by
    funext p; ring
  rw [e, wmean_linear, wmean_linear, wmean_linear]
  have hc : wmean v ps (fun _ => a * b) = a * b := by rw [wmean_const v ps hl, hs, one_mul]
  rw [hc]
  show 1 * _ + 1 * (-b * a + 1 * (-a * b + 1 * (a * b))) = _
  ring

/-- **C23** In every reachable state whose weights form a distribution: the mean position is the weighted mean, the
mean heading is the direction of the weighted sum of the heading vectors, in (-pi, pi], and the planar covariance
is the weighted covariance, symmetric. -/
theorem c23_statistics_of_weighted_particles (m : MotionModel) (minP maxP : ℕ) (ops : List Filter.Op) {f : Filter}
    (h : (Filter.new m minP maxP >>= fun f => f.run ops) = .ok f) {v : List ℝ} (hv : AreNumbers f.weights v)
    (hs : v.sum = 1) :
    f.getMean 0 = .fin (wmean v f.particles (·.x)) ∧ f.getMean 1 = .fin (wmean v f.particles (·.y)) ∧
    (∃ t : ℝ, f.getMean 2 = .fin t ∧ (-π < t ∧ t ≤ π) ∧
      ∃ r : ℝ, 0 ≤ r ∧ r * cos t = wmean v f.particles (fun p => cos p.theta) ∧
        r * sin t = wmean v f.particles (fun p => sin p.theta)) ∧
    (∀ i j : Fin 2, f.getCovariance (Fin.castSucc i) (Fin.castSucc j) = .fin (wcov v f.particles i j)) := by
  obtain ⟨-, -, hlen, -⟩ := c21_particle_count_within_limits m minP maxP ops h
  obtain ⟨g, hg⟩ := Filter.reachable_stats h
  obtain ⟨h1, h2, h3, h4, h5, h6, h7, -⟩ := Filter.updateStatistics_stats hg hv
  have hl : v.length = f.particles.length := by
    rw [← hlen, hv, List.length_map]
  refine ⟨h1, h2, ⟨_, h3, atan2_mem _ _, hypot _ _, hypot_nonneg _ _, hypot_mul_cos_atan2 _ _,
    hypot_mul_sin_atan2 _ _⟩, ?_⟩
  have e0 : (coord 0) = fun p => p.x := rfl
  have e1 : (coord 1) = fun p => p.y := rfl
  intro i j
  rw [wcov_expand v f.particles hl hs]
  fin_cases i <;> fin_cases j
  · exact h4
  · exact h5
  · refine (h6.trans h5).trans ?_
    congr 1
    simp only [Fin.mk_one, Fin.zero_eta, e0, e1]
    have : (fun p : Pose2d => p.y * p.x) = fun p => p.x * p.y := by funext p; ring
    rw [this]; ring
  · exact h7

/-- **C23** The mean position lies in every axis-aligned box that contains the particles. -/
theorem c23_mean_in_bounding_box (m : MotionModel) (minP maxP : ℕ) (ops : List Filter.Op) {f : Filter}
    (h : (Filter.new m minP maxP >>= fun f => f.run ops) = .ok f) (hd : Distribution f.weights)
    (x0 x1 y0 y1 : ℝ) (hbox : ∀ p ∈ f.particles, x0 ≤ p.x ∧ p.x ≤ x1 ∧ y0 ≤ p.y ∧ p.y ≤ y1) :
    ∃ mx my : ℝ, f.getMean 0 = .fin mx ∧ f.getMean 1 = .fin my ∧ x0 ≤ mx ∧ mx ≤ x1 ∧ y0 ≤ my ∧ my ≤ y1 := by
  obtain ⟨v, hv, hnn, hs⟩ := hd
  obtain ⟨h1, h2, -⟩ := c23_statistics_of_weighted_particles m minP maxP ops h hv hs
  obtain ⟨-, -, hlen, -⟩ := c21_particle_count_within_limits m minP maxP ops h
  have hl : v.length = f.particles.length := by
    rw [← hlen, hv, List.length_map]
  have hc : ∀ c : ℝ, wmean v f.particles (fun _ => c) = c := fun c => by rw [wmean_const v _ hl, hs, one_mul]
  refine ⟨_, _, h1, h2, ?_, ?_, ?_, ?_⟩
  · rw [← hc x0]; exact wmean_mono v _ hnn _ _ fun p hp => (hbox p hp).1
  · rw [← hc x1]; exact wmean_mono v _ hnn _ _ fun p hp => (hbox p hp).2.1
  · rw [← hc y0]; exact wmean_mono v _ hnn _ _ fun p hp => (hbox p hp).2.2.1
  · rw [← hc y1]; exact wmean_mono v _ hnn _ _ fun p hp => (hbox p hp).2.2.2

/-- **C23** The planar covariance is symmetric and positive semi-definite. -/
theorem c23_covariance_psd (m : MotionModel) (minP maxP : ℕ) (ops : List Filter.Op) {f : Filter}
    (h : (Filter.new m minP maxP >>= fun f => f.run ops) = .ok f) (hd : Distribution f.weights) :
    ∃ c : Fin 2 → Fin 2 → ℝ, (∀ i j : Fin 2, f.getCovariance (Fin.castSucc i) (Fin.castSucc j) = .fin (c i j)) ∧
      (∀ i j, c i j = c j i) ∧ ∀ a b : ℝ, 0 ≤ a * a * c 0 0 + 2 * a * b * c 0 1 + b * b * c 1 1 := by
  obtain ⟨v, hv, hnn, hs⟩ := hd
  obtain ⟨-, -, -, h4⟩ := c23_statistics_of_weighted_particles m minP maxP ops h hv hs
  refine ⟨_, h4, ?_, ?_⟩
  · intro i j
    unfold wcov
    congr 1
    funext p; ring
  · intro a b
    have key : a * a * wcov v f.particles 0 0 + 2 * a * b * wcov v f.particles 0 1 + b * b * wcov v f.particles 1 1 =
        wmean v f.particles fun p => (a * (coord 0 p - wmean v f.particles (coord 0)) +
          b * (coord 1 p - wmean v f.particles (coord 1))) ^ 2 := by
      unfold wcov
      set mx := wmean v f.particles (coord 0)
      set my := wmean v f.particles (coord 1)
      have e : (fun p => (a * (coord 0 p - mx) + b * (coord 1 p - my)) ^ 2) =
          fun p => (a * a) * ((coord 0 p - mx) * (coord 0 p - mx)) + 1 *
            ((2 * a * b) * ((coord 0 p - mx) * (coord 1 p - my)) +
              (b * b) * ((coord 1 p - my) * (coord 1 p - my))) := by
        funext p; ring
      rw [e, wmean_linear, wmean_linear]
      ring
    rw [key]
    unfold wmean
    apply List.sum_nonneg
    intro x hx
    obtain ⟨y, hy, rfl⟩ := List.mem_map.mp hx
    exact mul_nonneg (hnn _ (List.of_mem_zip hy).1) (sq_nonneg _)

/-! ### C24 -/

/-- Weighted mean squared angular distance of the particles from a heading. -/
def headingSpread (v : List ℝ) (ps : List Pose2d) (t : ℝ) : ℝ := wmean v ps fun p => angularDistance p.theta t ^ 2

theorem heading_step {f f' g : Filter} (hg : Filter.updateStatistics g = .ok f') (hc : g.cov = f.cov) {v : List ℝ}
    (hv : AreNumbers f'.weights v) {c : ℝ} (h22 : f.getCovariance 2 2 = .fin c) :
    ∃ t : ℝ, f'.getMean 2 = .fin t ∧ f'.getCovariance 2 2 = .fin (c + headingSpread v f'.particles t) := by
  obtain ⟨-, -, h3, -, -, -, -, h8, -⟩ := Filter.updateStatistics_stats hg hv
  refine ⟨_, h3, ?_⟩
  have := h8 c (by rw [hc]; exact h22)
  refine this.trans ?_
  congr 2
  unfold headingSpread
  congr 1
  funext p
  unfold angularDistance
  rw [sq_abs, sq]

/-- **C24** (what the code does) Every operation *adds* the weighted mean squared angular distance of the current
particles from the mean heading to the heading variance. -/
theorem c24_heading_variance_accumulates {f f' : Filter} {op : Filter.Op} (h : f.step op = .ok f') {v : List ℝ}
    (hv : AreNumbers f'.weights v) {c : ℝ} (h22 : f.getCovariance 2 2 = .fin c) :
    ∃ t : ℝ, f'.getMean 2 = .fin t ∧ f'.getCovariance 2 2 = .fin (c + headingSpread v f'.particles t) := by
  obtain ⟨g, hg, hc, -⟩ := Filter.step_stats h
  exact heading_step hg hc hv h22

theorem new_cov22 {m : MotionModel} {minP maxP : ℕ} (hmin : 0 < minP) {f : Filter}
    (h : Filter.new m minP maxP = .ok f) : f.getCovariance 2 2 = .fin 0 := by
  obtain ⟨v, hv, -, hs⟩ := distribution_new hmin h
  obtain ⟨t, ht, hc⟩ := heading_step (f := ⟨m, minP, maxP, [], [], fun _ => .fin 0, fun _ _ => .fin 0,
    KdTree.new 0 0 0⟩) h rfl hv rfl
  obtain ⟨-, -, -, ep, -⟩ := Filter.updateStatistics_ok h
  have hps : ∀ p ∈ f.particles, p = Pose2d.zero := by
    rw [ep]
    intro p hp
    exact List.eq_of_mem_replicate hp
  have hl : v.length = f.particles.length := by
    have := (new_ok h).1.2.2
    rw [← this, hv, List.length_map]
  -- mean heading is zero
  obtain ⟨-, -, h3, -⟩ := Filter.updateStatistics_stats h hv
  have hcongr : ∀ F : Pose2d → ℝ, wmean v f.particles F = F Pose2d.zero := by
    intro F
    have : wmean v f.particles F = wmean v f.particles fun _ => F Pose2d.zero := by
      unfold wmean
      congr 1
      apply List.map_congr_left
      intro x hx
      rw [hps _ (List.of_mem_zip hx).2]
    rw [this, wmean_const v _ hl, hs, one_mul]
  rw [hcongr, hcongr] at h3
  have ht0 : t = 0 := by
    have e : f.getMean 2 = f.mean 2 := rfl
    rw [e, h3] at ht
    injection ht with ht
    rw [← ht]
    simp [Pose2d.zero, atan2, Complex.arg_one, show (⟨1, 0⟩ : ℂ) = 1 from rfl]
  rw [hc, zero_add]
  congr 1
  unfold headingSpread
  rw [hcongr, ht0]
  unfold angularDistance
  simp [Pose2d.zero, normalizeAngle_of_mem (a := 0) ⟨by linarith [pi_pos], pi_pos.le⟩]

/-- **C24** For the first operation after construction the heading variance is that of the current particles.
Missing from the full claim: every later operation, see `c24_heading_variance_accumulates`. -/
theorem c24_heading_variance_first_operation_partial (m : MotionModel) {minP maxP : ℕ} (hmin : 0 < minP)
    {f0 f : Filter} (h0 : Filter.new m minP maxP = .ok f0) {op : Filter.Op} (h : f0.step op = .ok f) {v : List ℝ}
    (hv : AreNumbers f.weights v) :
    ∃ t : ℝ, f.getMean 2 = .fin t ∧ f.getCovariance 2 2 = .fin (headingSpread v f.particles t) := by
  obtain ⟨t, ht, hc⟩ := c24_heading_variance_accumulates h hv (new_cov22 hmin h0)
  rw [zero_add] at hc
  exact ⟨t, ht, hc⟩

/-- Draws for two particles with headings 1 and -1 at the origin. -/
def twoHeadings : MotionModel.Draws := fun k _ _ => if k = 2 then 1 else if k = 5 then -1 else 0

/-- **C24** (refuted) Initialising the same filter twice to the same two particles, with headings 1 and -1, gives
heading variance 1 the first time and 2 the second. -/
theorem c24_heading_variance_witness :
    ∃ f0 f1 f2 : Filter, Filter.new ⟨0, 0, 0, 0, 0⟩ 2 2 = .ok f0 ∧
      f0.step (.init twoHeadings 0 0 0 1 1 1) = .ok f1 ∧ f1.step (.init twoHeadings 0 0 0 1 1 1) = .ok f2 ∧
      f1.particles = [⟨0, 0, 1⟩, ⟨0, 0, -1⟩] ∧ f2.particles = f1.particles ∧
      f1.getCovariance 2 2 = .fin 1 ∧ f2.getCovariance 2 2 = .fin 2 := by
  obtain ⟨f0, h0⟩ := new_defined ⟨0, 0, 0, 0, 0⟩ 2 2
  obtain ⟨w0, -, -, -⟩ := new_ok h0
  obtain ⟨f1, h1⟩ := (c21_other_operations_defined w0).1 twoHeadings 0 0 0 1 1 1
  obtain ⟨w1, -, -⟩ := withinLimits_step (op := .init twoHeadings 0 0 0 1 1 1) w0 h1
  obtain ⟨f2, h2⟩ := (c21_other_operations_defined w1).1 twoHeadings 0 0 0 1 1 1
  have hpi := pi_gt_three
  have n1 : normalizeAngle 1 = 1 := normalizeAngle_of_mem ⟨by linarith, by linarith⟩
  have n2 : normalizeAngle (-1) = -1 := normalizeAngle_of_mem ⟨by linarith, by linarith⟩
  have p0 : f0.particles = [Pose2d.zero, Pose2d.zero] := by
    obtain ⟨-, -, -, e, -⟩ := Filter.updateStatistics_ok h0
    exact e
  have parts : ∀ {f f' : Filter}, f.particles.length = 2 → f.init twoHeadings 0 0 0 1 1 1 = .ok f' →
      f'.particles = [⟨0, 0, 1⟩, ⟨0, 0, -1⟩] ∧ AreNumbers f'.weights [1 / 2, 1 / 2] := by
    intro f f' hl h
    obtain ⟨-, -, -, e, ew, -⟩ := Filter.updateStatistics_ok h
    have hps : ∃ a b, f.particles = [a, b] := by
      match hp : f.particles, hl with
      | [a, b], _ => exact ⟨a, b, rfl⟩
    obtain ⟨a, b, hab⟩ := hps
    constructor
    · rw [e]
      simp [hab, twoHeadings, n1, n2]
    · unfold AreNumbers
      rw [ew]
      simp only [List.length_mapIdx, hab, List.length_cons, List.length_nil]
      have e3 : (Fl.fin 1 / Fl.fin (((0 + 1 + 1 : ℕ)) : ℝ)) = Fl.fin (1 / 2) := by norm_num
      have : Filter.sumWeights [Fl.fin (1 / 2), Fl.fin (1 / 2)] = .fin 1 := by
        have := Filter.sumWeights_fin [1 / 2, 1 / 2]
        simp only [List.map_cons, List.map_nil] at this
        rw [this]; norm_num
      rw [e3]
      have e2 : List.replicate (0 + 1 + 1) (Fl.fin (1 / 2)) = [Fl.fin (1 / 2), Fl.fin (1 / 2)] := rfl
      rw [e2]
      simp only [this, List.map_cons, List.map_nil]
      rw [Fl.fin_div one_ne_zero]; norm_num
  obtain ⟨q1, v1⟩ := parts (by rw [p0]; rfl) h1
  obtain ⟨q2, v2⟩ := parts (by rw [q1]; rfl) h2
  -- the spread is one
  have spread : ∀ {f f' : Filter}, f.init twoHeadings 0 0 0 1 1 1 = .ok f' →
      f'.particles = [⟨0, 0, 1⟩, ⟨0, 0, -1⟩] → AreNumbers f'.weights [1 / 2, 1 / 2] → ∀ c,
      f.getCovariance 2 2 = .fin c → f'.getCovariance 2 2 = .fin (c + 1) := by
    intro f f' h hp hv c hc
    obtain ⟨t, ht, hcov⟩ := c24_heading_variance_accumulates (op := .init twoHeadings 0 0 0 1 1 1) h hv hc
    obtain ⟨-, -, h3, -⟩ := Filter.updateStatistics_stats h hv
    have ht0 : t = 0 := by
      have e : f'.getMean 2 = f'.mean 2 := rfl
      rw [e, h3] at ht
      injection ht with ht
      rw [← ht, hp]
      have hc1 : 0 < cos 1 := cos_pos_of_mem_Ioo ⟨by linarith, by linarith⟩
      have : (⟨wmean [1 / 2, 1 / 2] [⟨0, 0, 1⟩, ⟨0, 0, -1⟩] fun p => cos p.theta,
          wmean [1 / 2, 1 / 2] [⟨0, 0, 1⟩, ⟨0, 0, -1⟩] fun p => sin p.theta⟩ : ℂ) = ((cos 1 : ℝ) : ℂ) := by
        apply Complex.ext
        · rw [Complex.ofReal_re]; simp [wmean]; ring
        · rw [Complex.ofReal_im]; simp [wmean]
      unfold atan2
      rw [this]
      exact Complex.arg_ofReal_of_nonneg hc1.le
    rw [hcov, hp, ht0]
    congr 2
    unfold headingSpread angularDistance wmean
    simp [n1, n2]
    norm_num
  refine ⟨f0, f1, f2, h0, h1, h2, q1, q2.trans q1.symm, ?_, ?_⟩
  · have := spread h1 q1 v1 0 (new_cov22 (by norm_num) h0)
    simpa using this
  · have c1 := spread h1 q1 v1 0 (new_cov22 (by norm_num) h0)
    have := spread h2 q2 v2 _ c1
    rw [this]; norm_num

/-! ### C25 -/

/-- **C25** Every particle after `resample` is one of the particles before it: the i-th is the one drawn i-th. -/
theorem c25_resampled_particles_are_old {f f' : Filter} {err z : ℝ} {draw : ℕ → ℕ}
    (h : f.resample err z draw = .ok f') :
    (∀ p ∈ f'.particles, p ∈ f.particles) ∧
    ∀ i < f'.particles.length, f'.particles[i]? = f.particles[draw i]? := by
  obtain ⟨rs, ws, kd, mx, hinv, -, -, -, hu⟩ := Filter.resample_ok h
  obtain ⟨-, -, -, e3, -⟩ := Filter.updateStatistics_ok hu
  have e : f'.particles = rs := e3
  rw [e]
  refine ⟨?_, fun i hi => (hinv.drawn i hi).1⟩
  intro p hp
  obtain ⟨i, hi, rfl⟩ := List.getElem_of_mem hp
  have := (hinv.drawn i hi).1
  rw [List.getElem?_eq_getElem hi] at this
  exact List.mem_of_getElem? this.symm

/-- **C25** If fewer than `max_particles` were drawn then at least `min_particles` were, and more than the KLD bound
minus one for the number of occupied bins (the code rounds the bound down). -/
theorem c25_kld_stopping_rule (m : MotionModel) (minP maxP : ℕ) (ops : List Filter.Op) {f f' : Filter}
    (hreach : (Filter.new m minP maxP >>= fun f => f.run ops) = .ok f) {err z : ℝ} (he : 0 < err) (hz : 0 ≤ z)
    {draw : ℕ → ℕ} (h : f.resample err z draw = .ok f') (hlt : f'.particles.length < maxP) :
    minP ≤ f'.particles.length ∧
    let k := (f'.particles.map (bin ![0.5, 0.5, 0.2671])).toFinset.card
    1 < k ∧ (kldBound err z k < 2 ^ 64 → kldBound err z k < f'.particles.length + 1) := by
  obtain ⟨-, -, -, emin, emax, hsz⟩ := c21_particle_count_within_limits m minP maxP ops hreach
  obtain ⟨rs, ws, kd, mx, hinv, -, -, hge, hu⟩ := Filter.resample_ok h
  obtain ⟨-, -, -, e3, -⟩ := Filter.updateStatistics_ok hu
  have e : f'.particles = rs := e3
  rw [e] at hlt ⊢
  rw [emin, emax] at hge
  have hge' : max minP mx ≤ rs.length := by omega
  refine ⟨by omega, ?_⟩
  intro k
  have hk : kd.getLeafCount = k := by
    have htree := hinv.tree
    unfold KdTree.getLeafCount
    rw [htree.count, ← List.length_map (f := fun x : Key × Fl => x.1), ← List.toFinset_card_of_nodup htree.nodup]
    show _ = (rs.map (bin ![0.5, 0.5, 0.2671])).toFinset.card
    congr 1
    ext b
    simp only [List.mem_toFinset, List.mem_map]
    rw [htree.keys b, hsz]
    constructor
    · rintro ⟨x, hx, hb⟩
      exact ⟨x.1, (List.of_mem_zip hx).1, hb⟩
    · rintro ⟨p, hp, hb⟩
      obtain ⟨i, hi, rfl⟩ := List.getElem_of_mem hp
      have hi' : i < ws.length := by rw [hinv.len]; exact hi
      refine ⟨(rs[i], ws[i]), ?_, hb⟩
      rw [List.mem_iff_getElem]
      exact ⟨i, by simp [hi, hi'], by simp⟩
  rcases hinv.bound with ⟨e1, -⟩ | ⟨h1, h2⟩
  · rw [emax] at e1; omega
  · rw [hk] at h1 h2
    refine ⟨h1, fun hfit => ?_⟩
    obtain ⟨hks, hnn⟩ := kldSize_eq he hz h1 hfit
    rw [hks] at h2
    injection h2 with h2
    have h3 : ⌊kldBound err z k⌋.toNat ≤ rs.length := by omega
    have h4 : ⌊kldBound err z k⌋ ≤ rs.length := by
      have := Int.self_le_toNat ⌊kldBound err z k⌋
      omega
    have h5 := Int.lt_floor_add_one (kldBound err z k)
    have h6 : (⌊kldBound err z k⌋ : ℝ) ≤ rs.length := by exact_mod_cast h4
    linarith

/-- With the default parameters and two occupied bins the bound asks for about 322 particles, so it does come into
play below the default maximum of 500. -/
example : kldBound 0.01 2.3 2 < 2 ^ 64 := by
  unfold kldBound
  have hs : sqrt (2 / (9 * (((2 : ℕ) : ℝ) - 1))) ≤ 1 := by
    rw [sqrt_le_one]; norm_num
  have h0 := sqrt_nonneg (2 / (9 * (((2 : ℕ) : ℝ) - 1)))
  have h1 : (1 - 2 / (9 * (((2 : ℕ) : ℝ) - 1)) + sqrt (2 / (9 * (((2 : ℕ) : ℝ) - 1))) * 2.3) ^ 3 ≤ 4 ^ 3 := by
    apply pow_le_pow_left₀
    · norm_num at *; linarith
    · norm_num at *; linarith
  norm_num at *
  linarith

/-! ### C26 -/

/-- **C26** (what the code does) After `resample` every particle keeps its old weight, up to the common
normalisation: the measurement is counted again. -/
theorem c26_resampled_weights_are_old {f f' : Filter} {err z : ℝ} {draw : ℕ → ℕ}
    (h : f.resample err z draw = .ok f') :
    ∃ s : Fl, ∀ i < f'.particles.length, f'.weights[i]? = (f.weights[draw i]?).map (· / s) := by
  obtain ⟨rs, ws, kd, mx, hinv, -, -, -, hu⟩ := Filter.resample_ok h
  obtain ⟨-, -, -, e3, e4, -⟩ := Filter.updateStatistics_ok hu
  have e : f'.particles = rs := e3
  refine ⟨Filter.sumWeights ws, ?_⟩
  intro i hi
  rw [e] at hi
  rw [e4]
  show (ws.map _)[i]? = _
  rw [List.getElem?_map, (hinv.drawn i hi).2]

/-- **C26** If the weights were equal before they are equal after. Missing from the full claim: unequal weights, see
`c26_resample_keeps_weights_witness`. -/
theorem c26_equal_weights_stay_equal_partial {f f' : Filter} {err z : ℝ} {draw : ℕ → ℕ}
    (h : f.resample err z draw = .ok f') {w : Fl} (heq : ∀ x ∈ f.weights, x = w)
    (hdraw : ∀ n, draw n < f.weights.length) :
    ∃ w', ∀ i < f'.particles.length, f'.weights[i]? = some w' := by
  obtain ⟨s, hs⟩ := c26_resampled_weights_are_old h
  refine ⟨w / s, fun i hi => ?_⟩
  rw [hs i hi, List.getElem?_eq_getElem (hdraw i), heq _ (List.getElem_mem _)]
  rfl

theorem binFits_small {p : Pose2d} (hx : |p.x| ≤ 1) (hy : |p.y| ≤ 1) (ht : |p.theta| ≤ 1) :
    BinFits ![0.5, 0.5, 0.2671] p := by
  have key : ∀ x c : ℝ, 0.2 ≤ c → |x| ≤ 1 → |truncZ (x / c)| < 2 ^ 30 := by
    intro x c hc hx
    have hc0 : (0 : ℝ) < c := by linarith
    obtain ⟨h1, h2⟩ := abs_le.mp hx
    have h3 : x / c ≤ 5 := by rw [div_le_iff₀ hc0]; linarith
    have h4 : -5 ≤ x / c := by rw [le_div_iff₀ hc0]; linarith
    have h5 : truncZ (x / c) ≤ 5 ∧ -5 ≤ truncZ (x / c) := by
      unfold truncZ
      split
      · rename_i h0
        constructor
        · have : (⌊x / c⌋ : ℝ) ≤ 5 := (Int.floor_le _).trans h3
          exact_mod_cast this
        · have := Int.floor_nonneg.mpr h0
          omega
      · rename_i h0
        constructor
        · have : ⌈x / c⌉ ≤ 0 := by rw [Int.ceil_le]; push_cast; linarith
          omega
        · have : (-5 : ℝ) ≤ (⌈x / c⌉ : ℝ) := h4.trans (Int.le_ceil _)
          exact_mod_cast this
    rw [abs_lt]
    omega
  intro i
  fin_cases i
  · exact key _ _ (by norm_num [Matrix.cons_val_zero]) hx
  · exact key _ _ (by norm_num [Matrix.cons_val_one]) hy
  · exact key _ _ (show (0.2 : ℝ) ≤ 0.2671 by norm_num) ht

/-- **C26** (refuted) A reachable filter with two particles of weights 1/4 and 3/4, from which each is drawn once:
after `resample` the weights are still 1/4 and 3/4. -/
theorem c26_resample_keeps_weights_witness :
    ∃ f f' : Filter, (Filter.new ⟨0, 0, 0, 0, 0⟩ 2 2 >>= fun f => f.run
        [.init (fun k _ _ => if k = 3 then 1 else 0) 0 0 0 1 1 1,
         .measure fun p => .ok (.fin (if p.x = 0 then -1 / 4 else -3 / 4))]) = .ok f ∧
      f.resample 1 0 (fun n => if n = 0 then 0 else 1) = .ok f' ∧
      f'.particles = [⟨0, 0, 0⟩, ⟨1, 0, 0⟩] ∧ f'.weights = [.fin (1 / 4), .fin (3 / 4)] := by
  obtain ⟨f0, h0⟩ := new_defined ⟨0, 0, 0, 0, 0⟩ 2 2
  obtain ⟨w0, m0, M0, s0⟩ := new_ok h0
  obtain ⟨f1, h1⟩ := (c21_other_operations_defined w0).1 (fun k _ _ => if k = 3 then 1 else 0) 0 0 0 1 1 1
  obtain ⟨w1, m1, M1⟩ := withinLimits_step
    (op := .init (fun k _ _ => if k = 3 then 1 else 0) 0 0 0 1 1 1) w0 h1
  obtain ⟨f2, h2⟩ := (c21_other_operations_defined w1).2.2 (fun p => .fin (if p.x = 0 then -1 / 4 else -3 / 4))
  obtain ⟨w2, m2, M2⟩ := withinLimits_step
    (op := .measure (fun p => .ok (.fin (if p.x = 0 then -1 / 4 else -3 / 4)))) w1 h2
  have s1 := kd_size_step (op := .init (fun k _ _ => if k = 3 then 1 else 0) 0 0 0 1 1 1) h1
  have s2 := kd_size_step (op := .measure (fun p => .ok (.fin (if p.x = 0 then -1 / 4 else -3 / 4)))) h2
  have n0 : normalizeAngle 0 = 0 := normalizeAngle_of_mem ⟨by linarith [pi_pos], pi_pos.le⟩
  have p0 : f0.particles = [Pose2d.zero, Pose2d.zero] := (Filter.updateStatistics_ok h0).2.2.2.1
  have p1 : f1.particles = [⟨0, 0, 0⟩, ⟨1, 0, 0⟩] := by
    rw [(Filter.updateStatistics_ok h1).2.2.2.1]
    simp [p0, n0]
  -- measure
  have hl1 := w1.2.2
  have h2' := h2
  unfold Filter.measure at h2'
  rw [mapM_ok _ (fun p : Pose2d => (.ok (.fin (if p.x = 0 then -1 / 4 else -3 / 4)) : Res Fl))
    (fun p => .fin (if p.x = 0 then -1 / 4 else -3 / 4)) (fun _ _ => rfl)] at h2'
  simp only [Res.ok_bind] at h2'
  rw [if_neg (by rw [hl1]; omega), List.drop_eq_nil_of_le (le_of_eq hl1), List.append_nil] at h2'
  obtain ⟨-, -, -, p2, e2, -⟩ := Filter.updateStatistics_ok h2'
  have p2' : f2.particles = [⟨0, 0, 0⟩, ⟨1, 0, 0⟩] := p2.trans p1
  have e2' : f2.weights = [.fin (1 / 4), .fin (3 / 4)] := by
    rw [e2]
    simp only [p1, List.map_cons, List.map_nil, if_true, one_ne_zero, if_false]
    have := Filter.sumWeights_fin [-1 / 4, -3 / 4]
    simp only [List.map_cons, List.map_nil] at this
    rw [this]
    norm_num
  -- resample
  have hfit : ∀ p ∈ f2.particles, BinFits ![0.5, 0.5, 0.2671] p := by
    rw [p2']
    intro p hp
    simp only [List.mem_cons, List.not_mem_nil, or_false] at hp
    rcases hp with rfl | rfl <;> exact binFits_small (by norm_num) (by norm_num) (by norm_num)
  obtain ⟨f3, h3⟩ := c21_resample_defined (f := f2) (err := 1) (z := 0) (draw := fun n => if n = 0 then 0 else 1)
    one_pos le_rfl w2.2.2 (by rw [s2, s1, s0]) (by
      intro n
      rw [p2']
      by_cases hn : n = 0 <;> simp [hn]) hfit (by
      intro k hk1 hk2
      rw [M2, M1, M0] at hk2
      have : k = 2 := by omega
      subst this
      unfold kldBound
      norm_num)
  refine ⟨f2, f3, ?_, h3, ?_, ?_⟩
  · rw [h0]
    simp only [Res.ok_bind, Filter.run, List.foldlM_cons, List.foldlM_nil, Filter.step, h1, h2]
    rfl
  · obtain ⟨hle, -⟩ := c21_resample_at_most_max h3
    have hlim := (withinLimits_step (op := .resample 1 0 fun n => if n = 0 then 0 else 1) w2 h3).1
    have hlen : f3.particles.length = 2 := by
      have e1 := (withinLimits_step (op := .resample 1 0 fun n => if n = 0 then 0 else 1) w2 h3).2
      have := hlim.1
      have := hlim.2.1
      rw [e1.1, e1.2, m2, m1, m0, M2, M1, M0] at *
      omega
    have hp := (c25_resampled_particles_are_old h3).2
    apply List.ext_getElem?
    intro i
    match i with
    | 0 => rw [hp 0 (by omega), p2']; rfl
    | 1 => rw [hp 1 (by omega), p2']; rfl
    | i + 2 => rw [List.getElem?_eq_none (by omega)]; rfl
  · have hlim := withinLimits_step (op := .resample 1 0 fun n => if n = 0 then 0 else 1) w2 h3
    have hlen : f3.particles.length = 2 := by
      have := hlim.1.1
      have := hlim.1.2.1
      rw [hlim.2.1, hlim.2.2, m2, m1, m0, M2, M1, M0] at *
      omega
    obtain ⟨rs, ws, kd, mx, hinv, -, -, -, hu⟩ := Filter.resample_ok h3
    obtain ⟨-, -, -, e3, e4, -⟩ := Filter.updateStatistics_ok hu
    have ers : rs.length = 2 := by
      have : f3.particles = rs := e3
      rw [← this]; exact hlen
    have hws : ws = [.fin (1 / 4), .fin (3 / 4)] := by
      apply List.ext_getElem?
      intro i
      match i with
      | 0 => rw [(hinv.drawn 0 (by omega)).2, e2']; rfl
      | 1 => rw [(hinv.drawn 1 (by omega)).2, e2']; rfl
      | i + 2 => rw [List.getElem?_eq_none (by rw [hinv.len]; omega)]; rfl
    rw [e4]
    show ws.map (· / Filter.sumWeights ws) = _
    rw [hws]
    have := Filter.sumWeights_fin [1 / 4, 3 / 4]
    simp only [List.map_cons, List.map_nil] at this
    rw [this]
    norm_num

/-! ### C27 -/

/-- **C27** `getMsg` appends one pose per particle, in order: its position, and a unit quaternion about z whose yaw
(as `fromMsg` reads it) is the particle's heading up to full turns. -/
theorem c27_particle_cloud_is_faithful (f : Filter) (msg : List Filter.PoseMsg) :
    (f.getMsg msg).length = msg.length + f.particles.length ∧
    (∀ i < msg.length, (f.getMsg msg)[i]? = msg[i]?) ∧
    ∀ (i : ℕ) (p : Pose2d), f.particles[i]? = some p → ∃ q : Filter.PoseMsg,
      (f.getMsg msg)[msg.length + i]? = some q ∧ q.x = p.x ∧ q.y = p.y ∧
      q.orientation.z ^ 2 + q.orientation.w ^ 2 = 1 ∧
      (-π < getYaw q.orientation ∧ getYaw q.orientation ≤ π) ∧
      ∃ n : ℤ, getYaw q.orientation = p.theta + n * (2 * π) := by
  unfold Filter.getMsg
  refine ⟨by simp, ?_, ?_⟩
  · intro i hi
    rw [List.getElem?_append_left hi]
  · intro i p hp
    refine ⟨⟨p.x, p.y, ⟨sin (p.theta / 2), cos (p.theta / 2)⟩⟩, ?_, rfl, rfl, sin_sq_add_cos_sq _, ?_, ?_⟩
    · rw [List.getElem?_append_right (by omega)]
      simp [hp]
    · simp only [getYaw_half]; exact normalizeAngle_mem _
    · simp only [getYaw_half]; exact normalizeAngle_congr _

end

end Ndt
