import Verif.Proof.Matcher
import Verif.Proof.FilterF
import Verif.Spec.FilterF

/-! # C105: the particles are poses -/

namespace Ndt

noncomputable section

open Spec Real

/-- The same request to a filter with particles of numbers. -/
def FilterF.Op.real : FilterF.Op → Filter.Op
  | .initMsg nrm pose vx vy vth => .init nrm pose.x pose.y pose.theta (sqrt vx) (sqrt vy) (sqrt vth)
  | .update nrm dx dy dth => .update nrm dx dy dth
  | .measure mt points => .measure (mt.scorePoints points)
  | .resample err z draw => .resample err z draw

/-- **C105** (what holds) With coefficients of the motion noise that are not negative and no initial pose with a negative
variance, a filter whose particles are numbers does what the filter of `Model/Filter` does, step by step and fault by
fault, for every history of requests. -/
theorem c105_filter_of_numbers (f : Filter) (h1 : 0 ≤ f.motion.a1) (h2 : 0 ≤ f.motion.a2) (h3 : 0 ≤ f.motion.a3)
    (h4 : 0 ≤ f.motion.a4) (ops : List FilterF.Op) (hv : NoNegativeVariance ops) :
    f.toF.run ops = (f.run (ops.map FilterF.Op.real)).map Filter.toF := by
  induction ops generalizing f with
  | nil => rfl
  | cons o ops ih =>
    have hstep : f.toF.step o = (f.step o.real).map Filter.toF := by
      cases o with
      | initMsg nrm pose vx vy vth =>
        have := hv _ (List.mem_cons_self ..)
        exact FilterF.initMsg_toF f nrm pose this.1 this.2.1 this.2.2
      | update nrm dx dy dth =>
        have := c29_sigmas_are_real f.motion h1 h2 h3 h4 dx dy dth
        exact FilterF.update_toF f nrm this.1.1 this.2.1.1 this.2.2.1
      | measure mt points => exact FilterF.measure_toF f _ _ (FilterF.scorePointsF_toF mt points)
      | resample err z draw => exact FilterF.resample_toF f err z draw
    unfold FilterF.run Filter.run
    rw [List.foldlM_cons, List.map_cons, List.foldlM_cons, hstep]
    cases hs : f.step o.real with
    | error e => rfl
    | ok f' =>
      have hm := Filter.step_motion hs
      exact ih f' (by rw [hm]; exact h1) (by rw [hm]; exact h2) (by rw [hm]; exact h3) (by rw [hm]; exact h4)
        fun o' ho' => hv o' (List.mem_cons_of_mem _ ho')

/-- The constructor makes a filter of numbers. -/
theorem FilterF.new_toF (m : MotionModel) (minP maxP : ℕ) :
    FilterF.new m minP maxP = (Filter.new m minP maxP).map Filter.toF := by
  unfold FilterF.new Filter.new
  rw [← FilterF.updateStatistics_toF]
  simp [Filter.toF]

/-- **C105** (partial) From its construction on every particle of the filter is a pose, for every history of requests with
coefficients and variances that are not negative. Missing: histories with negative ones, for which it fails, see
`c105_negative_variance_ends_in_undefined_behaviour` and `c105_negative_coefficient_ends_in_undefined_behaviour`. -/
theorem c105_particles_are_poses_partial (m : MotionModel) (h1 : 0 ≤ m.a1) (h2 : 0 ≤ m.a2) (h3 : 0 ≤ m.a3)
    (h4 : 0 ≤ m.a4) (minP maxP : ℕ) (ops : List FilterF.Op) (hv : NoNegativeVariance ops) {f0 f : FilterF}
    (hn : FilterF.new m minP maxP = .ok f0) (hr : f0.run ops = .ok f) : ∀ p ∈ f.particles, IsPose p := by
  rw [FilterF.new_toF] at hn
  cases hf : Filter.new m minP maxP with
  | error e => rw [hf] at hn; cases hn
  | ok g0 =>
    rw [hf] at hn
    cases hn
    have hm : g0.motion = m := (Filter.updateStatistics_ok hf).1
    rw [c105_filter_of_numbers g0 (by rw [hm]; exact h1) (by rw [hm]; exact h2) (by rw [hm]; exact h3)
      (by rw [hm]; exact h4) ops hv] at hr
    cases hg : g0.run (ops.map FilterF.Op.real) with
    | error e => rw [hg] at hr; cases hr
    | ok g =>
      rw [hg] at hr
      cases hr
      intro p hp
      obtain ⟨q, -, rfl⟩ := List.mem_map.mp hp
      exact ⟨trivial, trivial, trivial⟩

/-- A broken filter does not survive a scan. -/
theorem FilterF.Broken.scan {f : FilterF} (hb : f.Broken) (hm : 0 < f.maxP)
    (hw : f.particles.length ≤ f.weights.length) (nrm : MotionModel.Draws) (control : Pose2d) (mt : Matcher)
    (points : List Point) (err z : ℝ) {draw : ℕ → ℕ} (hd : draw 0 < f.particles.length) :
    (∃ e, f.run (scanOps nrm control mt points err z draw) = .error e) ∧
      ((∀ p, ∃ w, mt.scorePointsF points p = .ok w) →
        f.run (scanOps nrm control mt points err z draw) = .error .conversion) := by
  have hrun : ∀ g, f.update nrm control.x control.y control.theta = .ok g →
      f.run (scanOps nrm control mt points err z draw) =
        (g.measure (mt.scorePointsF points)).bind fun k => (k.resample err z draw).bind .ok := by
    intro g hg
    unfold FilterF.run scanOps
    simp only [List.foldlM_cons, List.foldlM_nil, FilterF.step, hg]
    rfl
  have hu : ∃ g, f.update nrm control.x control.y control.theta = .ok g :=
    FilterF.updateStatistics_ok (by simpa [MotionModel.sampleF] using hw)
  obtain ⟨g, hg⟩ := hu
  obtain ⟨bg, mg, pg, wg⟩ := hb.update hg
  rw [hrun g hg]
  cases hk : g.measure (mt.scorePointsF points) with
  | error e =>
    refine ⟨⟨e, rfl⟩, fun hs => ?_⟩
    exfalso
    unfold FilterF.measure at hk
    have : ∀ l : List PoseF, ∃ ws, l.mapM (mt.scorePointsF points) = .ok ws := by
      intro l
      induction l with
      | nil => exact ⟨[], rfl⟩
      | cons a l ih =>
        obtain ⟨w, hw'⟩ := hs a
        obtain ⟨ws, hws⟩ := ih
        exact ⟨w :: ws, by rw [List.mapM_cons, hw', hws]; rfl⟩
    obtain ⟨ws, hws⟩ := this g.particles
    rw [hws] at hk
    change (if _ then _ else _) = _ at hk
    have hl := FilterF.mapM_length _ _ _ hws
    rw [if_neg (by omega)] at hk
    obtain ⟨g', hg'⟩ := FilterF.updateStatistics_ok
      (f := { g with weights := ws ++ g.weights.drop g.particles.length }) (by simp; omega)
    rw [hg'] at hk
    cases hk
  | ok k =>
    obtain ⟨bk, mk, pk, wk⟩ := bg.measure hk
    have := bk.resample (by omega) (by omega) err z (draw := draw) (by omega)
    have hres : ((Except.ok k : Res FilterF).bind fun k => (k.resample err z draw).bind .ok) =
        .error .conversion := by
      show (k.resample err z draw).bind .ok = _
      rw [this]
      rfl
    exact ⟨⟨_, hres⟩, fun _ => hres⟩

/-- **C105** (refuted: variances) An initial pose with a negative variance (as sent for "unknown") is taken without
complaint: every particle has a coordinate that is NaN, and the next scan that is processed, whatever it is, runs into
undefined behaviour: at the latest when the first particle drawn is converted to a key of the tree. -/
theorem c105_negative_variance_ends_in_undefined_behaviour (f : FilterF) (hp : f.particles ≠ []) (hm : 0 < f.maxP)
    (nrm : MotionModel.Draws) (pose : Pose2d) (vx vy vth : ℝ) (hv : vx < 0 ∨ vy < 0 ∨ vth < 0) :
    ∃ f', f.initMsg nrm pose vx vy vth = .ok f' ∧ (∀ p ∈ f'.particles, ¬ IsPose p) ∧
      ∀ nrm' control mt points err z draw, draw 0 < f.particles.length →
        (∃ e, f'.run (scanOps nrm' control mt points err z draw) = .error e) ∧
        ((∀ p, ∃ w, mt.scorePointsF points p = .ok w) →
          f'.run (scanOps nrm' control mt points err z draw) = .error .conversion) := by
  have hok : ∃ f', f.initMsg nrm pose vx vy vth = .ok f' := FilterF.updateStatistics_ok (by simp)
  obtain ⟨f', hf'⟩ := hok
  have hq := FilterF.updateStatistics_particles hf'
  simp only [List.length_mapIdx, List.length_replicate] at hq
  have hlen : f'.particles.length = f.particles.length := by rw [hq.1]; simp
  have hbad : ∀ p ∈ f'.particles, p.Bad := by
    intro p hpm
    rw [hq.1, List.mem_mapIdx] at hpm
    obtain ⟨i, hi, rfl⟩ := hpm
    rcases hv with h | h | h
    · left; simp only [Fl.sqrt_neg h]; rfl
    · right; left; simp only [Fl.sqrt_neg h]; rfl
    · right; right; simp only [Fl.sqrt_neg h]; rfl
  have hb : f'.Broken := ⟨fun hc => hp (List.eq_nil_of_length_eq_zero (by rw [← hlen, hc]; rfl)), hbad⟩
  refine ⟨f', hf', ?_, fun nrm' control mt points err z draw hd => ?_⟩
  · intro p hpm hpose
    rcases hbad p hpm with h | h | h
    · have := hpose.1; rw [h] at this; exact this
    · have := hpose.2.1; rw [h] at this; exact this
    · have := hpose.2.2; rw [h] at this; exact this
  · exact hb.scan (by rw [hq.2.1]; exact hm) (by rw [hlen, hq.2.2.2.2]) nrm' control mt points err z (by omega)

/-- **C105** (refuted: coefficients) With a negative coefficient for the noise of the distance and no noise from
turning, every processed scan of a robot that moved runs into undefined behaviour. -/
theorem c105_negative_coefficient_ends_in_undefined_behaviour (f : FilterF) (hp : f.particles ≠ []) (hm : 0 < f.maxP)
    (hw : f.weights.length = f.particles.length) (h3 : f.motion.a3 < 0) (h4 : f.motion.a4 = 0)
    (nrm : MotionModel.Draws) (control : Pose2d) (hc : control.x ≠ 0 ∨ control.y ≠ 0) (mt : Matcher)
    (points : List Point) (err z : ℝ) (draw : ℕ → ℕ) (hd : draw 0 < f.particles.length) :
    ∃ e, f.run (scanOps nrm control mt points err z draw) = .error e := by
  have ht : 0 < MotionModel.trans control.x control.y := by
    unfold MotionModel.trans hypot
    apply sqrt_pos.mpr
    rcases hc with h | h
    · have := sq_pos_of_ne_zero h; have := sq_nonneg control.y; linarith [sq_pos_of_ne_zero h]
    · have := sq_nonneg control.x; linarith [sq_pos_of_ne_zero h]
  have hrad : f.motion.radTrans control.x control.y control.theta < 0 := by
    unfold MotionModel.radTrans
    rw [h4]
    nlinarith [mul_pos ht ht]
  obtain ⟨g, hg⟩ : ∃ g, f.update nrm control.x control.y control.theta = .ok g :=
    FilterF.updateStatistics_ok (by simp [MotionModel.sampleF, hw])
  have hq := FilterF.updateStatistics_particles hg
  simp only [MotionModel.sampleF] at hq
  have hlen : g.particles.length = f.particles.length := by rw [hq.1]; simp
  have hb : g.Broken := by
    refine ⟨fun hcon => hp (List.eq_nil_of_length_eq_zero (by rw [← hlen, hcon]; rfl)), ?_⟩
    intro p hpm
    rw [hq.1, List.mem_mapIdx] at hpm
    obtain ⟨i, hi, rfl⟩ := hpm
    left
    simp only [MotionModel.sampleOneF, Fl.sqrt_neg hrad, MotionModel.drawF, Fl.nan_mul', Fl.add_nan']
  have hrun : f.run (scanOps nrm control mt points err z draw) =
      (g.measure (mt.scorePointsF points)).bind fun k => (k.resample err z draw).bind .ok := by
    unfold FilterF.run scanOps
    simp only [List.foldlM_cons, List.foldlM_nil, FilterF.step, hg]
    rfl
  rw [hrun]
  cases hk : g.measure (mt.scorePointsF points) with
  | error e => exact ⟨e, rfl⟩
  | ok k =>
    obtain ⟨bk, mk, pk, wk⟩ := hb.measure hk
    have := bk.resample (by omega) (by omega) err z (draw := draw) (by omega)
    refine ⟨.conversion, ?_⟩
    show (k.resample err z draw).bind .ok = _
    rw [this]
    rfl

/-- **C29** (the fifth coefficient) The fifth coefficient of the motion noise has no effect. -/
theorem c29_fifth_coefficient_has_no_effect (m : MotionModel) (a : ℝ) (nrm : MotionModel.Draws) (dx dy dth : ℝ)
    (ps : List Pose2d) : ({ m with a5 := a } : MotionModel).sample nrm dx dy dth ps = m.sample nrm dx dy dth ps := rfl

/-- A point whose first coordinate is not a number: undefined behaviour, unless it lies below the map. -/
theorem c105_point_not_a_number (g : NdtGrid) (b : ℝ) :
    g.likelihoodF .nan (.fin b) = if b < g.originY then .ok (.fin 0) else .error .conversion := by
  have h1 : ¬ (Fl.nan < Fl.fin g.originX) := id
  have h2 : (Fl.fin b < Fl.fin g.originY) ↔ b < g.originY := Iff.rfl
  unfold NdtGrid.likelihoodF NdtGrid.getIndexF
  dsimp only
  by_cases h : b < g.originY
  · rw [if_pos (Or.inr (h2.mpr h)), if_pos h]
    rfl
  · rw [if_neg (not_or.mpr ⟨h1, fun k => h (h2.mp k)⟩), if_neg h]
    rfl

example : (⟨0.25, 4, 4, 0, 0, []⟩ : NdtGrid).likelihoodF .nan (.fin 0.5) = .error .conversion := by
  rw [c105_point_not_a_number, if_neg (by norm_num)]

/-- A particle whose heading is not a number: to give it a score by a map is undefined behaviour, for any scan with a
point. -/
theorem c105_heading_not_a_number {mt : Matcher} {g : NdtGrid} (hg : mt.ndt = some g) (hb : 0 < mt.laserMaxBeams)
    {points : List Point} (hp : points ≠ []) (hn : points.length < 2 ^ 64) (x y : Fl) :
    mt.scorePointsF points ⟨x, y, .nan⟩ = .error .conversion := by
  unfold Matcher.scorePointsF
  simp only [hg]
  have hm : 0 < min mt.laserMaxBeams points.length := lt_min hb (List.length_pos_iff.mpr hp)
  obtain ⟨m, e⟩ : ∃ m, min mt.laserMaxBeams points.length = m + 1 := ⟨_, (Nat.succ_pred_eq_of_pos hm).symm⟩
  have hle : m + 1 ≤ points.length := e ▸ min_le_right _ _
  rw [e, List.range_succ_eq_map, List.foldlM_cons, beam_eq (Nat.succ_pos m) hle hn]
  have e1 : ∀ a b, Fl.nan.cos * .fin a + -Fl.nan.sin * .fin b + x = .nan := by
    intro a b; cases x <;> rfl
  have e2 : ∀ a b, Fl.nan.sin * .fin a + Fl.nan.cos * .fin b + y = .nan := by
    intro a b; cases y <;> rfl
  have e3 : g.likelihoodF .nan .nan = .error .conversion := by
    unfold NdtGrid.likelihoodF NdtGrid.getIndexF
    dsimp only
    rw [if_neg (show ¬ (Fl.nan < Fl.fin g.originX ∨ Fl.nan < Fl.fin g.originY) from not_or.mpr ⟨id, id⟩)]
    rfl
  simp only [Res.ok_bind, e1, e2, e3, Res.error_bind]

/-! ## Cases -/

example : Matcher.scorePointsF { Matcher.initialise 0.25 0.0025 0.1 0.005 0.05 100 10 with ndt := some ⟨0.25, 4, 4, 0, 0, []⟩ }
    [⟨1, 0⟩] ⟨.fin 0, .fin 0, .nan⟩ = .error .conversion :=
  c105_heading_not_a_number rfl (by norm_num [Matcher.initialise]) (by simp) (by simp) _ _

/-- The filter that the node makes with its default parameters exists, and has particles to draw. -/
example : ∃ f, FilterF.new ⟨0.2, 0.2, 0.2, 0.2, 0.2⟩ 100 500 = .ok f ∧ f.particles ≠ [] ∧ 0 < f.maxP ∧
    f.weights.length = f.particles.length := by
  obtain ⟨f, hf⟩ : ∃ f, FilterF.new ⟨0.2, 0.2, 0.2, 0.2, 0.2⟩ 100 500 = .ok f := FilterF.updateStatistics_ok (by simp)
  have hq := FilterF.updateStatistics_particles hf
  simp only [List.length_replicate] at hq
  refine ⟨f, hf, ?_, by rw [hq.2.1]; norm_num, ?_⟩
  · intro h
    have := congrArg List.length h
    rw [hq.1] at this
    simp at this
  · rw [hq.2.2.2.2, hq.1]; simp

/-- An initial pose with ordinary variances followed by a scan is such a history. -/
example (nrm : MotionModel.Draws) (mt : Matcher) (points : List Point) (draw : ℕ → ℕ) :
    NoNegativeVariance (.initMsg nrm ⟨1, 2, 0⟩ 0.25 0.25 0.07 :: scanOps nrm ⟨0.5, 0, 0⟩ mt points 0.01 2.3 draw) := by
  intro o ho
  simp only [scanOps, List.mem_cons, List.not_mem_nil, or_false] at ho
  rcases ho with rfl | rfl | rfl | rfl <;> norm_num

/-- A matcher without a map gives every particle a score. -/
example (points : List Point) : ∀ p, ∃ w, ({ Matcher.initialise 0.25 0.0025 0.1 0.005 0.05 100 10 with
    ndt := none } : Matcher).scorePointsF points p = .ok w := fun _ => ⟨_, rfl⟩

end

end Ndt
