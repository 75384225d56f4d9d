import Verif.Proof.NodeInv
import Verif.Proof.Ends
import Verif.Props.FilterProps
import Verif.Props.NodeProps

/-! # Helper lemmas: the particle filter inside the node -/

namespace Ndt

noncomputable section

open Spec Mapper

namespace Filter

theorem foldl_nan {α : Type} (l : List α) (g : α → Fl) : l.foldl (fun acc a => acc + g a) Fl.nan = .nan := by
  induction l with
  | nil => rfl
  | cons a l ih => rw [List.foldl_cons, Fl.nan_add, ih]

theorem foldl_mem_nan {α : Type} (l : List α) (g : α → Fl) (h : ∃ a ∈ l, g a = .nan) (s : Fl) :
    l.foldl (fun acc a => acc + g a) s = .nan := by
  induction l generalizing s with
  | nil => simp at h
  | cons a l ih =>
    rw [List.foldl_cons]
    by_cases ha : g a = .nan
    · rw [ha, Fl.add_nan, foldl_nan]
    · refine ih ?_ _
      obtain ⟨b, hb, e⟩ := h
      rcases List.mem_cons.mp hb with rfl | hb
      · exact absurd e ha
      · exact ⟨b, hb, e⟩

theorem sumWeights_nan {ws : List Fl} (h : Fl.nan ∈ ws) : sumWeights ws = .nan :=
  foldl_mem_nan ws id ⟨_, h, rfl⟩ _

/-- Weights that are all NaN make a mean that is NaN. -/
theorem mean_nan {g f : Filter} (h : g.updateStatistics = .ok f) (hw : ∀ w ∈ f.weights, w = .nan) (hp : f.particles ≠ []) :
    ∀ i, f.getMean i = .nan := by
  obtain ⟨-, -, -, e3, e4, hl, -⟩ := updateStatistics_ok h
  have hl' : f.particles.length ≤ f.weights.length := by rw [e3, e4, List.length_map]; exact hl
  have key : ∀ fn : Pose2d → ℝ, accum f.weights f.particles fn = .nan := by
    intro fn
    obtain ⟨p, ps, hps⟩ := List.exists_cons_of_ne_nil hp
    obtain ⟨w, ws, hws⟩ := List.exists_cons_of_ne_nil (l := f.weights) (by
      rintro e; rw [e, hps] at hl'; simp at hl')
    refine foldl_mem_nan _ (fun wp : Fl × Pose2d => wp.1 * .fin (fn wp.2)) ⟨(w, p), ?_, ?_⟩ _
    · rw [hps, hws]; simp
    · rw [hw w (by rw [hws]; simp)]; simp
  have hmean : f.mean = ![accum f.weights f.particles (·.x), accum f.weights f.particles (·.y),
      atan2F (accum f.weights f.particles fun p => Real.sin p.theta) (accum f.weights f.particles fun p => Real.cos p.theta)] := by
    unfold updateStatistics at h
    simp only at h
    split at h
    · cases h
    · cases h; rfl
  intro i
  unfold getMean
  rw [hmean, key, key, key, key]
  fin_cases i <;> simp [atan2F]

/-- Weights that are NaN, or all zero, cannot be normalised. -/
theorem normalise_nan {g f : Filter} (h : g.updateStatistics = .ok f)
    (hw : Fl.nan ∈ g.weights ∨ ∀ w ∈ g.weights, w = .fin 0) : ∀ w ∈ f.weights, w = .nan := by
  obtain ⟨-, -, -, -, e4, -, -⟩ := updateStatistics_ok h
  intro w hm
  rw [e4] at hm
  obtain ⟨x, hx, rfl⟩ := List.mem_map.mp hm
  rcases hw with hw | hw
  · rw [sumWeights_nan hw, Fl.div_nan]
  · have e : g.weights = (List.replicate g.weights.length (0 : ℝ)).map Fl.fin := by
      rw [List.map_replicate]
      exact List.eq_replicate_iff.mpr ⟨rfl, hw⟩
    rw [hw x hx]
    show Fl.fin 0 / Filter.sumWeights g.weights = _
    rw [show sumWeights g.weights = .fin 0 by rw [e, sumWeights_fin]; simp]
    exact Fl.zero_div_zero

/-- Scores that are NaN or in [-1, 0], if they give weights at all, give a distribution. -/
theorem normalise_scores {g f : Filter} (h : g.updateStatistics = .ok f)
    (hs : ∀ w ∈ g.weights, w = .nan ∨ ∃ x : ℝ, w = .fin x ∧ x ≤ 0) :
    (∀ w ∈ f.weights, w = .nan) ∨ Distribution f.weights := by
  by_cases hn : Fl.nan ∈ g.weights
  · exact Or.inl (normalise_nan h (Or.inl hn))
  by_cases h0 : ∀ w ∈ g.weights, w = .fin 0
  · exact Or.inl (normalise_nan h (Or.inr h0))
  right
  have hall : ∀ w ∈ g.weights, ∃ x : ℝ, w = .fin x ∧ x ≤ 0 := by
    intro w hw
    rcases hs w hw with e | e
    · rw [e] at hw; exact absurd hw hn
    · exact e
  have hv : AreNumbers g.weights (g.weights.map fun w => match w with | .fin x => x | _ => 0) := by
    unfold AreNumbers
    rw [List.map_map]
    conv_lhs => rw [← List.map_id g.weights]
    refine List.map_congr_left fun w hw => ?_
    obtain ⟨x, rfl, -⟩ := hall w hw
    rfl
  refine normalise_distribution h hv (Or.inr ?_) ?_
  · intro x hx
    obtain ⟨w, hw, rfl⟩ := List.mem_map.mp hx
    obtain ⟨y, rfl, hy⟩ := hall w hw
    exact hy
  · push Not at h0
    obtain ⟨w, hw, hne⟩ := h0
    obtain ⟨y, rfl, -⟩ := hall w hw
    exact ⟨y, List.mem_map.mpr ⟨_, hw, rfl⟩, fun e => hne (by rw [e])⟩

/-- Likewise for weights that are numbers and not negative. -/
theorem normalise_nonneg {g f : Filter} (h : g.updateStatistics = .ok f) {v : List ℝ} (hv : AreNumbers g.weights v)
    (hs : ∀ x ∈ v, 0 ≤ x) : (∀ w ∈ f.weights, w = .nan) ∨ Distribution f.weights := by
  by_cases h0 : ∃ x ∈ v, x ≠ 0
  · exact Or.inr (normalise_distribution h hv (Or.inl hs) h0)
  · left
    push Not at h0
    refine normalise_nan h (Or.inr fun w hw => ?_)
    rw [hv] at hw
    obtain ⟨x, hx, rfl⟩ := List.mem_map.mp hw
    rw [h0 x hx]

end Filter

theorem mapM_mem {α β : Type} (g : α → Res β) (l : List α) {r : List β} (h : l.mapM g = .ok r) :
    ∀ b ∈ r, ∃ a ∈ l, g a = .ok b := by
  induction l generalizing r with
  | nil => cases h; simp
  | cons a l ih =>
    rw [List.mapM_cons] at h
    obtain ⟨b, hb, h⟩ := bind_ok h
    obtain ⟨bs, hbs, h⟩ := bind_ok h
    cases h
    intro c hc
    rcases List.mem_cons.mp hc with rfl | hc
    · exact ⟨a, by simp, hb⟩
    · obtain ⟨a', ha', e⟩ := ih hbs c hc
      exact ⟨a', by simp [ha'], e⟩

namespace Filter

/-- What `measure` does. -/
theorem measure_ok {f f' : Filter} {score : Pose2d → Res Fl} (hl : f.weights.length = f.particles.length)
    (h : f.measure score = .ok f') :
    ∃ ws, f.particles.mapM score = .ok ws ∧ ws.length = f.particles.length ∧
      updateStatistics { f with weights := ws } = .ok f' := by
  unfold measure at h
  obtain ⟨ws, hws, h⟩ := bind_ok h
  rw [if_neg (by rw [hl]; omega), List.drop_eq_nil_of_le (le_of_eq hl), List.append_nil] at h
  exact ⟨ws, hws, mapM_length _ _ hws, h⟩

/-- Weights that became numbers were numbers before, up to a factor. -/
theorem weights_scale {g f : Filter} (h : g.updateStatistics = .ok f) {v : List ℝ} (hv : AreNumbers f.weights v)
    (hne : v ≠ []) (hg : ∀ w ∈ g.weights, w = .nan ∨ ∃ x : ℝ, w = .fin x) :
    ∃ S : ℝ, S ≠ 0 ∧ AreNumbers g.weights (v.map (S * ·)) ∧ S = (v.map (S * ·)).sum := by
  obtain ⟨-, -, -, -, e4, -, -⟩ := updateStatistics_ok h
  have hmem : ∀ w ∈ f.weights, ∃ x : ℝ, w = .fin x := by
    intro w hw
    rw [hv] at hw
    obtain ⟨x, -, rfl⟩ := List.mem_map.mp hw
    exact ⟨x, rfl⟩
  have hnn : Fl.nan ∉ g.weights := by
    intro hn
    obtain ⟨x, hx⟩ := hmem (.nan / sumWeights g.weights) (by rw [e4]; exact List.mem_map.mpr ⟨_, hn, rfl⟩)
    rw [Fl.nan_div] at hx
    cases hx
  obtain ⟨u, hu⟩ : ∃ u : List ℝ, g.weights = u.map Fl.fin := by
    refine ⟨g.weights.map fun w => match w with | .fin x => x | _ => 0, ?_⟩
    rw [List.map_map]
    conv_lhs => rw [← List.map_id g.weights]
    refine List.map_congr_left fun w hw => ?_
    rcases hg w hw with rfl | ⟨x, rfl⟩
    · exact absurd hw hnn
    · rfl
  have hS : u.sum ≠ 0 := by
    intro h0
    rw [hu, sumWeights_fin, h0, List.map_map] at e4
    cases u with
    | nil => rw [hv] at e4; simp at e4; exact hne e4
    | cons x u =>
      obtain ⟨y, hy⟩ := hmem (.fin x / .fin 0) (by rw [e4]; simp)
      rcases lt_trichotomy x 0 with hx | rfl | hx
      · rw [show (Fl.fin x / Fl.fin 0) = Fl.ninf by
          show Fl.div (.fin x) (.fin 0) = _
          simp [Fl.div, hx.ne, not_lt.mpr hx.le]] at hy
        cases hy
      · rw [Fl.zero_div_zero] at hy; cases hy
      · rw [Fl.pos_div_zero hx] at hy; cases hy
  have hvu : v = u.map (· / u.sum) := by
    have : v.map Fl.fin = (u.map (· / u.sum)).map Fl.fin := by
      rw [← hv, e4, hu, sumWeights_fin, List.map_map, List.map_map]
      refine List.map_congr_left fun x _ => ?_
      exact Fl.fin_div hS
    exact List.map_injective_iff.mpr (fun a b e => by injection e) this
  have hback : v.map (u.sum * ·) = u := by
    rw [hvu, List.map_map]
    conv_rhs => rw [← List.map_id u]
    refine List.map_congr_left fun x _ => ?_
    simp only [Function.comp, id]
    field_simp
  exact ⟨u.sum, hS, by rw [hback]; exact hu, by rw [hback]⟩

theorem mapM_get {α β : Type} (g : α → Res β) (l : List α) {r : List β} (h : l.mapM g = .ok r) (i : ℕ) {a : α}
    (ha : l[i]? = some a) : ∃ b, r[i]? = some b ∧ g a = .ok b := by
  induction l generalizing r i with
  | nil => simp at ha
  | cons x l ih =>
    rw [List.mapM_cons] at h
    obtain ⟨b, hb, h⟩ := bind_ok h
    obtain ⟨bs, hbs, h⟩ := bind_ok h
    cases h
    cases i with
    | zero => cases ha; exact ⟨b, rfl, hb⟩
    | succ i => exact ih hbs i ha

/-- Resampling particles without usable weights. -/
theorem resample_weights {f f' : Filter} {err z : ℝ} {draw : ℕ → ℕ} (h : f.resample err z draw = .ok f')
    (hw : (∀ w ∈ f.weights, w = .nan) ∨ Distribution f.weights) (hp : f'.particles ≠ []) :
    (∀ w ∈ f'.weights, w = .nan) ∨ Distribution f'.weights := by
  obtain ⟨rs, ws, kd, mx, hinv, -, -, -, hu⟩ := resample_ok h
  obtain ⟨-, -, -, e3, -⟩ := updateStatistics_ok hu
  have hmem : ∀ w ∈ ws, w ∈ f.weights := by
    intro w hw'
    obtain ⟨i, hi, rfl⟩ := List.getElem_of_mem hw'
    have := (hinv.drawn i (by rw [← hinv.len]; exact hi)).2
    rw [List.getElem?_eq_getElem hi] at this
    exact List.mem_of_getElem? this.symm
  rcases hw with hw | ⟨v, hv, hnn, -⟩
  · refine Or.inl (normalise_nan hu (Or.inl ?_))
    obtain ⟨w, ws', hws⟩ := List.exists_cons_of_ne_nil (l := ws) (by
      rintro rfl
      apply hp
      rw [e3]
      exact List.eq_nil_of_length_eq_zero hinv.len.symm)
    show Fl.nan ∈ ws
    rw [hws, hw w (hmem w (by rw [hws]; simp))]
    simp
  · have hall : ∀ w ∈ ws, ∃ x : ℝ, w = .fin x ∧ 0 ≤ x := by
      intro w hw'
      have := hmem w hw'
      rw [hv] at this
      obtain ⟨x, hx, rfl⟩ := List.mem_map.mp this
      exact ⟨x, rfl, hnn x hx⟩
    refine normalise_nonneg hu (v := ws.map fun w => match w with | .fin x => x | _ => 0) ?_ ?_
    · unfold AreNumbers
      rw [List.map_map]
      show ws = _
      conv_lhs => rw [← List.map_id ws]
      refine List.map_congr_left fun w hw => ?_
      obtain ⟨x, rfl, -⟩ := hall w hw
      rfl
    · intro x hx
      obtain ⟨w, hw, rfl⟩ := List.mem_map.mp hx
      obtain ⟨y, rfl, hy⟩ := hall w hw
      exact hy

end Filter

namespace Node

/-- The filter of the node has gone through a history of filter operations. -/
def FilterRun (np : NodeParams) (n : Node) : Prop :=
  ∀ f, n.filter = some f → ∃ ops, (Filter.new np.motion np.minP np.maxP >>= fun f => f.run ops) = .ok f

theorem Filter_snoc {m : MotionModel} {a b : ℕ} {ops : List Filter.Op} {f f' : Filter} {op : Filter.Op}
    (h : (Filter.new m a b >>= fun f => f.run ops) = .ok f) (hs : f.step op = .ok f') :
    (Filter.new m a b >>= fun f => f.run (ops ++ [op])) = .ok f' := by
  obtain ⟨f0, h0, h⟩ := bind_ok h
  rw [h0, Res.ok_bind, Filter.run_append, h, Res.ok_bind, hs]

theorem filterRun_step {np : NodeParams} {n n' : Node} {i : Input} (hI : FilterRun np n) (h : n.step np i = .ok n') :
    FilterRun np n' := by
  cases step_ntrans h with
  | stutter => exact hI
  | plain e s hc hw hl hm hs => exact hI
  | makes msg mount odom odomEnd r g s hm hr hg hs => exact hI
  | addWindow scan odom s l l' w hi hl hw ha hs => exact hI
  | loopMap q q' c s g g' w hi hi' hg hw ha hs => exact hI
  | localMatch junk scan odom l sc r s hi hl hsc hr hs => exact hI
  | globalMatch junk scan odom g sc r s hi hg hsc hr hs => exact hI
  | loopMatch junk q c g scan r s hi hg hscan hr hs => exact hI
  | filterScan nrm draw scan odom f f1 f2 f3 g mean s hi hf hg h1 h2 h3 h4 hs =>
    intro f' hf'
    cases hf'
    obtain ⟨ops, hops⟩ := hI f hf
    have k1 := Filter_snoc hops (op := .update nrm _ _ _) h1
    have k2 := Filter_snoc k1 (op := .measure _) h2
    have k3 := Filter_snoc k2 (op := .resample _ _ draw) h3
    exact ⟨_, k3⟩
  | poseInit msg odom visit nrm f f' s hi hf h1 hs =>
    intro f'' hf'
    cases hf'
    obtain ⟨ops, hops⟩ := hI f hf
    exact ⟨_, Filter_snoc hops (op := .init nrm _ _ _ _ _ _) h1⟩
  | pose msg odom visit nrm s hi hs => exact hI

/-- What a step of the filter does. -/
theorem filterScan_ok {np : NodeParams} {n n' : Node} {scan : Scan} {odom : Pose2d} (hi : n.sys.spin = .filter scan odom)
    {nrm : MotionModel.Draws} {draw : ℕ → ℕ} (h : n.step np (.filterScan nrm draw) = .ok n') :
    ∃ f g f1 f2 f3 mean, n.filter = some f ∧ n.globalN = some g ∧
      f.update nrm (control n.sys.prevRobot scan.pose).x (control n.sys.prevRobot scan.pose).y
        (control n.sys.prevRobot scan.pose).theta = .ok f1 ∧
      f1.measure (fun p => g.scorePoints scan.points p) = .ok f2 ∧ f2.resample np.kldErr np.kldZ draw = .ok f3 ∧
      meanPose f3 = .ok mean ∧ n' = { n with sys := { n.sys with spin := .finish mean odom }, filter := some f3 } := by
  simp only [Node.step, hi] at h
  cases hf : n.filter with
  | none => rw [hf] at h; cases h
  | some f =>
    cases hg : n.globalN with
    | none => rw [hf, hg] at h; cases h
    | some g =>
      rw [hf, hg] at h
      simp only at h
      split at h
      · cases h
      obtain ⟨f1, h1, h⟩ := bind_ok h
      obtain ⟨f2, h2, h⟩ := bind_ok h
      obtain ⟨f3, h3, h⟩ := bind_ok h
      obtain ⟨mean, h4, h⟩ := bind_ok h
      obtain ⟨m, hm, h⟩ := bind_ok h
      obtain ⟨s, hs, rfl⟩ := mapper_ok hm
      cases h
      simp only [Mapper.step, hi] at hs
      split at hs
      · cases hs
      · cases hs
        exact ⟨f, g, f1, f2, f3, mean, rfl, rfl, h1, h2, h3, h4, by rw [← hg]⟩

/-- And when it does so. -/
theorem step_filterScan {np : NodeParams} {n : Node} {scan : Scan} {odom : Pose2d} (hi : n.sys.spin = .filter scan odom)
    (hm : n.sys.globalM ≠ none) {nrm : MotionModel.Draws} {draw : ℕ → ℕ} {f f1 f2 f3 : Filter} {g : Matcher} {mean : Pose2d}
    (hf : n.filter = some f) (hg : n.globalN = some g)
    (hq : ¬ f.motion.NegativeNoise (control n.sys.prevRobot scan.pose)) (h1 : f.update nrm (control n.sys.prevRobot scan.pose).x (control n.sys.prevRobot scan.pose).y
        (control n.sys.prevRobot scan.pose).theta = .ok f1)
    (h2 : f1.measure (fun p => g.scorePoints scan.points p) = .ok f2) (h3 : f2.resample np.kldErr np.kldZ draw = .ok f3)
    (h4 : meanPose f3 = .ok mean) :
    n.step np (.filterScan nrm draw) =
      .ok { n with sys := { n.sys with spin := .finish mean odom }, filter := some f3 } := by
  simp only [Node.step, hi, hf, hg]
  rw [show scan.getPose = scan.pose from rfl, if_neg hq, h1, Res.ok_bind, show scan.getPoints = scan.points from rfl, h2, Res.ok_bind, h3,
    Res.ok_bind, h4, Res.ok_bind]
  unfold mapper
  simp only [Mapper.step, hi]
  rw [if_neg hm]
  simp only [Res.ok_bind]
  rw [hg]

theorem _root_.Ndt.Filter.run_motion {f f' : Filter} {ops : List Filter.Op} (h : f.run ops = .ok f') :
    f'.motion = f.motion := by
  induction ops generalizing f with
  | nil => cases h; rfl
  | cons o ops ih =>
    unfold Filter.run at h
    rw [List.foldlM_cons] at h
    obtain ⟨f1, h1, h⟩ := bind_ok h
    exact (ih h).trans (Filter.step_motion h1)

theorem filterRun_motion {m : MotionModel} {lo hi : ℕ} {ops : List Filter.Op} {f : Filter}
    (h : (Filter.new m lo hi >>= fun f => f.run ops) = .ok f) : f.motion = m := by
  obtain ⟨f0, h0, h⟩ := bind_ok h
  exact (Filter.run_motion h).trans (Filter.updateStatistics_ok h0).1

theorem filterRun_reach {np : NodeParams} {W : Graph → Prop} {A : Node → Input → Prop} {n : Node}
    (h : NodeReach np W A n) : FilterRun np n := by
  refine reach_inv h ?_ fun _ _ _ hI _ _ hs => filterRun_step hI hs
  intro enable file n0 hst _ f hf
  unfold Node.start at hst
  obtain ⟨s, hs, hst⟩ := bind_ok hst
  split at hst
  · obtain ⟨f0, h0, hst⟩ := bind_ok hst
    cases hst
    cases hf
    exact ⟨[], by rw [h0]; rfl⟩
  · cases hst; cases hf

theorem hasFilter_step {np : NodeParams} {n n' : Node} {i : Input} (hI : n.filter ≠ none) (h : n.step np i = .ok n') :
    n'.filter ≠ none := by
  cases step_ntrans h <;> first | exact hI | simp

/-- A node that is to use the filter has one. -/
theorem hasFilter_reach {np : NodeParams} {W : Graph → Prop} {A : Node → Input → Prop} {n : Node}
    (h : NodeReach np W A n) (hu : np.map.useFilter = true) : ∃ f, n.filter = some f := by
  refine Option.ne_none_iff_exists'.mp (reach_inv (I := fun n => n.filter ≠ none) h ?_ fun _ _ _ hI _ _ hs =>
    hasFilter_step hI hs)
  intro enable file n0 hst _
  unfold Node.start at hst
  obtain ⟨s, hs, hst⟩ := bind_ok hst
  rw [if_pos hu] at hst
  obtain ⟨f0, h0, hst⟩ := bind_ok hst
  cases hst
  simp

end Node

/-- While the filter is to be updated, the scan is where odometry predicts the robot. -/
def FilterPlace (s : Sys) : Prop :=
  ∀ scan odom, s.spin = .filter scan odom → s.scans ≠ [] → scan.pose = predict s.prevOdom s.prevRobot odom

/-- What concerns the scan that the filter is to be updated with. -/
theorem FilterPlace.frame {s s' : Sys} (h : FilterPlace s) (h1 : s'.spin = s.spin) (h2 : s.scans = [] → s'.scans = [])
    (h3 : s'.prevOdom = s.prevOdom) (h4 : s'.prevRobot = s.prevRobot) : FilterPlace s' := by
  intro scan odom hi hs
  rw [h3, h4]
  exact h scan odom (h1 ▸ hi) fun e => hs (h2 e)

/-- A place other than the filter's. -/
theorem FilterPlace.other {s : Sys} (h : ∀ scan odom, s.spin ≠ .filter scan odom) : FilterPlace s :=
  fun scan odom hi => absurd hi (h scan odom)

theorem filterPlace_step {p : Params} {s s' : Sys} {e : Event} (hI : FilterPlace s) (ht : Trans p s e s') :
    FilterPlace s' := by
  cases ht with
  | stutter => exact hI
  | laserIgnored msg mount odom odomEnd hi =>
    obtain ⟨r, l, g, m, e, -⟩ := setup_cases p msg mount s
    rw [e]; exact hI
  | laserScan msg mount odom odomEnd points hi hgo hinit ht =>
    obtain ⟨r, l, g, m, e, -⟩ := setup_cases p msg mount s
    rw [e]
    intro scan odom' hs hne
    have hne' : s.scans ≠ [] := hne
    have hs' : branch p s (((Scan.new s.scans.length).setPose (firstPose s odom)).setPoints points) odom =
      .filter scan odom' := hs
    unfold branch at hs'
    by_cases hf : p.useFilter = true
    · rw [if_pos hf] at hs'
      cases hs'
      show firstPose s odom = predict s.prevOdom s.prevRobot odom
      unfold firstPose; rw [if_neg hne']
    · rw [if_neg hf] at hs'
      split_ifs at hs'
  | configureFlags action bag hi hl =>
    obtain ⟨en, ini, e, -⟩ := configureMapping_frame action s
    rw [e]; exact hI
  | load action bag g hi hl hg =>
    obtain ⟨en, ini, e, -⟩ := configureMapping_frame action s
    rw [e]; exact .other fun scan odom h => by rw [show s.spin = _ from h] at hi; cases hi
  | loopAccept score correction cov q cand scan candidate hi hf hs h1 h2 =>
    refine hI.frame rfl (fun h => ?_) rfl rfl
    show setPoseAt s.heap q.scan _ s.epoch = []
    apply List.eq_nil_of_length_eq_zero
    rw [setPoseAt_len, h]; rfl
  | loopReject score correction cov q cand hi hs =>
    obtain ⟨n, l, e⟩ := afterAttempt_frame q s
    rw [e]; exact hI
  | loopPush q c hi =>
    obtain ⟨n, l, e⟩ := afterAttempt_frame q { s with constraints := s.constraints ++ [c], update := true }
    rw [e]; exact hI
  | loopOptimise ceres b solver scans hi ho =>
    refine hI.frame rfl (fun h => ?_) rfl rfl
    have hl := (optimize_same ho).length
    rw [h] at hl
    show (if s.epoch = s.epoch then scans else _) = []
    rw [if_pos rfl]
    exact List.eq_nil_of_length_eq_zero hl
  | pubTf hi =>
    obtain ⟨x, e⟩ := pubTf_frame s
    rw [e]; exact hI
  | _ => first
    | exact hI
    | exact .other (by simp)

theorem filterPlace_reach {np : NodeParams} {W : Graph → Prop} {A : Node → Input → Prop} {n : Node}
    (h : NodeReach np W A n) : FilterPlace n.sys := by
  refine Node.reach_inv (I := fun n => FilterPlace n.sys) h ?_ ?_
  · intro enable file n0 hst _
    obtain ⟨hs, -, -⟩ := Node.start_sys hst
    rcases start_cases hs with ⟨-, e⟩ | ⟨bag, g, -, -, e⟩ <;> rw [e] <;> exact .other (by simp [startWith])
  · intro n i n' hI _ _ hs
    rcases Node.step_does hs with rfl | ⟨e, he⟩
    · exact hI
    · exact filterPlace_step hI (step_trans he.ok)

end

end Ndt
