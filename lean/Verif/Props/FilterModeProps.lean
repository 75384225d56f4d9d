import Verif.Proof.DemoFilter

/-! # C82-C84: localisation with the particle filter -/

namespace Ndt

noncomputable section

open Real Spec Mapper

/-! ## C82 The filter moves with the odometry -/

/-- **C82** The motion that the filter is told, computed from where odometry predicts the robot in the map, is the motion of
the odometry: the pose and the heading in the map cancel. -/
theorem c82_control_is_odometry_motion (prevOdom prevRobot odom : Pose2d) :
    IsMotion prevOdom odom (Node.control prevRobot (predict prevOdom prevRobot odom)) := by
  have hc : cos (shortestAngularDistance prevOdom.theta prevRobot.theta) = cos (prevRobot.theta - prevOdom.theta) :=
    cos_normalizeAngle _
  have hs : sin (shortestAngularDistance prevOdom.theta prevRobot.theta) = sin (prevRobot.theta - prevOdom.theta) :=
    sin_normalizeAngle _
  have h1 := sin_sq_add_cos_sq prevRobot.theta
  have h2 := sin_sq_add_cos_sq prevOdom.theta
  refine ⟨⟨?_, ?_, ?_⟩, normalizeAngle_mem _⟩
  · simp only [compose, Node.control, predict, hc, hs, cos_sub, sin_sub]
    generalize cos prevRobot.theta = a at *
    generalize sin prevRobot.theta = b at *
    generalize cos prevOdom.theta = c at *
    generalize sin prevOdom.theta = d at *
    linear_combination (c * (c * (odom.x - prevOdom.x) + d * (odom.y - prevOdom.y)) -
      d * (-d * (odom.x - prevOdom.x) + c * (odom.y - prevOdom.y))) * h1 + (odom.x - prevOdom.x) * h2
  · simp only [compose, Node.control, predict, hc, hs, cos_sub, sin_sub]
    generalize cos prevRobot.theta = a at *
    generalize sin prevRobot.theta = b at *
    generalize cos prevOdom.theta = c at *
    generalize sin prevOdom.theta = d at *
    linear_combination (d * (c * (odom.x - prevOdom.x) + d * (odom.y - prevOdom.y)) +
      c * (-d * (odom.x - prevOdom.x) + c * (odom.y - prevOdom.y))) * h1 + (odom.y - prevOdom.y) * h2
  · simp only [compose, Node.control, predict, shortestAngularDistance]
    obtain ⟨i, hi⟩ := normalizeAngle_congr (odom.theta - prevOdom.theta)
    obtain ⟨j, hj⟩ := normalizeAngle_congr (prevRobot.theta + normalizeAngle (odom.theta - prevOdom.theta))
    obtain ⟨k, hk⟩ := normalizeAngle_congr
      (normalizeAngle (prevRobot.theta + normalizeAngle (odom.theta - prevOdom.theta)) - prevRobot.theta)
    refine ⟨i + j + k, ?_⟩
    rw [hk, hj, hi]
    push_cast
    ring

/-- **C82** (partial: when the map has a scan) Whatever happened before, the filter is updated with the motion of the
odometry since the last scan that was used, and what it holds afterwards are some of the particles that this motion gave. -/
theorem c82_filter_told_odometry_motion_partial (np : NodeParams) (W : Graph → Prop) (n n' : Node)
    (h : NodeReach np W Whatever n) {scan : Scan} {odom : Pose2d} (hi : n.sys.spin = .filter scan odom)
    (hne : n.sys.scans ≠ []) {nrm : MotionModel.Draws} {draw : ℕ → ℕ} (hs : n.step np (.filterScan nrm draw) = .ok n') :
    ∃ f f' m, n.filter = some f ∧ n'.filter = some f' ∧ IsMotion n.sys.prevOdom odom m ∧
      ∀ p ∈ f'.particles, p ∈ f.motion.sample nrm m.x m.y m.theta f.particles := by
  have hpl := filterPlace_reach h scan odom hi hne
  obtain ⟨f, g, f1, f2, f3, mean, hf, hg, h1, h2, h3, -, rfl⟩ := Node.filterScan_ok hi hs
  refine ⟨f, f3, _, hf, rfl, c82_control_is_odometry_motion n.sys.prevOdom n.sys.prevRobot odom, ?_⟩
  rw [hpl] at h1
  intro p hp
  have hp2 := (c25_resampled_particles_are_old h3).1 p hp
  obtain ⟨ws, -, h2⟩ := bind_ok h2
  split at h2
  · cases h2
  obtain ⟨-, -, -, e2, -⟩ := Filter.updateStatistics_ok h2
  obtain ⟨-, -, -, e1, -⟩ := Filter.updateStatistics_ok h1
  rw [e2] at hp2
  simp only [e1] at hp2
  exact hp2

/-- **C82** (partial: when the map has a scan) Without noise, and for motions of more than a centimetre, every particle of the
filter is one of the particles before, moved as the odometry says the robot moved. -/
theorem c82_noise_free_particles_follow_odometry_partial (np : NodeParams) (W : Graph → Prop) (n n' : Node)
    (h : NodeReach np W Whatever n) {scan : Scan} {odom : Pose2d} (hi : n.sys.spin = .filter scan odom)
    (hne : n.sys.scans ≠ []) (hd : 0.01 < Spec.dist ⟨n.sys.prevOdom.x, n.sys.prevOdom.y⟩ ⟨odom.x, odom.y⟩) {draw : ℕ → ℕ}
    (hs : n.step np (.filterScan noiseFree draw) = .ok n') :
    ∃ f f' m, n.filter = some f ∧ n'.filter = some f' ∧ SamePose (compose n.sys.prevOdom m) odom ∧
      ∀ q ∈ f'.particles, ∃ p ∈ f.particles, SamePose q (compose p m) := by
  obtain ⟨f, f', m, hf, hf', hm, hp⟩ := c82_filter_told_odometry_motion_partial np W n n' h hi hne hs
  refine ⟨f, f', m, hf, hf', hm.1, ?_⟩
  have hd' : 0.01 < hypot m.x m.y := by
    have e : hypot m.x m.y = Spec.dist ⟨n.sys.prevOdom.x, n.sys.prevOdom.y⟩ ⟨odom.x, odom.y⟩ := by
      obtain ⟨⟨ex, ey, -⟩, -⟩ := hm
      unfold hypot Spec.dist
      congr 1
      simp only [compose] at ex ey ⊢
      have h1 := sin_sq_add_cos_sq n.sys.prevOdom.theta
      rw [← ex, ← ey]
      linear_combination -(m.x ^ 2 + m.y ^ 2) * h1
    rw [e]; exact hd
  obtain ⟨hl, hall⟩ := c28_noise_free_motion_is_composition f.motion m.x m.y m.theta hd' f.particles
  intro q hq
  obtain ⟨i, hi', rfl⟩ := List.getElem_of_mem (hp q hq)
  have hi2 : i < f.particles.length := by rw [← hl]; exact hi'
  obtain ⟨e1, e2, -, e3⟩ := hall i _ _ (List.getElem?_eq_getElem hi2) (List.getElem?_eq_getElem hi')
  exact ⟨f.particles[i], List.getElem_mem _, e1, e2, e3⟩

/-- A node reaches a scan that its filter is to be updated with, and the filter follows the robot. -/
example : ∃ n n' scan odom f', NodeReach filterNode (fun _ => True) Whatever n ∧ n.sys.spin = .filter scan odom ∧
    n.sys.scans ≠ [] ∧ 0.01 < Spec.dist ⟨n.sys.prevOdom.x, n.sys.prevOdom.y⟩ ⟨odom.x, odom.y⟩ ∧
    n.step filterNode (.filterScan noiseFree fun _ => 0) = .ok n' ∧ n'.filter = some f' ∧
    f'.particles = [⟨2.5, 3.5, 0⟩] ∧ n'.sys.spin = .finish ⟨2.5, 3.5, 0⟩ odom := by
  obtain ⟨f, g, hr, hf, hg⟩ := pile_filtering (W := fun _ => True) trivial pileBeam pileBeam_points rfl
  obtain ⟨f', hf', hs⟩ := pile_step hf hg
  refine ⟨_, _, _, _, f', hr, rfl, ?_, ?_, hs, rfl, hf'.particles, rfl⟩
  · simp [pileFiltering, pileReady, pileSeen, pileStart, startWith, Sys.scans]
  · show 0.01 < Spec.dist ⟨0, 0⟩ ⟨1, 0⟩
    norm_num [Spec.dist]

/-- **C82** (refuted) With an empty map, loaded while the node is running, the filter of a robot that stands still is told to
move to the origin of the map: the scan is given the pose (0, 0, 0), and the motion is computed from it. -/
theorem c82_empty_map_moves_standing_robot : ∃ n scan f, NodeReach filterNode (fun _ => True) Whatever n ∧
    n.sys.spin = .filter scan n.sys.prevOdom ∧ n.filter = some f ∧ f.particles = [⟨1.5, 3.5, 0⟩] ∧
    Node.control n.sys.prevRobot scan.pose = ⟨-1.5, -3.5, 0⟩ ∧
    ¬ IsMotion n.sys.prevOdom n.sys.prevOdom (Node.control n.sys.prevRobot scan.pose) := by
  obtain ⟨n, f, hr, -, hi, ho, hrob, hf, hpf⟩ := pile_emptied
  have hz : normalizeAngle 0 = 0 := normalizeAngle_of_mem ⟨by linarith [pi_pos], pi_pos.le⟩
  have hc : Node.control n.sys.prevRobot Pose2d.zero = ⟨-1.5, -3.5, 0⟩ := by
    rw [hrob]; simp [Node.control, Pose2d.zero, shortestAngularDistance, hz]
  refine ⟨n, _, f, hr, by rw [ho]; exact hi, hf, hpf.particles, hc, ?_⟩
  rintro ⟨⟨h, -⟩, -⟩
  have hc' : (Node.control n.sys.prevRobot (((Scan.new 0).setPose Pose2d.zero).setPoints [⟨1, 0⟩]).pose) = ⟨-1.5, -3.5, 0⟩ := hc
  rw [hc', ho] at h
  norm_num [compose, Pose2d.zero] at h

/-! ## C83 The pose that the filter gives -/

/-- The weights that the scores of a scan give are all NaN, or a distribution. -/
theorem filter_weights {np : NodeParams} {n : Node} (ht : Node.Tied np n) {g : Matcher} (hg : n.globalN = some g)
    {points : List Point} (hn : points.length < 2 ^ 64) {f f' : Filter} (hl : f.weights.length = f.particles.length)
    (h : f.measure (fun p => g.scorePoints points p) = .ok f') : (∀ w ∈ f'.weights, w = .nan) ∨ Distribution f'.weights := by
  obtain ⟨ws, hws, -, hu⟩ := Filter.measure_ok hl h
  refine Filter.normalise_scores hu fun w hw => ?_
  obtain ⟨p, -, hp⟩ := mapM_mem _ _ hws w hw
  rcases ht.gmap g hg with hnone | ⟨m, -, r, hb⟩
  · unfold Matcher.scorePoints at hp
    rw [hnone] at hp
    cases hp
    exact Or.inr ⟨0, rfl, le_rfl⟩
  · rcases c18_score_any_map_partial hb points hn p hp with h | ⟨x, h, -, hx⟩
    · exact Or.inl h
    · exact Or.inr ⟨x, h, hx⟩

/-- **C83** (partial: when the step ends in a pose at all) The pose that a scan ends with is the mean of the particles under
weights that are a probability distribution; it lies in every box that holds the particles, and the number of particles is
within its limits. -/
theorem c83_pose_is_mean_of_particles_partial (np : NodeParams) (W : Graph → Prop) (n n' : Node)
    (h : NodeReach np W Whatever n) (hmin : 0 < np.minP) (hmax : 0 < np.maxP) {scan : Scan} {odom : Pose2d}
    (hi : n.sys.spin = .filter scan odom) (hn : scan.points.length < 2 ^ 64) {nrm : MotionModel.Draws} {draw : ℕ → ℕ}
    (hs : n.step np (.filterScan nrm draw) = .ok n') :
    ∃ f mean v, n'.filter = some f ∧ n'.sys.spin = .finish mean odom ∧
      AreNumbers f.weights v ∧ (∀ x ∈ v, 0 ≤ x) ∧ v.sum = 1 ∧
      mean.x = wmean v f.particles (·.x) ∧ mean.y = wmean v f.particles (·.y) ∧ -π < mean.theta ∧ mean.theta ≤ π ∧
      (∃ r : ℝ, 0 ≤ r ∧ r * cos mean.theta = wmean v f.particles (fun p => cos p.theta) ∧
        r * sin mean.theta = wmean v f.particles (fun p => sin p.theta)) ∧
      (∀ x0 x1 y0 y1 : ℝ, (∀ p ∈ f.particles, x0 ≤ p.x ∧ p.x ≤ x1 ∧ y0 ≤ p.y ∧ p.y ≤ y1) →
        x0 ≤ mean.x ∧ mean.x ≤ x1 ∧ y0 ≤ mean.y ∧ mean.y ≤ y1) ∧
      min np.minP np.maxP ≤ f.particles.length ∧ f.particles.length ≤ max np.minP np.maxP := by
  have hrun := Node.filterRun_reach h
  have hrun' : Node.FilterRun np n' := Node.filterRun_step hrun hs
  obtain ⟨f, g, f1, f2, f3, mean, hf, hg, h1, h2, h3, h4, rfl⟩ := Node.filterScan_ok hi hs
  obtain ⟨ops, hops⟩ := hrun f hf
  have hops1 := Node.Filter_snoc (op := .update nrm _ _ _) hops h1
  obtain ⟨-, -, hl1, -⟩ := c21_particle_count_within_limits _ _ _ _ hops1
  obtain ⟨ops3, hops3⟩ := hrun' f3 rfl
  obtain ⟨c1, c2, -⟩ := c21_particle_count_within_limits _ _ _ _ hops3
  have hne : f3.particles ≠ [] := by
    intro e
    rw [e] at c1
    simp at c1
    omega
  have hm : ∀ i, f3.getMean i ≠ .nan := by
    intro i hnan
    unfold Node.meanPose at h4
    fin_cases i <;> simp only [Fin.zero_eta, Fin.mk_one, Fin.reduceFinMk] at hnan <;> rw [hnan] at h4 <;> split at h4 <;>
      simp_all
  rcases Filter.resample_weights h3 (filter_weights (Node.tied_reach h) hg hn hl1 h2) hne with hnan | hd
  · obtain ⟨rs, ws, kd, mx, -, -, -, -, hu⟩ := Filter.resample_ok h3
    exact absurd (Filter.mean_nan hu hnan hne 0) (hm 0)
  · obtain ⟨v, hv, hpos, hsum⟩ := hd
    obtain ⟨e0, e1, ⟨t, e2, htm, hr⟩, -⟩ := c23_statistics_of_weighted_particles _ _ _ _ hops3 hv hsum
    have hmean : mean = ⟨wmean v f3.particles (·.x), wmean v f3.particles (·.y), t⟩ := by
      unfold Node.meanPose at h4
      rw [e0, e1, e2] at h4
      cases h4; rfl
    refine ⟨f3, mean, v, rfl, rfl, hv, hpos, hsum, by rw [hmean], by rw [hmean], by rw [hmean]; exact htm.1,
      by rw [hmean]; exact htm.2, by rw [hmean]; exact hr, ?_, c1, c2⟩
    intro x0 x1 y0 y1 hb
    obtain ⟨mx, my, hx, hy, hbox⟩ := c23_mean_in_bounding_box _ _ _ _ hops3 ⟨v, hv, hpos, hsum⟩ x0 x1 y0 y1 hb
    rw [e0] at hx; rw [e1] at hy
    cases hx; cases hy
    rw [hmean]; exact hbox

/-- **C83** (partial: likewise) The weight of every particle is proportional to how well the scan, seen from that particle, fits
the map: scores are negative, so is the factor. -/
theorem c83_weights_are_scores_partial (np : NodeParams) (W : Graph → Prop) (n n' : Node)
    (h : NodeReach np W Whatever n) (hmin : 0 < np.minP) (hmax : 0 < np.maxP) {scan : Scan} {odom : Pose2d}
    (hi : n.sys.spin = .filter scan odom) (hn : scan.points.length < 2 ^ 64) {nrm : MotionModel.Draws} {draw : ℕ → ℕ}
    (hs : n.step np (.filterScan nrm draw) = .ok n') :
    ∃ f g v c, n'.filter = some f ∧ n.globalN = some g ∧ AreNumbers f.weights v ∧ v.length = f.particles.length ∧
      v.sum = 1 ∧ c < 0 ∧ ∀ (i : ℕ) p, f.particles[i]? = some p → ∃ w, v[i]? = some w ∧ 0 ≤ w ∧
        g.scorePoints scan.points p = .ok (.fin (c * w)) := by
  obtain ⟨f3, mean, v, hf3, -, hv, hpos, hsum, -, -, -, -, -, -, c1, -⟩ :=
    c83_pose_is_mean_of_particles_partial np W n n' h hmin hmax hi hn hs
  have hrun := Node.filterRun_reach h
  have hrun' : Node.FilterRun np n' := Node.filterRun_step hrun hs
  obtain ⟨f, g, f1, f2, f3', mean', hf, hg, h1, h2, h3, -, rfl⟩ := Node.filterScan_ok hi hs
  cases hf3
  obtain ⟨ops, hops⟩ := hrun f hf
  obtain ⟨-, -, hl1, -⟩ := c21_particle_count_within_limits _ _ _ _ (Node.Filter_snoc (op := .update nrm _ _ _) hops h1)
  obtain ⟨ops3, hops3⟩ := hrun' f3 rfl
  obtain ⟨-, -, hl3, -⟩ := c21_particle_count_within_limits _ _ _ _ hops3
  have hvl : v.length = f3.particles.length := by rw [← hl3, hv, List.length_map]
  have hvne : v ≠ [] := by rintro rfl; simp at hsum
  have hne : f3.particles ≠ [] := by
    intro e; rw [e] at hvl; exact hvne (List.eq_nil_of_length_eq_zero hvl)
  obtain ⟨rs, ws, kd, mx, hinv, -, -, -, hu⟩ := Filter.resample_ok h3
  obtain ⟨-, -, -, e3, -⟩ := Filter.updateStatistics_ok hu
  have hdw : ∀ w ∈ ws, w ∈ f2.weights := by
    intro w hw'
    obtain ⟨i, hi, rfl⟩ := List.getElem_of_mem hw'
    have := (hinv.drawn i (by rw [← hinv.len]; exact hi)).2
    rw [List.getElem?_eq_getElem hi] at this
    exact List.mem_of_getElem? this.symm
  obtain ⟨ws0, hws0, hlw0, hu2⟩ := Filter.measure_ok hl1 h2
  obtain ⟨-, -, -, e2, -⟩ := Filter.updateStatistics_ok hu2
  have hscore : ∀ w ∈ ws0, w = .nan ∨ ∃ x : ℝ, w = .fin x ∧ x ≤ 0 := by
    intro w hw
    obtain ⟨p, -, hp⟩ := mapM_mem _ _ hws0 w hw
    rcases (Node.tied_reach h).gmap g hg with hnone | ⟨m, -, r, hb⟩
    · unfold Matcher.scorePoints at hp
      rw [hnone] at hp
      cases hp
      exact Or.inr ⟨0, rfl, le_rfl⟩
    · rcases c18_score_any_map_partial hb scan.points hn p hp with h | ⟨x, h, -, hx⟩
      · exact Or.inl h
      · exact Or.inr ⟨x, h, hx⟩
  obtain ⟨v2, hv2, hpos2, hsum2⟩ : Distribution f2.weights := by
    rcases filter_weights (Node.tied_reach h) hg hn hl1 h2 with hnan | hd
    · exfalso
      have hw3 : ∀ w ∈ f3.weights, w = .nan := by
        refine Filter.normalise_nan hu (Or.inl ?_)
        obtain ⟨w, ws', hws⟩ := List.exists_cons_of_ne_nil (l := ws) (by
          rintro rfl
          apply hne
          rw [e3]
          exact List.eq_nil_of_length_eq_zero hinv.len.symm)
        show Fl.nan ∈ ws
        rw [hws, hnan w (hdw w (by rw [hws]; simp))]
        simp
      obtain ⟨x, v', rfl⟩ := List.exists_cons_of_ne_nil hvne
      have := hw3 (.fin x) (by rw [hv]; simp)
      cases this
    · exact hd
  have hv2ne : v2 ≠ [] := by rintro rfl; simp at hsum2
  obtain ⟨S, hS, hA, hSs⟩ := Filter.weights_scale hu2 hv2 hv2ne fun w hw => (hscore w hw).imp id fun ⟨x, hx, _⟩ => ⟨x, hx⟩
  obtain ⟨T, hT, hB, hTs⟩ := Filter.weights_scale hu hv hvne fun w hw => by
    have := hdw w hw
    rw [hv2] at this
    obtain ⟨x, -, rfl⟩ := List.mem_map.mp this
    exact Or.inr ⟨x, rfl⟩
  have hA' : ws0 = (v2.map (S * ·)).map Fl.fin := hA
  have hB' : ws = (v.map (T * ·)).map Fl.fin := hB
  have hS' : S < 0 := by
    refine lt_of_le_of_ne ?_ hS
    rw [hSs]
    have hle : ∀ l : List ℝ, (∀ x ∈ l, x ≤ 0) → l.sum ≤ 0 := by
      intro l hl
      induction l with
      | nil => simp
      | cons x l ih =>
        rw [List.sum_cons]
        exact add_nonpos (hl x (by simp)) (ih fun y hy => hl y (by simp [hy]))
    refine hle _ fun x hx => ?_
    rcases hscore (.fin x) (by rw [hA']; exact List.mem_map.mpr ⟨x, hx, rfl⟩) with h | ⟨y, h, hy⟩
    · cases h
    · cases h; exact hy
  have hT' : 0 < T := by
    refine lt_of_le_of_ne ?_ hT.symm
    rw [hTs]
    refine List.sum_nonneg fun x hx => ?_
    have := hdw (.fin x) (by rw [hB']; exact List.mem_map.mpr ⟨x, hx, rfl⟩)
    rw [hv2] at this
    obtain ⟨y, hy, e⟩ := List.mem_map.mp this
    cases e
    exact hpos2 _ hy
  refine ⟨f3, g, v, S * T, rfl, hg, hv, hvl, hsum, mul_neg_of_neg_of_pos hS' hT', ?_⟩
  intro i p hp
  have hir : i < rs.length := by
    have : i < f3.particles.length := (List.getElem?_eq_some_iff.mp hp).1
    rw [e3] at this; exact this
  obtain ⟨d1, d2⟩ := hinv.drawn i hir
  have hp' : rs[i]? = some p := by rw [e3] at hp; exact hp
  rw [hp'] at d1
  obtain ⟨w, hw⟩ : ∃ w, v[i]? = some w := by
    rw [List.getElem?_eq_getElem (by rw [hvl, e3]; exact hir)]; exact ⟨_, rfl⟩
  refine ⟨w, hw, hpos w (List.mem_of_getElem? hw), ?_⟩
  rw [e2] at d1
  obtain ⟨b, hb, hsc⟩ := Filter.mapM_get _ _ hws0 (draw i) d1.symm
  have hsc' : g.scorePoints scan.points p = .ok b := hsc
  rw [hsc']
  rw [hA', List.getElem?_map, List.getElem?_map] at hb
  rw [hB', List.getElem?_map, List.getElem?_map, hw, hv2, List.getElem?_map] at d2
  cases hk : v2[draw i]? with
  | none => rw [hk] at d2; simp at d2
  | some y =>
    rw [hk] at d2 hb
    simp only [Option.map_some, Option.some.injEq, Fl.fin.injEq] at d2 hb
    rw [← hb, ← d2, mul_assoc]

/-- The hypotheses are met. -/
example : ∃ n n' scan odom, NodeReach filterNode (fun _ => True) Whatever n ∧ 0 < filterNode.minP ∧ 0 < filterNode.maxP ∧
    n.sys.spin = .filter scan odom ∧ scan.points.length < 2 ^ 64 ∧
    n.step filterNode (.filterScan noiseFree fun _ => 0) = .ok n' ∧ n'.sys.spin = .finish ⟨2.5, 3.5, 0⟩ odom := by
  obtain ⟨f, g, hr, hf, hg⟩ := pile_filtering (W := fun _ => True) trivial pileBeam pileBeam_points rfl
  obtain ⟨f', hf', hs⟩ := pile_step hf hg
  exact ⟨_, _, _, _, hr, by decide, by decide, rfl, by norm_num [Scan.setPoints], hs, rfl⟩

/-- **C83** (refuted) A scan without a usable beam makes the filter's mean NaN, from a filter that knew the pose exactly: every
particle's score is 0 / 0, so is every weight. The node goes on with this mean as the pose of the robot (the model stops). -/
theorem c83_scan_without_beams_gives_nan : ∃ n scan odom f g, NodeReach filterNode (fun _ => True) Whatever n ∧
    n.sys.spin = .filter scan odom ∧ n.filter = some f ∧ n.globalN = some g ∧ Distribution f.weights ∧
    f.particles = [⟨1.5, 3.5, 0⟩] ∧
    (∃ f1 f2 f3, f.update noiseFree (Node.control n.sys.prevRobot scan.pose).x (Node.control n.sys.prevRobot scan.pose).y
        (Node.control n.sys.prevRobot scan.pose).theta = .ok f1 ∧
      f1.measure (fun p => g.scorePoints scan.points p) = .ok f2 ∧
      f2.resample filterNode.kldErr filterNode.kldZ (fun _ => 0) = .ok f3 ∧ ∀ i, f3.getMean i = .nan) ∧
    n.step filterNode (.filterScan noiseFree fun _ => 0) = .error .unmodelled := by
  obtain ⟨f, g, hr, hf, hg⟩ := pile_filtering (W := fun _ => True) trivial noBeams (noBeams_points _ _ _ _) rfl
  obtain ⟨f1, f2, f3, h1, h2, h3, hne⟩ := pile_blind g hf
  have hnan : ∀ i, f3.getMean i = .nan := by
    obtain ⟨rs, ws, kd, mx, hinv, -, -, -, hu⟩ := Filter.resample_ok h3
    refine Filter.mean_nan hu ?_ hne
    have hf1 := pile_update hf
    obtain ⟨f1', h1', hf1'⟩ := hf1
    rw [h1] at h1'; cases h1'
    obtain ⟨ws2, hws2, hl2, hu2⟩ := Filter.measure_ok (by rw [hf1'.weights, hf1'.particles]; rfl) h2
    have hw2 : ∀ w ∈ f2.weights, w = .nan := by
      refine Filter.normalise_nan hu2 (Or.inl ?_)
      rw [hf1'.particles, List.mapM_cons, pile_noScore] at hws2
      cases hws2
      simp
    refine Filter.normalise_nan hu (Or.inl ?_)
    have hl3 : 0 < ws.length := by
      rw [hinv.len]
      obtain ⟨-, -, -, e3, -⟩ := Filter.updateStatistics_ok hu
      exact List.length_pos_of_ne_nil (by rw [e3] at hne; exact hne)
    obtain ⟨i, hi⟩ : ∃ i, f2.weights[i]? = ws[0]? := ⟨_, (hinv.drawn 0 (by rw [← hinv.len]; exact hl3)).2.symm⟩
    rw [List.getElem?_eq_getElem hl3] at hi
    have := hw2 _ (List.mem_of_getElem? hi)
    show Fl.nan ∈ ws
    rw [← this]
    exact List.getElem_mem hl3
  have h1' : f.update noiseFree (Node.control ⟨1.5, 3.5, 0⟩ ⟨2.5, 3.5, 0⟩).x (Node.control ⟨1.5, 3.5, 0⟩ ⟨2.5, 3.5, 0⟩).y
      (Node.control ⟨1.5, 3.5, 0⟩ ⟨2.5, 3.5, 0⟩).theta = .ok f1 := by
    rw [pile_control]; exact h1
  refine ⟨pileFiltering [] f g, _, _, f, _, hr, rfl, rfl, rfl, ⟨[1], hf.weights, by simp, by simp⟩, hf.particles,
    ⟨f1, f2, f3, h1', h2, h3, hnan⟩, ?_⟩
  show (if f.motion.NegativeNoise (Node.control ⟨1.5, 3.5, 0⟩ ⟨2.5, 3.5, 0⟩) then .error .unmodelled else do
      let f ← f.update noiseFree (Node.control ⟨1.5, 3.5, 0⟩ ⟨2.5, 3.5, 0⟩).x (Node.control ⟨1.5, 3.5, 0⟩ ⟨2.5, 3.5, 0⟩).y
        (Node.control ⟨1.5, 3.5, 0⟩ ⟨2.5, 3.5, 0⟩).theta
      let f ← f.measure fun p => (pileMatcher (some g)).scorePoints [] p
      let f ← f.resample 0.01 2.3 fun _ => 0
      let mean ← Node.meanPose f
      let n' ← (pileFiltering [] _ g).mapper filterNode (.filtered mean)
      .ok { n' with filter := some f } : Res Node) = _
  rw [if_neg (pile_quiet hf _), h1', Res.ok_bind, h2, Res.ok_bind, h3, Res.ok_bind]
  unfold Node.meanPose
  rw [hnan 0]
  rfl

/-! ## C84 An initial pose -/

/-- A weighted mean over equal particles. -/
theorem wmean_same (v : List ℝ) (ps : List Pose2d) (hl : v.length = ps.length) (hs : v.sum = 1) (q : Pose2d)
    (hq : ∀ p ∈ ps, p = q) (fn : Pose2d → ℝ) : wmean v ps fn = fn q := by
  rw [show wmean v ps fn = wmean v ps fun _ => fn q from ?_, wmean_const v ps hl, hs, one_mul]
  unfold wmean
  congr 1
  refine List.map_congr_left fun wp hwp => ?_
  rw [hq wp.2 (List.of_mem_zip hwp).2]

/-- **C84** An initial pose, given in the map frame while the robot is not mapping, makes a new filter, whatever became of the
old one: as many particles, each drawn around the pose with the message's standard deviations, and equal weights. The robot is
where the message says, and the node is localised. -/
theorem c84_initial_pose_recentres_filter (np : NodeParams) (W : Graph → Prop) (n : Node) (h : NodeReach np W Whatever n)
    (hmin : 0 < np.minP) (hmax : 0 < np.maxP) (hu : np.map.useFilter = true) (hi : n.sys.spin = .idle) (msg : PoseMsg)
    (odom : Pose2d) (visit : List ℕ) (nrm : MotionModel.Draws) (hv : visit.Perm (List.range n.sys.scans.length))
    (he : n.sys.enable = false ∨ n.sys.initialized = false) (hm : msg.inMap = true)
    (hvar : 0 ≤ msg.covX ∧ 0 ≤ msg.covY ∧ 0 ≤ msg.covTheta) :
    ∃ f f', n.filter = some f ∧
      n.run np [.pose msg (some odom) visit nrm, .plain .setRobot, .plain .setOdom] =
        .ok { n with sys := { n.sys with prevRobot := msg.pose, prevOdom := odom, initialized := true }, filter := some f' } ∧
      0 < f'.particles.length ∧ f'.particles.length = f.particles.length ∧
      (∀ i p, f'.particles[i]? = some p → p.x = nrm (3 * i) msg.pose.x (sqrt msg.covX) ∧
        p.y = nrm (3 * i + 1) msg.pose.y (sqrt msg.covY) ∧
        ∃ k : ℤ, p.theta = nrm (3 * i + 2) msg.pose.theta (sqrt msg.covTheta) + k * (2 * π)) ∧
      f'.weights = List.replicate f'.particles.length (.fin (1 / f'.particles.length)) ∧
      ((∀ k m, nrm k m 0 = m) → msg.covX = 0 → msg.covY = 0 → msg.covTheta = 0 →
        ∃ mean, Node.meanPose f' = .ok mean ∧ SamePose mean msg.pose) := by
  obtain ⟨f, hf⟩ := Node.hasFilter_reach h hu
  obtain ⟨ops, hops⟩ := Node.filterRun_reach h f hf
  obtain ⟨c1, c2, -⟩ := c21_particle_count_within_limits _ _ _ _ hops
  have hpos : 0 < f.particles.length := by omega
  obtain ⟨f', h1⟩ : ∃ f', f.init nrm msg.pose.x msg.pose.y msg.pose.theta (sqrt msg.covX) (sqrt msg.covY)
      (sqrt msg.covTheta) = .ok f' := by
    unfold Filter.init
    exact Filter.updateStatistics_total (by simp)
  have hopsf := Node.Filter_snoc (op := .init nrm _ _ _ _ _ _) hops h1
  obtain ⟨-, -, -, e3, e4, -, -⟩ := Filter.updateStatistics_ok h1
  have hlen : f'.particles.length = f.particles.length := by rw [e3]; simp
  have hn0 : (f'.particles.length : ℝ) ≠ 0 := by rw [hlen]; exact_mod_cast hpos.ne'
  have hw : f'.weights = List.replicate f'.particles.length (.fin (1 / f'.particles.length)) := by
    have hin : (List.mapIdx (fun i _ => (⟨nrm (3 * i) msg.pose.x (sqrt msg.covX), nrm (3 * i + 1) msg.pose.y (sqrt msg.covY),
        normalizeAngle (nrm (3 * i + 2) msg.pose.theta (sqrt msg.covTheta))⟩ : Pose2d)) f.particles).length =
        f'.particles.length := by rw [hlen, List.length_mapIdx]
    rw [e4]
    simp only [hin]
    rw [Fl.fin_div hn0, List.map_replicate]
    congr 1
    have := Filter.sumWeights_fin (List.replicate f'.particles.length (1 / (f'.particles.length : ℝ)))
    rw [List.map_replicate, List.sum_replicate, nsmul_eq_mul, mul_one_div_cancel hn0] at this
    rw [this, Fl.fin_div one_ne_zero, div_one]
  have hpart : ∀ (i : ℕ) (p : Pose2d), f'.particles[i]? = some p → p.x = nrm (3 * i) msg.pose.x (sqrt msg.covX) ∧
        p.y = nrm (3 * i + 1) msg.pose.y (sqrt msg.covY) ∧
        p.theta = normalizeAngle (nrm (3 * i + 2) msg.pose.theta (sqrt msg.covTheta)) := by
    intro i p hp
    rw [e3] at hp
    simp only [List.getElem?_mapIdx, Option.map_eq_some_iff] at hp
    obtain ⟨a, -, rfl⟩ := hp
    exact ⟨rfl, rfl, rfl⟩
  refine ⟨f, f', hf, ?_, by omega, hlen, ?_, hw, ?_⟩
  · have hin : Node.initsFilter np n msg (some odom) visit :=
      ⟨hi, hv, by rcases he with e | e <;> simp [e], hm, by simp, hu⟩
    have hs : Node.step np n (.pose msg (some odom) visit nrm) =
        .ok { n with sys := { n.sys with spin := .poseRobot msg.pose odom }, filter := some f' } := by
      show (if Node.initsFilter _ _ _ _ _ then _ else _) = _
      rw [if_pos hin]
      simp only [hf]
      rw [if_neg (by rintro (h | h | h) <;> linarith [hvar.1, hvar.2.1, hvar.2.2]), h1, Res.ok_bind]
      unfold Node.mapper
      have : Mapper.step np.map n.sys (.pose msg (some odom) visit) = .ok { n.sys with spin := .poseRobot msg.pose odom } := by
        simp only [Mapper.step, hi]
        rw [if_pos (show Visits visit n.sys.scans.length from hv)]
        unfold poseCallback
        rw [if_neg (by rw [hin.2.2.1]; simp), if_neg (by simp [hm])]
        simp only
        rw [if_pos hu]
      rw [this]
      rfl
    have hid : n.sys.spin = .idle := hi
    rw [Node.run_cons, hs, Res.ok_bind]
    show (Except.ok _ : Res Node) = _
    simp only [Except.ok.injEq]
    cases n with
    | mk sys g l fl =>
      cases sys
      simp only at hid
      subst hid
      rfl
  · intro i p hp
    obtain ⟨a, b, c⟩ := hpart i p hp
    obtain ⟨k, hk⟩ := normalizeAngle_congr (nrm (3 * i + 2) msg.pose.theta (sqrt msg.covTheta))
    exact ⟨a, b, k, by rw [c, hk]⟩
  · intro hnf hx hy ht
    have hall : ∀ p ∈ f'.particles, p = ⟨msg.pose.x, msg.pose.y, normalizeAngle msg.pose.theta⟩ := by
      intro p hp
      obtain ⟨i, hp⟩ := List.getElem?_of_mem hp
      obtain ⟨a, b, c⟩ := hpart i p hp
      rw [hx, sqrt_zero, hnf] at a
      rw [hy, sqrt_zero, hnf] at b
      rw [ht, sqrt_zero, hnf] at c
      cases p
      simp_all
    have hv : AreNumbers f'.weights (List.replicate f'.particles.length (1 / (f'.particles.length : ℝ))) := by
      unfold AreNumbers
      rw [hw, List.map_replicate]
    have hsum : (List.replicate f'.particles.length (1 / (f'.particles.length : ℝ))).sum = 1 := by
      rw [List.sum_replicate, nsmul_eq_mul, mul_one_div_cancel hn0]
    obtain ⟨m0, m1, ⟨t, m2, -, r, hr, hc, hsn⟩, -⟩ := c23_statistics_of_weighted_particles _ _ _ _ hopsf hv hsum
    rw [wmean_same _ _ (by simp) hsum _ hall] at m0 m1 hc hsn
    rw [cos_normalizeAngle] at hc
    rw [sin_normalizeAngle] at hsn
    have hr1 : r = 1 := by
      have h1 := sin_sq_add_cos_sq t
      have h2 := sin_sq_add_cos_sq msg.pose.theta
      rw [← hc, ← hsn] at h2
      have h3 : r ^ 2 = 1 := by linear_combination h2 - r ^ 2 * h1
      exact (pow_eq_one_iff_of_nonneg hr two_ne_zero).mp h3
    rw [hr1, one_mul] at hc hsn
    refine ⟨⟨msg.pose.x, msg.pose.y, t⟩, ?_, rfl, rfl, congr_of_cos_sin hc hsn⟩
    unfold Node.meanPose
    rw [m0, m1, m2]

/-- **C84** A pose while mapping, in another frame, or without odometry changes nothing. -/
theorem c84_other_poses_change_nothing (np : NodeParams) (n : Node) (msg : PoseMsg) (odom : Option Pose2d) (visit : List ℕ)
    (nrm : MotionModel.Draws)
    (h : (n.sys.enable = true ∧ n.sys.initialized = true) ∨ msg.inMap = false ∨ odom = none) :
    n.step np (.pose msg odom visit nrm) = .ok n := by
  have hno : ¬ Node.initsFilter np n msg odom visit := by
    rintro ⟨-, -, h1, h2, h3, -⟩
    rcases h with ⟨a, b⟩ | h | h
    · simp [a, b] at h1
    · rw [h] at h2; cases h2
    · exact h3 h
  show (if Node.initsFilter _ _ _ _ _ then _ else _) = _
  rw [if_neg hno]
  unfold Node.mapper
  have hs : Mapper.step np.map n.sys (.pose msg odom visit) = .ok n.sys := by
    simp only [Mapper.step]
    split
    swap
    · rfl
    split
    swap
    · rfl
    unfold poseCallback
    rcases h with ⟨a, b⟩ | h | h
    · rw [if_pos (by simp [a, b])]
    · split
      · rfl
      · rw [if_pos (by simp [h])]
    · subst h
      split
      · rfl
      · split <;> rfl
  rw [hs]
  rfl

/-- The hypotheses are met. -/
example : ∃ n, NodeReach filterNode (fun _ => True) Whatever n ∧ 0 < filterNode.minP ∧ 0 < filterNode.maxP ∧
    filterNode.map.useFilter = true ∧ n.sys.spin = .idle ∧ [0].Perm (List.range n.sys.scans.length) ∧ n.sys.enable = false ∧
    pilePose.inMap = true ∧ (∀ k m, noiseFree k m 0 = m) ∧ pilePose.covX = 0 ∧ pilePose.covY = 0 ∧ pilePose.covTheta = 0 ∧
    n.sys.prevRobot ≠ pilePose.pose := by
  obtain ⟨g, hg, -⟩ := pileMap
  obtain ⟨n0, f0, h0, hf0, h1⟩ := run_pile hg
  refine ⟨⟨pileSeen, some (pileMatcher (some g)), some (pileMatcher none), some f0⟩,
    ⟨false, some pileBag, n0, [.plain (beamLaser Pose2d.zero)], h0, by simp, ?_⟩, by decide, by decide, rfl, rfl, ?_, rfl, rfl,
    fun _ _ => rfl, rfl, rfl, rfl, ?_⟩
  · exact Node.exec_of_run _ (by rw [Node.run_cons, h1, Res.ok_bind]; rfl) fun n i hi => ⟨trivial, fun _ _ _ _ _ => trivial⟩
  · simp [pileSeen, pileStart, startWith, Sys.scans]
  · intro h
    have := congrArg Pose2d.x h
    norm_num [pileSeen, pileStart, startWith, pilePose, Pose2d.zero] at this

end

end Ndt
