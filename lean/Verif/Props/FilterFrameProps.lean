import Verif.Proof.FilterFrame
import Verif.Props.FilterModeProps
import Verif.Props.SymmetryProps
import Verif.Props.ResampleProps

/-! # C116, C117: the mean heading is among the particles, and the filter does not depend on the frame -/

namespace Ndt

noncomputable section

open Spec Real

/-! ## C116 The mean heading -/

/-- **C116** In every reachable state with weights that form a distribution: if all particles face within less than a quarter
turn of some direction, so does the mean. -/
theorem c116_mean_heading_in_arc (m : MotionModel) (minP maxP : ℕ) (ops : List Filter.Op) {f : Filter}
    (h : (Filter.new m minP maxP >>= fun f => f.run ops) = .ok f) (hd : Distribution f.weights) {a phi : ℝ}
    (ha : a < π / 2) (hf : FacingWithin a phi f.particles) :
    ∃ t : ℝ, f.getMean 2 = .fin t ∧ (-π < t ∧ t ≤ π) ∧ angularDistance phi t ≤ a := by
  obtain ⟨v, hv, hnn, hs⟩ := hd
  obtain ⟨-, -, ⟨t, ht, hm, r, hr, hc, hsn⟩, -⟩ := c23_statistics_of_weighted_particles m minP maxP ops h hv hs
  obtain ⟨-, -, hlen, -⟩ := c21_particle_count_within_limits m minP maxP ops h
  have hl : v.length = f.particles.length := by rw [← hlen, hv, List.length_map]
  exact ⟨t, ht, hm, FilterFrame.mean_in_arc hl hnn hs ha hf hr hc hsn⟩

/-- **C116** The heading of the robot after a scan in filter mode is among those of the particles: if all of them face within
less than a quarter turn of some direction, so does the robot. -/
theorem c116_robot_faces_with_its_particles (np : NodeParams) (W : Graph → Prop) (n n' : Node)
    (h : NodeReach np W Whatever n) (hmin : 0 < np.minP) (hmax : 0 < np.maxP) {scan : Scan} {odom : Pose2d}
    (hi : n.sys.spin = .filter scan odom) (hn : scan.points.length < 2 ^ 64) {nrm : MotionModel.Draws} {draw : ℕ → ℕ}
    (hs : n.step np (.filterScan nrm draw) = .ok n') {f : Filter} (hf' : n'.filter = some f) {a phi : ℝ} (ha : a < π / 2)
    (hf : FacingWithin a phi f.particles) :
    ∃ mean, n'.sys.spin = .finish mean odom ∧ angularDistance phi mean.theta ≤ a := by
  obtain ⟨f', mean, v, e, hfin, hv, hnn, hsum, -, -, -, -, ⟨r, hr, hc, hsn⟩, -⟩ :=
    c83_pose_is_mean_of_particles_partial np W n n' h hmin hmax hi hn hs
  rw [hf'] at e
  cases e
  obtain ⟨ops, hops⟩ := Node.filterRun_step (Node.filterRun_reach h) hs f hf'
  obtain ⟨-, -, hlen, -⟩ := c21_particle_count_within_limits _ _ _ _ hops
  have hl : v.length = f.particles.length := by rw [← hlen, hv, List.length_map]
  exact ⟨mean, hfin, FilterFrame.mean_in_arc hl hnn hsum ha hf hr hc hsn⟩

/-- A filter with two particles that face as given. -/
theorem facingTwoWays {a b : ℝ} (ha : -π < a ∧ a ≤ π) (hb : -π < b ∧ b ≤ π) :
    ∃ f ops, (Filter.new ⟨0, 0, 0, 0, 0⟩ 2 2 >>= fun f => f.run ops) = .ok f ∧ f.particles = [⟨0, 0, a⟩, ⟨0, 0, b⟩] ∧
      f.weights = [.fin (1 / 2), .fin (1 / 2)] := by
  obtain ⟨f0, h0⟩ := new_defined ⟨0, 0, 0, 0, 0⟩ 2 2
  obtain ⟨-, -, -, e3, e4, -, -⟩ := Filter.updateStatistics_ok h0
  let nrm : MotionModel.Draws := fun k _ _ => if k = 2 then a else if k = 5 then b else 0
  have hp : (f0.particles.mapIdx fun i _ => (⟨nrm (3 * i) 0 0, nrm (3 * i + 1) 0 0, normalizeAngle (nrm (3 * i + 2) 0 0)⟩ :
      Pose2d)) = [⟨0, 0, a⟩, ⟨0, 0, b⟩] := by
    rw [e3]
    simp [nrm, normalizeAngle_of_mem ha, normalizeAngle_of_mem hb]
  obtain ⟨f1, h1⟩ : ∃ f1, f0.init nrm 0 0 0 0 0 0 = .ok f1 := by
    unfold Filter.init
    exact Filter.updateStatistics_total (by simp)
  obtain ⟨-, -, -, d3, d4, -, -⟩ := Filter.updateStatistics_ok h1
  refine ⟨f1, [.init nrm 0 0 0 0 0 0], ?_, by rw [d3]; exact hp, ?_⟩
  · rw [h0]
    show (f0.init nrm 0 0 0 0 0 0 >>= fun g => pure g) = _
    rw [h1]; rfl
  · rw [d4]
    simp only
    rw [hp]
    have e : (.fin 1 / .fin ((2 : ℕ) : ℝ) : Fl) = .fin (1 / 2) := by rw [Fl.fin_div (by norm_num)]; norm_num
    simp only [List.length_cons, List.length_nil, zero_add, Nat.reduceAdd, e, List.replicate]
    have es : Filter.sumWeights [.fin (1 / 2), .fin (1 / 2)] = .fin 1 := by
      rw [show ([.fin (1 / 2), .fin (1 / 2)] : List Fl) = [1 / 2, 1 / 2].map Fl.fin from rfl, Filter.sumWeights_fin]
      norm_num
    rw [es]
    simp only [List.map_cons, List.map_nil]
    rw [Fl.fin_div (by norm_num)]
    norm_num

/-- Particles on either side of half a turn: their plain average, zero, would face backwards; the mean does not. -/
example : ∃ f ops, (Filter.new ⟨0, 0, 0, 0, 0⟩ 2 2 >>= fun f => f.run ops) = .ok f ∧ Distribution f.weights ∧
    FacingWithin 0.1 π f.particles ∧ (f.particles.map (·.theta)).sum = 0 := by
  have hp : 3 < π := pi_gt_three
  obtain ⟨f, ops, h, hpt, hw⟩ := facingTwoWays (a := π - 0.1) (b := -(π - 0.1)) ⟨by linarith, by linarith⟩
    ⟨by linarith, by linarith⟩
  refine ⟨f, ops, h, ⟨[1 / 2, 1 / 2], by rw [hw]; rfl, by norm_num, by norm_num⟩, ?_, by rw [hpt]; simp⟩
  intro p hp'
  rw [hpt] at hp'
  simp only [List.mem_cons, List.not_mem_nil, or_false] at hp'
  unfold angularDistance
  rcases hp' with rfl | rfl
  · show |normalizeAngle (π - 0.1 - π)| ≤ 0.1
    rw [normalizeAngle_of_mem ⟨by linarith, by linarith⟩, abs_le]
    constructor <;> linarith
  · show |normalizeAngle (-(π - 0.1) - π)| ≤ 0.1
    rw [normalizeAngle_eq_of_congr (b := 0.1) (-1) (by push_cast; ring), normalizeAngle_of_mem ⟨by linarith, by linarith⟩,
      abs_of_pos (by norm_num)]

/-- **C116** Less than a quarter turn is needed: of two particles that face left and right the mean faces ahead. -/
theorem c116_left_and_right : ∃ f ops, (Filter.new ⟨0, 0, 0, 0, 0⟩ 2 2 >>= fun f => f.run ops) = .ok f ∧
    Distribution f.weights ∧ f.particles = [⟨0, 0, π / 2⟩, ⟨0, 0, -(π / 2)⟩] ∧ f.getMean 2 = .fin 0 ∧
    ∀ p ∈ f.particles, angularDistance 0 p.theta = π / 2 := by
  have hp := pi_pos
  obtain ⟨f, ops, h, hpt, hw⟩ := facingTwoWays (a := π / 2) (b := -(π / 2)) ⟨by linarith, by linarith⟩
    ⟨by linarith, by linarith⟩
  refine ⟨f, ops, h, ⟨[1 / 2, 1 / 2], by rw [hw]; rfl, by norm_num, by norm_num⟩, hpt, ?_, ?_⟩
  · obtain ⟨g, hg⟩ := Filter.reachable_stats h
    have := (Filter.updateStatistics_stats hg (v := [1 / 2, 1 / 2]) (by rw [hw]; rfl)).2.2.1
    show f.mean 2 = _
    rw [this, hpt]
    simp only [wmean, atan2, List.zip_cons_cons, List.zip_nil_right, List.map_cons, List.map_nil, List.sum_cons, List.sum_nil,
      sin_neg, cos_neg, sin_pi_div_two, cos_pi_div_two]
    norm_num
    exact Complex.arg_zero
  · intro p hp'
    rw [hpt] at hp'
    simp only [List.mem_cons, List.not_mem_nil, or_false] at hp'
    unfold angularDistance
    rcases hp' with rfl | rfl
    · show |normalizeAngle (π / 2 - 0)| = _
      rw [normalizeAngle_of_mem ⟨by linarith, by linarith⟩, sub_zero, abs_of_pos (by linarith)]
    · show |normalizeAngle (-(π / 2) - 0)| = _
      rw [normalizeAngle_of_mem ⟨by linarith, by linarith⟩, sub_zero, abs_neg, abs_of_pos (by linarith)]

/-! ## C117 The frame -/

/-- **C117** Whatever is done to two filters whose particles are the same poses in two frames (the same motions with the same
draws, scores that agree), they keep holding the same poses with the same weights, and one meets undefined behaviour only if
the other does. -/
theorem c117_same_particles {T : Pose2d} {f g f' : Filter} (h : SeenFrom T f g) {ops ops' : List Filter.Op}
    (ho : List.Forall₂ (SameOp T) ops ops') (hf : f.run ops = .ok f') : ∃ g', g.run ops' = .ok g' ∧ SeenFrom T f' g' := by
  induction ho generalizing f g with
  | nil => cases hf; exact ⟨g, rfl, h⟩
  | cons h1 _ ih =>
    unfold Filter.run at hf ⊢
    rw [List.foldlM_cons] at hf ⊢
    obtain ⟨f1, hf1, hf⟩ := Mapper.bind_ok hf
    obtain ⟨g1, hg1, hs⟩ := FilterFrame.step_seen h h1 hf1
    rw [hg1]
    exact ih hs hf

/-- **C117** The statistics of the two filters are the same in the two frames: the mean is the same place, the covariance is
turned with the frame, and, unless the headings cancel out, the mean heading is the same direction. -/
theorem c117_same_statistics {T : Pose2d} {m m' : MotionModel} {a b a' b' : ℕ} {ops ops' : List Filter.Op} {f g : Filter}
    (hf : (Filter.new m a b >>= fun f => f.run ops) = .ok f) (hg : (Filter.new m' a' b' >>= fun f => f.run ops') = .ok g)
    (h : SeenFrom T f g) {v : List ℝ} (hv : AreNumbers f.weights v) (hs : v.sum = 1) :
    ∃ p q : Pose2d, f.getMean = ![.fin p.x, .fin p.y, .fin p.theta] ∧ g.getMean = ![.fin q.x, .fin q.y, .fin q.theta] ∧
      q.x = (compose T p).x ∧ q.y = (compose T p).y ∧ (¬ NoDirection v f.particles → SamePose q (compose T p)) ∧
      ∃ c d : Fin 2 → Fin 2 → ℝ, (∀ i j : Fin 2, f.getCovariance (Fin.castSucc i) (Fin.castSucc j) = .fin (c i j)) ∧
        (∀ i j : Fin 2, g.getCovariance (Fin.castSucc i) (Fin.castSucc j) = .fin (d i j)) ∧ TurnedBy T.theta c d := by
  obtain ⟨-, -, hlen, -⟩ := c21_particle_count_within_limits m a b ops hf
  have hl : v.length = f.particles.length := by rw [← hlen, hv, List.length_map]
  have hl' : v.length = g.particles.length := by rw [hl, h.particles.length_eq]
  have hv' : AreNumbers g.weights v := by rw [h.weights]; exact hv
  obtain ⟨f1, f2, ⟨t, f3, ftm, r, fr, frc, frs⟩, fc⟩ := c23_statistics_of_weighted_particles m a b ops hf hv hs
  obtain ⟨g1, g2, ⟨t', g3, gtm, r', gr, grc, grs⟩, gc⟩ := c23_statistics_of_weighted_particles m' a' b' ops' hg hv' hs
  have hx : wmean v g.particles (·.x) = cos T.theta * wmean v f.particles (·.x) + -sin T.theta * wmean v f.particles (·.y) +
      T.x := by
    rw [← FilterFrame.wmean_three hl hs]
    refine FilterFrame.wmean_forall₂ h.particles v fun p q hr => ?_
    rw [hr.1]; simp only [compose]; ring
  have hy : wmean v g.particles (·.y) = sin T.theta * wmean v f.particles (·.x) + cos T.theta * wmean v f.particles (·.y) +
      T.y := by
    rw [← FilterFrame.wmean_three hl hs]
    refine FilterFrame.wmean_forall₂ h.particles v fun p q hr => ?_
    rw [hr.2.1]; simp only [compose]; ring
  have hcos : wmean v g.particles (fun p => cos p.theta) =
      cos T.theta * wmean v f.particles (fun p => cos p.theta) +
        -sin T.theta * wmean v f.particles (fun p => sin p.theta) := by
    rw [← wmean_linear]
    refine FilterFrame.wmean_forall₂ h.particles v fun p q hr => ?_
    rw [FilterFrame.cos_same hr.2.2]; simp only [compose, cos_add]; ring
  have hsin : wmean v g.particles (fun p => sin p.theta) =
      sin T.theta * wmean v f.particles (fun p => cos p.theta) +
        cos T.theta * wmean v f.particles (fun p => sin p.theta) := by
    rw [← wmean_linear]
    refine FilterFrame.wmean_forall₂ h.particles v fun p q hr => ?_
    rw [FilterFrame.sin_same hr.2.2]; simp only [compose, sin_add]
  refine ⟨⟨wmean v f.particles (·.x), wmean v f.particles (·.y), t⟩, ⟨wmean v g.particles (·.x), wmean v g.particles (·.y), t'⟩,
    ?_, ?_, ?_, ?_, ?_, ?_⟩
  · funext i; fin_cases i
    · exact f1
    · exact f2
    · exact f3
  · funext i; fin_cases i
    · exact g1
    · exact g2
    · exact g3
  · rw [hx]; simp only [compose]; ring
  · rw [hy]; simp only [compose]; ring
  · intro hd
    refine ⟨by rw [hx]; simp only [compose]; ring, by rw [hy]; simp only [compose]; ring, ?_⟩
    show ∃ n : ℤ, t' = T.theta + t + n * (2 * π)
    have e1 : r' * cos t' = r * cos (T.theta + t) := by rw [grc, hcos, ← frc, ← frs, cos_add]; ring
    have e2 : r' * sin t' = r * sin (T.theta + t) := by rw [grs, hsin, ← frc, ← frs, sin_add]; ring
    have hsq : r' ^ 2 = r ^ 2 := by
      have h1 := sin_sq_add_cos_sq t'
      have h2 := sin_sq_add_cos_sq (T.theta + t)
      have : r' ^ 2 * (sin t' ^ 2 + cos t' ^ 2) = r ^ 2 * (sin (T.theta + t) ^ 2 + cos (T.theta + t) ^ 2) := by
        have : (r' * sin t') ^ 2 + (r' * cos t') ^ 2 = (r * sin (T.theta + t)) ^ 2 + (r * cos (T.theta + t)) ^ 2 := by
          rw [e1, e2]
        linarith
      rw [h1, h2] at this; linarith
    have hrr : r' = r := by
      have := abs_eq_abs.mpr (sq_eq_sq_iff_eq_or_eq_neg.mp hsq)
      rwa [abs_of_nonneg gr, abs_of_nonneg fr] at this
    have hr0 : r ≠ 0 := by
      rintro rfl
      exact hd ⟨by rw [← frc]; ring, by rw [← frs]; ring⟩
    rw [hrr] at e1 e2
    exact congr_of_cos_sin (mul_left_cancel₀ hr0 e1) (mul_left_cancel₀ hr0 e2)
  · refine ⟨_, _, fc, gc, ?_⟩
    have hcx : ∀ i, wmean v g.particles (coord i) = rotation T.theta i 0 * wmean v f.particles (coord 0) +
        rotation T.theta i 1 * wmean v f.particles (coord 1) + ![T.x, T.y] i := by
      intro i; fin_cases i
      · exact hx
      · exact hy
    intro i j
    unfold wcov
    rw [FilterFrame.wmean_forall₂ h.particles v (a := fun p =>
      (rotation T.theta i 0 * (coord 0 p - wmean v f.particles (coord 0)) +
        rotation T.theta i 1 * (coord 1 p - wmean v f.particles (coord 1))) *
      (rotation T.theta j 0 * (coord 0 p - wmean v f.particles (coord 0)) +
        rotation T.theta j 1 * (coord 1 p - wmean v f.particles (coord 1))))]
    · set mx := wmean v f.particles (coord 0)
      set my := wmean v f.particles (coord 1)
      have e : (fun p => (rotation T.theta i 0 * (coord 0 p - mx) + rotation T.theta i 1 * (coord 1 p - my)) *
          (rotation T.theta j 0 * (coord 0 p - mx) + rotation T.theta j 1 * (coord 1 p - my))) =
        fun p => 1 * (rotation T.theta i 0 * rotation T.theta j 0 * ((coord 0 p - mx) * (coord 0 p - mx)) +
            rotation T.theta i 0 * rotation T.theta j 1 * ((coord 0 p - mx) * (coord 1 p - my))) +
          1 * (rotation T.theta i 1 * rotation T.theta j 0 * ((coord 1 p - my) * (coord 0 p - mx)) +
            rotation T.theta i 1 * rotation T.theta j 1 * ((coord 1 p - my) * (coord 1 p - my))) := by
        funext p; ring
      rw [e, wmean_linear, wmean_linear, wmean_linear]
      simp only [Fin.sum_univ_two]
      ring
    · intro p q hr
      rw [hcx i, hcx j]
      have hq : ∀ i, coord i q = rotation T.theta i 0 * coord 0 p + rotation T.theta i 1 * coord 1 p + ![T.x, T.y] i := by
        intro i; fin_cases i
        · show q.x = _
          rw [hr.1]; simp [compose, rotation, coord]; ring
        · show q.y = _
          rw [hr.2.1]; simp [compose, rotation, coord]; ring
      rw [hq i, hq j]; ring

/-- **C117** (partial: how many particles are drawn depends on the frame, see `c108_number_depends_on_place`) As far as both
filters draw, they draw the same poses. -/
theorem c117_resampling_partial {T : Pose2d} {f g f' g' : Filter} (h : SeenFrom T f g) {err z : ℝ} {draw : ℕ → ℕ}
    (hf : f.resample err z draw = .ok f') (hg : g.resample err z draw = .ok g') (i : ℕ) {p q : Pose2d}
    (hp : f'.particles[i]? = some p) (hq : g'.particles[i]? = some q) : SamePose q (compose T p) := by
  obtain ⟨rs, ws, kd, mx, hinv, -, -, -, hu⟩ := Filter.resample_ok hf
  obtain ⟨rs', ws', kd', mx', hinv', -, -, -, hu'⟩ := Filter.resample_ok hg
  obtain ⟨-, -, -, e, -⟩ := Filter.updateStatistics_ok hu
  obtain ⟨-, -, -, e', -⟩ := Filter.updateStatistics_ok hu'
  rw [e] at hp
  rw [e'] at hq
  simp only at hp hq
  rw [(hinv.drawn i (List.getElem?_eq_some_iff.mp hp).1).1] at hp
  rw [(hinv'.drawn i (List.getElem?_eq_some_iff.mp hq).1).1] at hq
  obtain ⟨h1, rfl⟩ := List.getElem?_eq_some_iff.mp hp
  obtain ⟨h2, rfl⟩ := List.getElem?_eq_some_iff.mp hq
  exact List.Forall₂.get h.particles h1 h2

/-- **C117** Scores agree when everything is moved: scans of the map and particles taken off by the same vector. -/
theorem c117_scores_agree {mt m1 m2 : Matcher} {scans : List Scan} {g1 g2 : NdtGrid} (t : Point)
    (n : Scan → ℤ) (hres : 0 < mt.resolution) (hR : 0 ≤ mt.rangeMax) (hne : scans ≠ [])
    (hin : ∀ s ∈ scans, WithinRange mt.rangeMax s)
    (hb : ∀ s ∈ scans, s.pose.x ≤ dblMax ∧ s.pose.y ≤ dblMax)
    (hb' : ∀ s ∈ scans, s.pose.x + t.x ≤ dblMax ∧ s.pose.y + t.y ≤ dblMax)
    (h1 : mt.addScans scans = .ok m1) (hg1 : m1.ndt = some g1) (hs1 : g1.sizeX * g1.sizeY ≤ 2 ^ 31)
    (h2 : mt.addScans (scans.map fun s => elsewhere t (n s) s) = .ok m2) (hg2 : m2.ndt = some g2)
    (hs2 : g2.sizeX * g2.sizeY ≤ 2 ^ 31) (points : List Point) :
    SameOp ⟨t.x, t.y, 0⟩ (.measure fun p => m1.scorePoints points p) (.measure fun p => m2.scorePoints points p) := by
  refine .measure _ _ fun p q hr => ?_
  obtain ⟨-, hsc, -⟩ := c100_matching_is_the_same_elsewhere t n hres hR hne hin hb hb' h1 hg1 hs1 h2 hg2 hs2
  obtain ⟨hx, hy, k, ht⟩ := hr
  have e : q = ⟨p.x + t.x, p.y + t.y, p.theta + k * (2 * π)⟩ := by
    obtain ⟨x, y, th⟩ := q
    simp only [compose, cos_zero, sin_zero] at hx hy ht
    rw [hx, hy, ht]
    congr 1 <;> ring
  have := hsc { (Scan.new 0) with pose := p, points := points } k
  rw [e]
  exact this

/-- **C117** Each operation adds the same to the heading variances of the two filters, unless the headings cancel out. -/
theorem c117_same_heading_variance {T : Pose2d} {f g f' g' : Filter} {a b : Filter.Op} (hf : f.step a = .ok f')
    (hg : g.step b = .ok g') (h : SeenFrom T f' g') {v : List ℝ} (hv : AreNumbers f'.weights v)
    (hd : ¬ NoDirection v f'.particles) {c d : ℝ} (hc : f.getCovariance 2 2 = .fin c) (hd' : g.getCovariance 2 2 = .fin d) :
    ∃ x, f'.getCovariance 2 2 = .fin (c + x) ∧ g'.getCovariance 2 2 = .fin (d + x) := by
  obtain ⟨f0, hf0, hcf, -⟩ := Filter.step_stats hf
  obtain ⟨g0, hg0, hcg, -⟩ := Filter.step_stats hg
  have hv' : AreNumbers g'.weights v := by rw [h.weights]; exact hv
  have kf := (Filter.updateStatistics_stats hf0 hv).2.2.2.2.2.2.2.1 c (by rw [hcf]; exact hc)
  have kg := (Filter.updateStatistics_stats hg0 hv').2.2.2.2.2.2.2.1 d (by rw [hcg]; exact hd')
  refine ⟨_, kf, ?_⟩
  show g'.cov 2 2 = _
  rw [kg]
  congr 2
  refine FilterFrame.wmean_forall₂ h.particles v fun p q hr => ?_
  obtain ⟨n, hn⟩ := FilterFrame.mean_turned h.particles v hd
  obtain ⟨k, hk⟩ := hr.2.2
  simp only [compose] at hk
  rw [normalizeAngle_eq_of_congr (b := atan2 (wmean v f'.particles fun p => sin p.theta)
    (wmean v f'.particles fun p => cos p.theta) - p.theta) (n - k) (by rw [hn, hk]; push_cast; ring)]

/-- A filter and the same seen from a frame that is turned: two reachable filters that satisfy what is asked. -/
example : ∃ f g ops ops', (Filter.new ⟨0, 0, 0, 0, 0⟩ 2 2 >>= fun f => f.run ops) = .ok f ∧
    (Filter.new ⟨0, 0, 0, 0, 0⟩ 2 2 >>= fun f => f.run ops') = .ok g ∧ SeenFrom ⟨0, 0, π / 2⟩ f g ∧
    f.particles = [⟨0, 0, 0⟩, ⟨0, 0, π / 2⟩] ∧ AreNumbers f.weights [1 / 2, 1 / 2] ∧
    ¬ NoDirection [1 / 2, 1 / 2] f.particles := by
  have hp := pi_pos
  obtain ⟨f, ops, h, hpt, hw⟩ := facingTwoWays (a := 0) (b := π / 2) ⟨by linarith, by linarith⟩ ⟨by linarith, by linarith⟩
  obtain ⟨g, ops', h', hpt', hw'⟩ := facingTwoWays (a := π / 2) (b := π) ⟨by linarith, by linarith⟩ ⟨by linarith, by linarith⟩
  refine ⟨f, g, ops, ops', h, h', ⟨?_, by rw [hw, hw'], ?_⟩, hpt, by rw [hw]; rfl, ?_⟩
  · exact (Node.filterRun_motion h').trans (Node.filterRun_motion h).symm
  · rw [hpt, hpt']
    refine .cons ⟨by simp [compose], by simp [compose], 0, ?_⟩ (.cons ⟨by simp [compose], by simp [compose], 0, ?_⟩ .nil)
    · simp [compose]
    · simp [compose]
  · rw [hpt]
    rintro ⟨h1, -⟩
    norm_num [wmean] at h1

/-- Both are moved by a metre ahead. -/
example : SameOp ⟨0, 0, π / 2⟩ (.update noiseFree 1 0 0) (.update noiseFree 1 0 0) := .update _ _ _ _

end

end Ndt
