import Verif.Proof.ProgressLocal

/-! # C86: a node that localises within bounds never runs into undefined behaviour -/

namespace Ndt

open Spec Mapper

noncomputable section

/-- **C86** (partial) A node that was started with mapping disabled and a map, and localises within bounds, with or without the
particle filter, can do every piece of work it is given: no thread ever reads past the end of a vector, follows a null pointer,
converts a number that does not fit, or hangs.
Missing are the cases in which the code does run into undefined behaviour or computes with what is no number: a published grid
that cannot be drawn (C42), a map that is loaded later or mapping that is enabled later (C66, C68), a map without scans (C74),
laser messages that cannot be read (C47), and a filter whose mean is not a number (C83). -/
theorem c86_localisation_is_defined_partial (np : NodeParams) (b : Bounds) (hp : SuitsLocal b np) (n : Node)
    (h : Localises np b n) (hb : InBounds b n) (i : Input) (hi : OrdinaryLocal np b n i) : ∃ n', n.step np i = .ok n' := by
  obtain ⟨hT, hF, hG, hR, hH⟩ := localises_facts hp h
  have lift : ∀ e, (∃ s', Mapper.step np.map n.sys e = .ok s') → ∃ n', n.mapper np e = .ok n' := by
    rintro e ⟨s', hs⟩
    unfold Node.mapper
    rw [hs]
    exact ⟨_, rfl⟩
  have hmap : ¬ InMapping n.sys.spin := fun h => by
    have := (hF.map h).1
    rw [hF.enable] at this; cases this
  cases i with
  | plain e =>
    cases e with
    | laser msg mount odom odomEnd =>
      have hl := laser_defined (p := np.map) hi.1 odom odomEnd
      simp only [Node.step]
      split
      · obtain ⟨-, r, h1, h2, h3⟩ := hi
        obtain ⟨gr, hgr, -⟩ := addScans_in (mt := { np.globalCfg with rangeMax := r, ndt := none }) hp.place hp.reach
          ⟨hp.glob.res, hp.glob.linear, hp.glob.angular, hp.glob.cells, hp.glob.near⟩ h2 h3 hF.scans hb.scans
        unfold Node.makeMatchers Node.initMatcher
        simp only [h1, hF.enable, Bool.not_false, Bool.or_true, if_true, Res.ok_bind, hgr]
        obtain ⟨s', hs'⟩ := hl
        unfold Node.mapper
        simp only [hs', Res.ok_bind]
        exact ⟨_, rfl⟩
      · exact lift _ hl
    | filtered => exact ⟨_, rfl⟩
    | localMatched => exact ⟨_, rfl⟩
    | globalMatched => exact ⟨_, rfl⟩
    | loopMatched => exact ⟨_, rfl⟩
    | pose => exact ⟨_, rfl⟩
    | addWindow =>
      simp only [Node.step]
      split
      · rename_i scan odom hw
        exact absurd (by rw [hw]; trivial) hmap
      · exact ⟨_, rfl⟩
    | loopCandidate =>
      simp only [Node.step, Mapper.step, hF.loop, Res.ok_bind]
      exact ⟨_, rfl⟩
    | finishScan =>
      refine lift _ ?_
      simp only [Mapper.step]
      split
      · exact ⟨_, rfl⟩
      · rename_i a odom ha
        exact absurd ha (hF.calm.announce a odom)
      · exact ⟨_, rfl⟩
    | configure action bag =>
      have hi : action &&& 4#32 = 0#32 := hi.1
      refine lift _ ?_
      simp only [Mapper.step, configure, configureFile, hi, ne_eq, not_true_eq_false, if_false]
      split <;> exact ⟨_, rfl⟩
    | loopPick visit => exact lift _ ⟨n.sys, by simp only [Mapper.step, hF.loop]⟩
    | loopOptimise ceres => exact lift _ ⟨n.sys, by simp only [Mapper.step, hF.loop]⟩
    | pubGrid =>
      obtain ⟨⟨grid, msg⟩, ho⟩ := hi
      refine lift _ ?_
      simp only [Mapper.step]
      split
      · unfold pubGrid
        rw [ho]
        exact ⟨_, rfl⟩
      · exact ⟨_, rfl⟩
    | pubGraph =>
      obtain ⟨out, ho⟩ := c41_markers_defined (n.sys.graph np.map) [] hF.ends hb.fewConstraints
      refine lift _ ?_
      simp only [Mapper.step]
      split
      · unfold pubGraph
        rw [ho]
        exact ⟨_, rfl⟩
      · exact ⟨_, rfl⟩
    | _ =>
      refine lift _ ?_
      simp only [Mapper.step]
      split <;> exact ⟨_, rfl⟩
  | localMatch junk =>
    simp only [Node.step]
    split
    · rename_i scan odom hm
      exact absurd (by rw [hm]; trivial) hmap
    · exact ⟨_, rfl⟩
  | globalMatch junk =>
    simp only [Node.step]
    split
    · rename_i scan odom hm
      have hglob := (hF.made.made (hF.made.busy (by rw [hm]; trivial))).1
      cases hg : n.globalN with
      | none => exact absurd (hT.global.mpr hg) hglob
      | some g =>
        obtain ⟨hf, hres⟩ := fits_params (hT.gcfg g hg) hp.glob
        obtain ⟨⟨v, hv⟩, r, hr⟩ := match_in hp.reach hf (fun gr hgr => by rw [hres]; exact hG g hg gr hgr)
          (hb.current scan (by rw [hm]; rfl)) Pose2d.zero junk
        simp only [hv, hr, Res.ok_bind]
        refine lift _ ?_
        simp only [Mapper.step, hm]
        rw [if_neg hglob]
        exact ⟨_, rfl⟩
    · exact ⟨_, rfl⟩
  | loopMatch junk => simp only [Node.step, hF.loop]; exact ⟨_, rfl⟩
  | filterScan nrm draw =>
    by_cases hs : ∃ scan odom, n.sys.spin = .filter scan odom
    · obtain ⟨scan, odom, hs⟩ := hs
      exact filter_defined hp hT hF hG hR hH hb hs hi
    · simp only [Node.step]
      split
      · rename_i scan odom h
        exact absurd ⟨scan, odom, h⟩ hs
      · exact ⟨_, rfl⟩
  | pose msg odom visit nrm =>
    simp only [Node.step]
    split
    · rename_i hin
      obtain ⟨f, hf⟩ := Option.ne_none_iff_exists'.mp (hH hin.2.2.2.2.2)
      obtain ⟨ops, hops⟩ := hR f hf
      obtain ⟨a1, a2, a3, a4, a5, -⟩ := c21_particle_count_within_limits _ _ _ ops hops
      obtain ⟨f', hf'⟩ := (c21_other_operations_defined (f := f)
        ⟨by rw [a4, a5]; exact a1, by rw [a4, a5]; exact a2, a3⟩).1 nrm msg.pose.x msg.pose.y msg.pose.theta
          (Real.sqrt msg.covX) (Real.sqrt msg.covY) (Real.sqrt msg.covTheta)
      obtain ⟨n', hn'⟩ := lift _ (pose_defined np.map n.sys msg odom visit)
      have hvar : ¬ (msg.covX < 0 ∨ msg.covY < 0 ∨ msg.covTheta < 0) := by
        obtain ⟨v1, v2, v3⟩ := hi
        rintro (h | h | h) <;> linarith
      simp only [hf, if_neg hvar, hf', hn', Res.ok_bind]
      exact ⟨_, rfl⟩
    · exact lift _ (pose_defined np.map n.sys msg odom visit)

/-- Example for the hypotheses: a node that uses the filter has been told where it is and has driven a metre; the filter is
about to be updated. -/
example : ∃ n n' scan odom, Localises filterNode demoBounds n ∧ InBounds demoBounds n ∧ SuitsLocal demoBounds filterNode ∧
    n.sys.spin = .filter scan odom ∧ scan.points.length = 1 ∧
    n.step filterNode (.filterScan noiseFree fun _ => 0) = .ok n' := by
  obtain ⟨f, g, h, hb, ho⟩ := pile_localises
  obtain ⟨n', hn'⟩ := c86_localisation_is_defined_partial _ _ pile_suits _ h hb _ ho
  exact ⟨_, n', _, _, h, hb, pile_suits, rfl, rfl, hn'⟩

/-- **C86** (partial) So as long as the node stays within the bounds and its inputs are ordinary ones, it keeps running. -/
theorem c86_keeps_running_partial (np : NodeParams) (b : Bounds) (hp : SuitsLocal b np) (n : Node) (h : Localises np b n)
    (is : List Input)
    (hstay : ∀ done i rest n', is = done ++ i :: rest → n.run np done = .ok n' → InBounds b n' ∧ OrdinaryLocal np b n' i) :
    ∃ n', n.run np is = .ok n' ∧ Localises np b n' := by
  induction is using List.reverseRecOn with
  | nil => exact ⟨n, rfl, h⟩
  | append_singleton is i ih =>
    obtain ⟨n1, h1, bag, g, n0, js, k1, k2, k3, hst, hex⟩ := ih fun done j rest n' he hr =>
      hstay done j (rest ++ [i]) n' (by rw [he]; simp) hr
    obtain ⟨hb, ho⟩ := hstay is i [] n1 rfl h1
    obtain ⟨n2, h2⟩ := c86_localisation_is_defined_partial np b hp n1 ⟨bag, g, n0, js, k1, k2, k3, hst, hex⟩ hb i ho
    refine ⟨n2, ?_, bag, g, n0, js ++ [i], k1, k2, k3, hst, .snoc hex ⟨hb, ho⟩ h2⟩
    rw [Node.run_append, h1]
    simp only [Res.ok_bind]
    rw [Node.run_cons, h2]
    rfl

end

end Ndt
