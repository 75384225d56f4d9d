import Verif.Proof.ProgressNode

/-! # C85: a node that maps within bounds never runs into undefined behaviour -/

namespace Ndt

open Spec Mapper

noncomputable section

/-- **C85** (partial) A node that was started without a map and maps within bounds can do every piece of work it is given: no
thread ever reads past the end of a vector, follows a null pointer, converts a number that does not fit, or hangs.
Missing are the cases in which the code does run into undefined behaviour: a published grid that cannot be drawn (C42), work on
all constraints between adding a constraint and adding its scan (C63), a map given at the start or loaded later (C66, C68), a
window of fewer than ten scans (C57), laser messages that cannot be read (C47), localising before anything was mapped (C74) and
the particle filter (C73). -/
theorem c85_work_is_defined_partial (np : NodeParams) (b : Bounds) (hp : Suits b np) (n : Node) (h : Maps np b n)
    (hb : InBounds b n) (i : Input) (hi : Ordinary n i) : ∃ n', n.step np i = .ok n' := by
  obtain ⟨hT, hF, hG⟩ := maps_facts hp h
  have hS := hF.spin hp.noFilter
  have lift : ∀ e, (∃ s', Mapper.step np.map n.sys e = .ok s') → ∃ n', n.mapper np e = .ok n' := by
    rintro e ⟨s', hs⟩
    unfold Node.mapper
    rw [hs]
    exact ⟨_, rfl⟩
  cases i with
  | plain e =>
    cases e with
    | laser msg mount odom odomEnd =>
      have hl := laser_defined (p := np.map) hi.1 odom odomEnd
      simp only [Node.step]
      split
      · rename_i hm
        obtain ⟨r, hr⟩ := hi.1.2.1
        have he := hi.2 hm.2.1
        unfold Node.makeMatchers Node.initMatcher
        simp only [hr, hp.noFilter, he, Bool.not_true, Bool.or_self, Bool.false_eq_true, if_false, Res.ok_bind]
        obtain ⟨s', hs'⟩ := hl
        unfold Node.mapper
        simp only [hs', Res.ok_bind]
        exact ⟨_, rfl⟩
      · exact lift _ hl
    | filtered => exact ⟨_, rfl⟩
    | localMatched => exact ⟨_, rfl⟩
    | globalMatched => exact ⟨_, rfl⟩
    | loopMatched => exact ⟨_, rfl⟩
    | pose => exact ⟨_, rfl⟩
    | addWindow =>
      simp only [Node.step]
      split
      · rename_i scan odom hw
        have hlaser := hF.made.busy (by rw [hw]; trivial)
        have hloc := (hF.made.made hlaser).2
        obtain ⟨s', hs'⟩ := addWindow_defined (scan := scan) (odom := odom) (s := n.sys) hp.depth hloc
        obtain ⟨w, hw', hne, hsub⟩ := window_of hp.depth hs' (hS.window scan odom hw)
        have hst : Mapper.step np.map n.sys .addWindow = .ok s' := by simp only [Mapper.step, hw]; exact hs'
        cases hl : n.localN with
        | none => exact absurd (hT.loc.mpr hl) hloc
        | some l =>
          obtain ⟨hf, -⟩ := fits_params (hT.lcfg l hl) hp.loc
          obtain ⟨r0, r1⟩ := hb.range l (Or.inr hl)
          obtain ⟨g, hg, -⟩ := addScans_in hp.place hp.reach (reset_fits hf) r0 r1 hne fun t ht => hb.scans t (hsub t ht)
          simp only [hst, Res.ok_bind, hw', hg]
          exact ⟨_, rfl⟩
      · exact ⟨_, rfl⟩
    | loopCandidate =>
      have hstep : ∃ s', Mapper.step np.map n.sys .loopCandidate = .ok s' := by
        cases hs : Mapper.step np.map n.sys .loopCandidate with
        | ok s' => exact ⟨s', rfl⟩
        | error f =>
          obtain ⟨-, h0⟩ := (c68_indices_in_range_partial np.map n.sys hF.reach hb.fewScans).2 f hs
          rcases (hF.early h0).2 with hl | hl <;> simp [Mapper.step, hl] at hs
      obtain ⟨s', hs'⟩ := hstep
      simp only [Node.step, hs', Res.ok_bind]
      split
      · rename_i q q' c hq hq'
        have hs2 := hs'
        simp only [Mapper.step, hq] at hs2
        obtain ⟨w, hw, hne, hsub⟩ := region_of (hF.loop.candidates q hq) hs2 hq'
        cases hg : n.globalN with
        | none =>
          rcases (hF.early (hT.global.mpr hg)).2 with hl | hl <;> rw [hq] at hl <;> cases hl
        | some g =>
          obtain ⟨hf, -⟩ := fits_params (hT.gcfg g hg) hp.glob
          obtain ⟨r0, r1⟩ := hb.range g (Or.inl hg)
          obtain ⟨gr, hgr, -⟩ := addScans_in hp.place hp.reach (reset_fits hf) r0 r1 hne fun t ht => hb.scans t (hsub t ht)
          simp only [hw, hgr, Res.ok_bind]
          exact ⟨_, rfl⟩
      · exact ⟨_, rfl⟩
    | finishScan =>
      refine lift _ ?_
      simp only [Mapper.step]
      split
      · exact ⟨_, rfl⟩
      · rename_i a odom ha
        rw [List.getElem?_eq_getElem (hS.announce a odom ha).2]
        exact ⟨_, rfl⟩
      · exact ⟨_, rfl⟩
    | configure action bag =>
      have hi : action &&& 4#32 = 0#32 := hi
      refine lift _ ?_
      simp only [Mapper.step, configure, configureFile, hi, ne_eq, not_true_eq_false, if_false]
      split <;> exact ⟨_, rfl⟩
    | loopPick visit => exact lift _ ((c68_indices_in_range_partial np.map n.sys hF.reach hb.fewScans).1 visit)
    | loopOptimise ceres =>
      refine lift _ ?_
      simp only [Mapper.step]
      split
      · rename_i hl
        exact optimise_defined hF hp.depth hb.fewScans hi hl ceres
      · exact ⟨_, rfl⟩
    | pubGrid =>
      obtain ⟨⟨grid, msg⟩, ho⟩ := hi
      refine lift _ ?_
      simp only [Mapper.step]
      split
      · unfold pubGrid
        rw [ho]
        exact ⟨_, rfl⟩
      · exact ⟨_, rfl⟩
    | pubGraph =>
      obtain ⟨out, ho⟩ := (c63_no_index_out_of_range_partial np.map n.sys hF.ends'
        fun scan odom hs => hi ⟨scan, odom, hs⟩).1 hb.fewConstraints
      refine lift _ ?_
      simp only [Mapper.step]
      split
      · unfold pubGraph
        rw [ho]
        exact ⟨_, rfl⟩
      · exact ⟨_, rfl⟩
    | _ =>
      refine lift _ ?_
      simp only [Mapper.step]
      split <;> exact ⟨_, rfl⟩
  | localMatch junk =>
    simp only [Node.step]
    split
    · rename_i scan odom hm
      obtain ⟨l, w, hl, -, hbu⟩ := hT.window scan odom hm
      obtain ⟨hf, hres⟩ := fits_params (hT.lcfg l hl) hp.loc
      obtain ⟨⟨v, hv⟩, r, hr⟩ := match_in hp.reach hf (fun g hg => by rw [hres]; exact hG.loc l hl g hg)
        (hb.current scan (by rw [hm]; rfl)) Pose2d.zero junk
      simp only [hl, hv, hr, Res.ok_bind]
      refine lift _ ?_
      simp only [Mapper.step, hm]
      unfold localMatched
      have hne := hS.matching scan odom hm
      rw [List.getLast?_eq_some_getLast hne]
      exact ⟨_, rfl⟩
    · exact ⟨_, rfl⟩
  | globalMatch junk =>
    simp only [Node.step]
    split
    · rename_i scan odom hm
      have hlaser := hF.made.busy (by rw [hm]; trivial)
      have hglob := (hF.made.made hlaser).1
      cases hg : n.globalN with
      | none => exact absurd (hT.global.mpr hg) hglob
      | some g =>
        obtain ⟨hf, hres⟩ := fits_params (hT.gcfg g hg) hp.glob
        obtain ⟨⟨v, hv⟩, r, hr⟩ := match_in hp.reach hf (fun gr hgr => by rw [hres]; exact hG.glob g hg gr hgr)
          (hb.current scan (by rw [hm]; rfl)) Pose2d.zero junk
        simp only [hv, hr, Res.ok_bind]
        refine lift _ ?_
        simp only [Mapper.step, hm]
        rw [if_neg hglob]
        exact ⟨_, rfl⟩
    · exact ⟨_, rfl⟩
  | loopMatch junk =>
    simp only [Node.step]
    split
    · rename_i q c hq
      obtain ⟨g, w, hg, -, hbu⟩ := hT.region q c hq
      obtain ⟨⟨-, hlt⟩, -⟩ := hF.ptr.matching q c hq
      have hep := (hF.ends.matching q c hq).1
      obtain ⟨hf, hres⟩ := fits_params (hT.gcfg g hg) hp.glob
      have hmem : (n.sys.heap q.scan.epoch)[q.scan.idx] ∈ n.sys.scans := by
        have := List.getElem_mem hlt
        unfold Sys.scans
        rw [← hep]
        exact this
      obtain ⟨-, r, hr⟩ := match_in hp.reach hf (fun gr hgr => by rw [hres]; exact hG.glob g hg gr hgr)
        (hb.scans _ hmem) Pose2d.zero junk
      rw [hg, List.getElem?_eq_getElem hlt]
      simp only [hr, Res.ok_bind]
      exact lift _ (c68_pointers_stay_valid np.map _ _ n.sys hF.reach _ _ _)
    · exact ⟨_, rfl⟩
  | filterScan nrm draw =>
    simp only [Node.step]
    split
    · rename_i scan odom hs
      exact absurd hs (hS.noFilter scan odom)
    · exact ⟨_, rfl⟩
  | pose msg odom visit nrm =>
    simp only [Node.step]
    rw [if_neg]
    · exact lift _ (pose_defined np.map n.sys msg odom visit)
    · intro hin
      have := hin.2.2.2.2.2
      rw [hp.noFilter] at this
      cases this

/-- Example for the hypotheses: with the default parameters and scans within 1 km of the origin, one scan is in the map and the
second about to be compared with it; the map for that is built. -/
example : ∃ n n', Maps (demoNode false) demoBounds n ∧ InBounds demoBounds n ∧ Suits demoBounds (demoNode false) ∧
    n.sys.scans.length = 1 ∧ n.step (demoNode false) (.plain .addWindow) = .ok n' ∧
    ∃ scan odom, n.sys.spin = .window scan odom ∧ n'.sys.spin = .matching scan odom := by
  obtain ⟨n, scan, odom, h, hb, hs, hw⟩ := demo_maps
  obtain ⟨n', hn'⟩ := c85_work_is_defined_partial _ _ demo_suits n h hb (.plain .addWindow) trivial
  refine ⟨n, n', h, hb, demo_suits, by rw [hs]; rfl, hn', scan, odom, hw, ?_⟩
  have hn := hn'
  simp only [Node.step, hw] at hn
  obtain ⟨s, h1, h2⟩ := bind_ok hn
  simp only [Mapper.step, hw, addWindow] at h1
  split at h2
  · obtain ⟨l, -, h2⟩ := bind_ok h2
    injection h2 with h2
    rw [← h2]
    split_ifs at h1 <;> injection h1 with h1 <;> rw [← h1]
  · cases h2

/-- **C85** (partial) So as long as the node stays within the bounds and its inputs are ordinary ones, it keeps running: if the
node reached so far is always within the bounds and the next input an ordinary one, any sequence of inputs can be worked off. -/
theorem c85_keeps_running_partial (np : NodeParams) (b : Bounds) (hp : Suits b np) (n : Node) (h : Maps np b n)
    (is : List Input)
    (hstay : ∀ done i rest n', is = done ++ i :: rest → n.run np done = .ok n' → InBounds b n' ∧ Ordinary n' i) :
    ∃ n', n.run np is = .ok n' ∧ Maps np b n' := by
  induction is using List.reverseRecOn with
  | nil => exact ⟨n, rfl, h⟩
  | append_singleton is i ih =>
    obtain ⟨n1, h1, enable, n0, js, hst, hex⟩ := ih fun done j rest n' he hr =>
      hstay done j (rest ++ [i]) n' (by rw [he]; simp) hr
    obtain ⟨hb, ho⟩ := hstay is i [] n1 rfl h1
    obtain ⟨n2, h2⟩ := c85_work_is_defined_partial np b hp n1 ⟨enable, n0, js, hst, hex⟩ hb i ho
    refine ⟨n2, ?_, enable, n0, js ++ [i], hst, .snoc hex ⟨hb, ho⟩ h2⟩
    rw [Node.run_append, h1]
    simp only [Res.ok_bind]
    rw [Node.run_cons, h2]
    rfl

end

end Ndt
