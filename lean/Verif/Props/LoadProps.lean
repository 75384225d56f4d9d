import Verif.Proof.Pointers
import Verif.Props.PublishProps
import Verif.Props.SolverProps

/-! # Matchers, loaded maps and the loop closure thread (C66–C68) -/

namespace Ndt

noncomputable section

open Spec Mapper

/-! ## C66 Loop closure waits for its matcher -/

theorem matcherInv_reach {p : Params} {W : Graph → Prop} {A : Sys → Event → Prop} {s : Sys} (h : Reach p W A s) :
    MatcherInv s := by
  refine Reach.inv h ?_ fun s e s' hI _ _ ht => matcherInv_step hI ht
  intro enable file s0 hst _
  rcases start_cases hst with ⟨-, rfl⟩ | ⟨bag, g, -, -, rfl⟩ <;> exact ⟨fun h => absurd rfl h, fun h => h.elim⟩

/-- **C66** The laser callback never uses a matcher that does not exist, with or without a map. -/
theorem c66_laser_callback_has_its_matchers (p : Params) (W : Graph → Prop) (A : Sys → Event → Prop) (s : Sys)
    (h : Reach p W A s) :
    step p s .addWindow ≠ .error .nullPointer ∧ (∀ mean, step p s (.filtered mean) ≠ .error .nullPointer) ∧
    ∀ correction, step p s (.globalMatched correction) ≠ .error .nullPointer := by
  obtain ⟨h1, h2⟩ := matcherInv_reach h
  refine ⟨?_, fun mean => ?_, fun correction => ?_⟩
  · simp only [step]
    split
    · rename_i scan odom hs
      have := (h1 (h2 (by rw [hs]; trivial))).2
      unfold addWindow
      rw [if_neg this]
      split
      · simp
      · split <;> simp
    · simp
  · simp only [step]
    split
    · rename_i scan odom hs
      have := (h1 (h2 (by rw [hs]; trivial))).1
      rw [if_neg this]; simp
    · simp
  · simp only [step]
    split
    · rename_i scan odom hs
      have := (h1 (h2 (by rw [hs]; trivial))).1
      rw [if_neg this]; simp
    · simp

theorem loopCandidate_null {q : Search} {s : Sys} (h : loopCandidate q s = .error .nullPointer) : s.globalM = none := by
  by_contra hg
  obtain ⟨w, hw⟩ := Option.ne_none_iff_exists'.mp hg
  unfold loopCandidate at h
  split at h
  · cases h
  · rename_i i rest hr
    split at h
    · cases h
    · rename_i cand hc
      by_cases hp : cand.getPoints = []
      · rw [if_pos hp] at h; cases h
      · rw [if_neg hp, hw] at h
        dsimp only at h
        generalize (if 0 < i then i - 1 else i) = b at h
        generalize (if i < q.rolling then i + 1 else i) = e at h
        split_ifs at h <;> cases h

/-- **C66** (partial) If the mapper starts without a map, and maps are loaded only after the first laser scan, then whenever
the loop closure thread is working on a scan its matcher exists. Missing: starting with a map (see
`c66_loop_closure_without_matcher`). -/
theorem c66_waits_partial (p : Params) (enable : Bool) (s : Sys) (es : List Event)
    (h : Exec p (fun s e => Loads e → s.globalM ≠ none) (startWith p enable false (Graph.new p.useBarycenter)) es s) :
    (s.loop ≠ .asleep → s.loop ≠ .counting → s.globalM ≠ none) ∧ step p s .loopCandidate ≠ .error .nullPointer := by
  have hI : MatcherInv s ∧ EarlyInv s := by
    refine Exec.inv (I := fun s => MatcherInv s ∧ EarlyInv s)
      (fun s e s' hI ha ht => ⟨matcherInv_step hI.1 ht, earlyInv_step hI.1 hI.2 ha ht⟩) h ?_
    exact ⟨⟨fun h => absurd rfl h, fun h => h.elim⟩, fun _ => ⟨rfl, Or.inl rfl⟩⟩
  have h1 : s.loop ≠ .asleep → s.loop ≠ .counting → s.globalM ≠ none := by
    intro ha hc hg
    rcases (hI.2 hg).2 with h | h
    · exact ha h
    · exact hc h
  refine ⟨h1, ?_⟩
  simp only [step]
  split
  · rename_i q hq
    have hg := h1 (by rw [hq]; simp) (by rw [hq]; simp)
    exact fun h => hg (loopCandidate_null h)
  · simp

/-- Example for the hypotheses: the first scan makes the matchers. -/
example : ∃ s, Exec (demoParams 10 3) (fun s e => Loads e → s.globalM ≠ none)
    (startWith (demoParams 10 3) true false (Graph.new false)) [demoLaser Pose2d.zero, .pushScan, .finishScan] s ∧
    s.globalM = some [] := by
  refine ⟨_, Exec.mono (A := fun _ e => ¬ Loads e) (fun s e he h => absurd h he)
    ((exec_iff_run _ (fun e => ¬ Loads e) _ _ _).mpr ⟨run_demoOne (demoParams 10 3) Pose2d.zero rfl, ?_⟩), rfl⟩
  rintro e he ⟨a, b, rfl, -⟩
  simp [demoLaser] at he

/-- **C66** (refuted) With a map given at the start, the loop closure thread may get to its first candidate before the first
laser scan has made the matcher: it then calls a member of a null pointer. -/
theorem c66_loop_closure_without_matcher : ∃ (p : Params) (s t : Sys),
    Mapper.start p true (some demoBag) = .ok s ∧ run p s [.loopWake, .loopCount, .loopPick [0]] = .ok t ∧
    step p t .loopCandidate = .error .nullPointer := by
  have hs : (demoLoaded (demoParams 0 3) true).scans = [mapDot 0 Pose2d.zero, mapDot 1 Pose2d.zero] := by
    simp [demoLoaded, startWith, Sys.scans, demoMap]
  refine ⟨demoParams 0 3, _, _, demoLoaded_start _ _,
    run_demoSearch (demoParams 0 3) _ rfl (by norm_num [demoParams]) rfl hs rfl rfl rfl, ?_⟩
  have hs1 : (demoLoaded (demoParams 0 3) true).heap (demoLoaded (demoParams 0 3) true).epoch =
    [mapDot 0 Pose2d.zero, mapDot 1 Pose2d.zero] := hs
  have hg : (demoLoaded (demoParams 0 3) true).globalM = none := rfl
  unfold step demoSearch
  dsimp only
  unfold loopCandidate
  simp [Sys.scans, hs1, hg, mapDot, Scan.getPoints, Scan.setPoints]

/-! ## C67 Loading a map starts from a clean slate -/

/-- **C67** (refuted) Loading replaces the graph only: solver, grid, counters of the loop closure thread, typical response and
matchers stay what they were, whatever they were. -/
theorem c67_load_keeps_bookkeeping (p : Params) (s s' : Sys) (action : BitVec 32) (bag : List BagMsg) (hi : s.spin = .idle)
    (hl : action &&& 4#32 ≠ 0#32) (hst : step p s (.configure action bag) = .ok s') :
    (∃ g, Graph.load p.useBarycenter bag = .ok g ∧ s'.scans = g.scans ∧ s'.constraints = g.constraints) ∧
    s'.solver = s.solver ∧ s'.grid = s.grid ∧ s'.processed = s.processed ∧ s'.optLast = s.optLast ∧ s'.typical = s.typical ∧
    s'.globalM = s.globalM ∧ s'.localM = s.localM := by
  unfold step at hst
  rw [hi] at hst
  simp only [configure, configureFile] at hst
  rw [if_pos hl] at hst
  obtain ⟨g, hg, h⟩ := bind_ok hst
  obtain ⟨en, ini, e, -⟩ := configureMapping_frame action s
  injection h with h
  rw [e] at h
  rw [← h]
  refine ⟨⟨g, hg, ?_, rfl⟩, rfl, rfl, rfl, rfl, rfl, rfl, rfl⟩
  show (if s.epoch + 1 = s.epoch + 1 then g.scans else _) = g.scans
  rw [if_pos rfl]

/-- **C67** (partial) If nothing was optimised, published or searched before, the bookkeeping after loading is that of a
fresh process with that map. Missing: all other histories. -/
theorem c67_fresh_partial (p : Params) (s s' s0 : Sys) (action : BitVec 32) (bag : List BagMsg) (hi : s.spin = .idle)
    (hl : action &&& 4#32 ≠ 0#32) (hst : step p s (.configure action bag) = .ok s')
    (h1 : s.solver = Solver.new) (h2 : s.grid = OccGrid.new p.resolution p.occThresh) (h3 : s.processed = 0)
    (h4 : s.optLast = 0) (enable : Bool) (h0 : Mapper.start p enable (some bag) = .ok s0) :
    s'.scans = s0.scans ∧ s'.constraints = s0.constraints ∧ s'.solver = s0.solver ∧ s'.grid = s0.grid ∧
    s'.processed = s0.processed ∧ s'.optLast = s0.optLast ∧ s'.update = s0.update := by
  have hu := (c64_announcements p s s' _ hst).2.2.2.2 ⟨action, bag, rfl, hl⟩ hi
  obtain ⟨⟨g, hg, k1, k2⟩, k3, k4, k5, k6, -⟩ := c67_load_keeps_bookkeeping p s s' action bag hi hl hst
  rcases start_cases h0 with ⟨h, -⟩ | ⟨bag', g', hb, hg', rfl⟩
  · cases h
  · cases hb
    rw [hg] at hg'
    cases hg'
    exact ⟨k1, k2, k3.trans h1, k4.trans h2, k5.trans h3, k6.trans h4, hu⟩

/-- Example for the hypotheses: loading right after the start. -/
example : ∃ s', step (demoParams 0 3) (demoStart (demoParams 0 3) true) (.configure 4#32 demoBag) = .ok s' ∧
    s'.scans.length = 2 := by
  refine ⟨_, by
    show configureFile _ 4#32 demoBag (demoStart (demoParams 0 3) true) = _
    unfold configureFile
    rw [if_pos (by decide), demoBag_load, Res.ok_bind], ?_⟩
  simp [Sys.scans, demoMap]

/-- **C67** (refuted: loop closure) After a load, a scan whose index is below the old counter is never considered, in any
continuation. -/
theorem c67_loaded_scans_are_skipped (p : Params) (s s' t t' : Sys) (action : BitVec 32) (bag : List BagMsg) (e : Event)
    (es : List Event) (q : Search) (hi : s.spin = .idle) (hl : action &&& 4#32 ≠ 0#32)
    (hst : step p s (.configure action bag) = .ok s') (hex : Exec p Any s' es t) (h2 : step p t e = .ok t')
    (hp : TakesScan t e) (hq : t'.loop = .candidates q) : s.processed ≤ q.scan.idx := by
  have hk := (c67_load_keeps_bookkeeping p s s' action bag hi hl hst).2.2.2.1
  obtain ⟨e2, -, -⟩ := takes_scan h2 hp hq
  have hm : progress s' ≤ progress t :=
    Exec.inv (I := fun t => progress s' ≤ progress t) (fun s e s' hI _ ht => le_trans hI (progress_step ht)) hex (le_refl _)
  obtain ⟨-, r, hr⟩ := hp
  have p2 : progress t = 2 * t.processed := by simp [progress, hr]
  have p1 : 2 * s'.processed ≤ progress s' := by unfold progress; omega
  rw [e2]
  show s.processed ≤ t.processed
  omega

/-- **C67** (refuted: loop closure, concretely) On the small map a fresh process considers scan 1; a process that has worked
on the same map before and loads it again never does, until the graph has grown. -/
theorem c67_reloaded_map_not_searched : ∃ (p : Params) (s u v : Sys) (es : List Event),
    Mapper.start p true (some demoBag) = .ok s ∧
    (∃ w q, run p s [.loopWake, .loopCount, .loopPick [0]] = .ok w ∧ w.loop = .candidates q ∧ q.scan.idx = 1) ∧
    run p s es = .ok u ∧ step p u (.configure 4#32 demoBag) = .ok v ∧ v.scans = s.scans ∧
    ∀ fs t t' e q, Exec p Any v fs t → step p t e = .ok t' → TakesScan t e → t'.loop = .candidates q → q.scan.idx ≠ 1 := by
  let p := demoOpt
  have hs : (demoLoaded p true).scans = [mapDot 0 Pose2d.zero, mapDot 1 Pose2d.zero] := by
    simp [p, demoLoaded, startWith, Sys.scans, demoMap]
  let u := demoOptimising ⟨1, 0, 0⟩ fun _ _ => .fin 0
  have hv : step p u (.configure 4#32 demoBag) = .ok { u with
      epoch := u.epoch + 1, heap := fun e => if e = u.epoch + 1 then (demoMap false).scans else u.heap e,
      constraints := (demoMap false).constraints, update := true, initialized := false } := by
    show configureFile _ 4#32 demoBag u = _
    unfold configureFile
    rw [if_pos (by decide), demoBag_load, Res.ok_bind]
    rfl
  refine ⟨p, demoLoaded p true, u, _, demoRound ⟨1, 0, 0⟩ fun _ _ => .fin 0, demoLoaded_start _ _,
    ⟨_, _, run_demoSearch p _ rfl (by norm_num [p, demoOpt]) rfl hs rfl rfl rfl, rfl, rfl⟩, run_demoRound _ _, hv, ?_, ?_⟩
  · rw [hs]; simp [Sys.scans, demoMap]
  · intro fs t t' e q hex hst hp hq
    have := c67_loaded_scans_are_skipped p u _ t t' 4#32 demoBag e fs q rfl (by decide) hv hex hst hp hq
    have h2 : u.processed = 2 := rfl
    omega

/-- **C67** (refuted: solver) If the solver has already been given as many constraints as the loaded map has, an optimisation
adds none of them: the problem that is solved consists of the constraints of the map that was replaced. -/
theorem c67_solver_keeps_old_problem (ceres : Solver → Solver.Outcome) (s s' : Solver) (cs : List Constraint)
    (scans scans' : List Scan) (b : Bool) (hn : cs.length ≤ s.numConstraints)
    (h : s.optimize ceres cs scans = .ok (b, s', scans')) : s'.blocks = s.blocks := by
  unfold Solver.optimize at h
  split at h
  · injection h with h; injection h with _ h; injection h with h _; rw [← h]
  · obtain ⟨s1, h1, h⟩ := bind_ok h
    have hb : s1.blocks = s.blocks := by
      unfold Solver.prepare at h1
      simp only at h1
      rw [List.drop_eq_nil_of_le hn, List.foldlM_nil] at h1
      show _
      change (if _ then _ else _) = _ at h1
      split at h1
      · injection h1 with h1; rw [← h1]
      · cases h1
    simp only at h
    split at h <;>
      (injection h with h; injection h with _ h; injection h with h _; rw [← h]; exact hb)

/-! ## C68 The loop closure thread stays within the graph -/

theorem ptrInv_reach {p : Params} {W : Graph → Prop} {A : Sys → Event → Prop} {s : Sys} (h : Reach p W A s) : PtrInv s := by
  refine Reach.inv h ?_ fun s e s' hI _ _ ht => ptrInv_step hI ht
  intro enable file s0 hst _
  rcases start_cases hst with ⟨-, rfl⟩ | ⟨bag, g, -, -, rfl⟩ <;>
    exact ⟨fun q h => by simp [startWith] at h, fun q c h => by simp [startWith] at h, fun q c h => by simp [startWith] at h⟩

/-- **C68** The scans the loop closure thread holds pointers to stay valid even if maps are loaded meanwhile: comparing a
scan with a candidate is always defined. -/
theorem c68_pointers_stay_valid (p : Params) (W : Graph → Prop) (A : Sys → Event → Prop) (s : Sys) (h : Reach p W A s)
    (score : Fl) (correction : Pose2d) (cov : Mat3) : ∃ s', step p s (.loopMatched score correction cov) = .ok s' := by
  simp only [step]
  split
  · rename_i q cand hq
    obtain ⟨⟨-, h1⟩, -, h2⟩ := (ptrInv_reach h).matching q cand hq
    unfold loopMatched
    split
    · rw [List.getElem?_eq_getElem h1, List.getElem?_eq_getElem h2]
      exact ⟨_, rfl⟩
    · exact ⟨_, rfl⟩
  · exact ⟨_, rfl⟩

theorem roundInv_reach {p : Params} {s : Sys}
    (h : Reach p (FarMap p.rollingDepth) (fun s e => SmallGraph s e ∧ LoadsBetweenRounds s e) s) : LoopInv p s ∧ RoundInv s := by
  have h1 : Reach p (FarMap p.rollingDepth) SmallGraph s := by
    obtain ⟨en, f, s0, es, a, b, c⟩ := h
    exact ⟨en, f, s0, es, a, b, Exec.mono (fun s e he => ⟨he.1.1, he.2⟩) c⟩
  refine ⟨(loopInv_reach h1).2.2, Reach.inv h ?_ fun s e s' hI ha _ ht => roundInv_step hI ha.2 ht⟩
  intro enable file s0 hst _
  rcases start_cases hst with ⟨-, rfl⟩ | ⟨bag, g, -, -, rfl⟩ <;>
    exact ⟨fun r h => by simp [startWith] at h, fun q h => by simp [startWith] at h, fun q c h => by simp [startWith] at h,
      fun q c h => by simp [startWith] at h⟩

/-- **C68** (partial) If maps are loaded only between rounds of the loop closure thread, taking a scan with its neighbours is
always defined, and looking at a candidate is, except for the missing matcher of C66. Missing: loads during a round (see
`c68_load_during_a_round`). -/
theorem c68_indices_in_range_partial (p : Params) (s : Sys)
    (h : Reach p (FarMap p.rollingDepth) (fun s e => SmallGraph s e ∧ LoadsBetweenRounds s e) s)
    (hsz : s.scans.length < 2 ^ 31) :
    (∀ visit, ∃ s', step p s (.loopPick visit) = .ok s') ∧
    ∀ f, step p s .loopCandidate = .error f → f = .nullPointer ∧ s.globalM = none := by
  obtain ⟨hL, hR⟩ := roundInv_reach h
  refine ⟨fun visit => ?_, fun f hf => ?_⟩
  · simp only [step]
    split
    · rename_i r hr
      by_cases hv : s.processed < r.n ∧ ¬ Visits visit
          (if 0 < wrapI32 (s.processed - p.rollingDepth : ℕ) then (wrapI32 (s.processed - p.rollingDepth : ℕ)).toNat
            else s.scans.length)
      · rw [if_pos hv]; exact ⟨_, rfl⟩
      · rw [if_neg hv]
        unfold loopPick
        by_cases hlt : s.processed < r.n
        · rw [if_pos hlt]
          have hn := hR.picking r hr
          have hp : s.processed < s.scans.length := lt_of_lt_of_le hlt hn
          have hsm : s.processed - p.rollingDepth < 2 ^ 31 := by omega
          obtain ⟨near, hnear⟩ := findNearest_defined (s.graph p) visit s.scans[s.processed] p.searchSize
            (wrapI32 (s.processed - p.rollingDepth : ℕ)) (by
              rw [wrapI32_small hsm]
              show _ ≤ s.scans.length
              omega)
          simp only
          rw [List.getElem?_eq_getElem hp]
          simp only
          rw [hnear]
          exact ⟨_, rfl⟩
        · rw [if_neg hlt]; exact ⟨_, rfl⟩
    · exact ⟨_, rfl⟩
  · simp only [step] at hf
    split at hf
    · rename_i q hq
      have hS := hL.candidates q hq
      obtain ⟨hn, hlt⟩ := hR.candidates q hq
      unfold loopCandidate at hf
      split at hf
      · cases hf
      · rename_i i rest hr
        have hi := hS.rest i (by rw [hr]; simp)
        have hrol := hS.rolling
        have hlen : i < s.scans.length := by omega
        rw [List.getElem?_eq_getElem hlen] at hf
        dsimp only at hf
        by_cases hp : (s.scans[i]).getPoints = []
        · rw [if_pos hp] at hf; cases hf
        · rw [if_neg hp, if_pos hi] at hf
          rw [if_neg] at hf
          · cases hg : s.globalM with
            | none => rw [hg] at hf; cases hf; exact ⟨rfl, rfl⟩
            | some w => rw [hg] at hf; cases hf
          · rintro (hbad | hbad)
            · omega
            · split at hbad <;> omega
    · cases hf

/-- Example for the hypotheses: the small map while its second scan is searched. -/
example : ∃ s, Reach (demoParams 0 3) (FarMap 0) (fun s e => SmallGraph s e ∧ LoadsBetweenRounds s e) s ∧
    s.scans.length < 2 ^ 31 ∧ ∃ q, s.loop = .candidates q := by
  have hs : (demoLoaded (demoParams 0 3) true).scans = [mapDot 0 Pose2d.zero, mapDot 1 Pose2d.zero] := by
    simp [demoLoaded, startWith, Sys.scans, demoMap]
  have h1 := run_demoSearch (demoParams 0 3) (demoLoaded (demoParams 0 3) true) rfl (by norm_num [demoParams]) rfl hs rfl rfl rfl
  have hsmall : ∀ s : Sys, s.scans = [mapDot 0 Pose2d.zero, mapDot 1 Pose2d.zero] → s.scans.length < 2 ^ 31 := by
    intro s h; rw [h]; norm_num
  refine ⟨_, ⟨true, some demoBag, _, [.loopWake, .loopCount, .loopPick [0]], demoLoaded_start _ _, ?_, ?_⟩,
    hsmall (demoSearch (demoLoaded (demoParams 0 3) true) (demoParams 0 3).searchLimit) hs, _, rfl⟩
  · intro bag hb g hg
    cases hb
    rw [demoBag_load] at hg
    cases hg
    refine ⟨?_, ?_⟩
    · intro i s h
      match i, h with
      | 0, h => simp [demoMap] at h; rw [← h]; rfl
      | 1, h => simp [demoMap] at h; rw [← h]; rfl
      | (i + 2), h => simp [demoMap] at h
    · intro c hc hsw
      simp [demoMap] at hc
      subst hc; cases hsw
  · rw [run_cons] at h1
    obtain ⟨u1, s1, h1⟩ := bind_ok h1
    rw [run_cons] at h1
    obtain ⟨u2, s2, h1⟩ := bind_ok h1
    rw [run_cons] at h1
    obtain ⟨u3, s3, h1⟩ := bind_ok h1
    have h1' : (Except.ok u3 : Res Sys) = .ok _ := h1
    injection h1' with h1'
    subst h1'
    have g1 : u1.scans = [mapDot 0 Pose2d.zero, mapDot 1 Pose2d.zero] := by
      have : step (demoParams 0 3) (demoLoaded (demoParams 0 3) true) .loopWake =
        .ok { demoLoaded (demoParams 0 3) true with loop := .counting } := rfl
      rw [this] at s1; injection s1 with s1; rw [← s1]; exact hs
    have nl : ∀ s e, (∀ action bag, e ≠ Event.configure action bag) → LoadsBetweenRounds s e := by
      rintro s e h ⟨a, b, h', -⟩; exact absurd h' (h a b)
    have g2 : u2.scans = [mapDot 0 Pose2d.zero, mapDot 1 Pose2d.zero] := by
      cases step_trans s2 with
      | stutter => exact g1
      | loopShort hi hn => exact g1
      | loopCount hi hn => exact g1
    refine .snoc (es := [.loopWake, .loopCount]) (.snoc (es := [.loopWake]) (.snoc (es := []) .nil ?_ s1) ?_ s2) ?_ s3
    · exact ⟨⟨hsmall _ hs, nl _ _ (by simp)⟩, by simp⟩
    · exact ⟨⟨hsmall _ g1, nl _ _ (by simp)⟩, by simp⟩
    · exact ⟨⟨hsmall _ g2, nl _ _ (by simp)⟩, by simp⟩

/-- **C68** (refuted) A map loaded during a round of the loop closure thread: here the thread has counted two scans, an empty
map is loaded, and it then reads scan 1 of the empty graph. -/
theorem c68_load_during_a_round : ∃ (p : Params) (s t : Sys),
    Mapper.start p true (some demoBag) = .ok s ∧ run p s [.loopWake, .loopCount, .configure 4#32 []] = .ok t ∧
    step p t (.loopPick [0]) = .error .outOfBounds := by
  let p := demoParams 0 3
  let s := demoLoaded p true
  let s2 : Sys := { s with processed := 1, loop := .picking ⟨2, false⟩ }
  have h2 : step p { s with loop := .counting } .loopCount = .ok s2 := by
    have hlen : (({ s with loop := .counting } : Sys)).scans.length = 2 := by
      simp [s, p, demoLoaded, startWith, Sys.scans, demoMap]
    show Except.ok (Mapper.loopCount p { s with loop := .counting }) = _
    unfold Mapper.loopCount
    rw [hlen, if_neg (by simp [p, demoParams])]
    rfl
  let s3 : Sys := { s2 with
    epoch := 1, heap := fun e => if e = 1 then [] else s2.heap e, constraints := [], update := true, initialized := false }
  have h3 : step p s2 (.configure 4#32 []) = .ok s3 := rfl
  refine ⟨p, s, s3, demoLoaded_start _ _, ?_, ?_⟩
  · rw [run_cons]
    show (Except.ok ({ s with loop := .counting } : Sys) >>= _) = _
    rw [Res.ok_bind, run_cons, h2, Res.ok_bind, run_cons, h3]
    rfl
  · have hw : wrapI32 1 = 1 := by decide
    have hv : Visits [0] 1 := by unfold Visits; simp
    have h4 : step p s3 (.loopPick [0]) = Mapper.loopPick p [0] ⟨2, false⟩ s3 := by
      simp only [step]
      have hr : s3.loop = .picking ⟨2, false⟩ := rfl
      rw [hr]
      dsimp only
      rw [if_neg]
      rintro ⟨-, h⟩
      apply h
      show Visits [0] (if 0 < wrapI32 (1 : ℕ) then (wrapI32 (1 : ℕ)).toNat else s3.scans.length)
      rw [if_pos (by simp [hw])]
      simpa [hw] using hv
    rw [h4]
    unfold Mapper.loopPick
    rw [if_pos (by decide)]
    rfl

end

end Ndt
