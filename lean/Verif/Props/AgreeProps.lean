import Verif.Proof.AgreeMapper
import Verif.Props.EndsProps
import Verif.Props.LoopProps

/-! # Maps that agree with their constraints (C111) -/

namespace Ndt

noncomputable section

open Spec Solver Mapper Real

/-- **C111** Optimising a map that agrees with its constraints leaves every scan at its place, whatever Ceres does among
poses that cost no more than the ones it was given: positions are the same, headings differ at most by full turns. -/
theorem c111_optimising_changes_nothing {ceres : Solver → Outcome} (hc : NotWorse ceres) {s s' : Solver} {cs : List Constraint}
    {scans scans' : List Scan} {r : Bool} (hd : (scans.map key).Nodup)
    (hsync : InSync s (cs.take s.numConstraints) scans) (hsure : ∀ c ∈ cs, Sure c)
    (hag : Agrees cs scans) (hl : LinkedBack scans.length cs) (h : s.optimize ceres cs scans = .ok (r, s', scans')) :
    SamePlaces scans scans' := optimize_places hc hd hsync hsure hag hl h

/-- What a map read at the start has to be like. -/
def AgreeingMap (g : Graph) : Prop := LinkedMap g ∧ Agrees g.constraints g.scans ∧ ∀ c ∈ g.constraints, Sure c

theorem agrees_ends {cs : List Constraint} {scans : List Scan} (h : Agrees cs scans) : EndsValid scans.length cs := by
  intro c hc
  obtain ⟨a, b, ha, hb, -⟩ := h c hc
  exact ⟨(List.getElem?_eq_some_iff.mp ha).1, (List.getElem?_eq_some_iff.mp hb).1⟩

structure AgreeInv (s : Sys) : Prop where
  graph : GraphInv s
  ends : EndsInv s
  link : LinkInv s
  solver : SolverInv s
  fit : FitInv s

theorem agreeInv_start {p : Params} {enable : Bool} {file : Option (List BagMsg)} {s0 : Sys}
    (hst : Mapper.start p enable file = .ok s0)
    (hw : ∀ bag, file = some bag → ∀ g, Graph.load p.useBarycenter bag = .ok g → AgreeingMap g) : AgreeInv s0 := by
  have r : Reach p (fun g => AgreeingMap g) (fun _ _ => False) s0 := ⟨enable, file, s0, [], hst, hw, .nil⟩
  have hG := linkInv_reach (p := p) (s := s0) ⟨enable, file, s0, [], hst, fun b hb g hg => (hw b hb g hg).1, .nil⟩
  have hE := endsInv_reach (p := p) (s := s0) ⟨enable, file, s0, [], hst,
    fun b hb g hg => ⟨(hw b hb g hg).1.1, agrees_ends (hw b hb g hg).2.1⟩, .nil⟩
  refine ⟨hG.1, hE.2, hG.2, ?_, ?_⟩
  · rcases start_cases hst with ⟨-, rfl⟩ | ⟨bag, g, hf, hg, rfl⟩ <;>
    · unfold SolverInv InSync
      simp [startWith, Solver.new]
  · rcases start_cases hst with ⟨-, rfl⟩ | ⟨bag, g, hf, hg, rfl⟩
    · exact ⟨fun c hc => by simp [startWith, Graph.new] at hc, fun c scan odom h => by simp [startWith] at h,
        fun q c h => by simp [startWith] at h⟩
    · refine ⟨fun c hc => ?_, fun c scan odom h => by simp [startWith] at h, fun q c h => by simp [startWith] at h⟩
      obtain ⟨-, h1, h2⟩ := hw bag hf g hg
      obtain ⟨a, b, ha, hb, hl⟩ := h1 c hc
      exact ⟨h2 c hc, a.pose, b.pose, Or.inl ⟨a, ha, rfl⟩, Or.inl ⟨b, hb, rfl⟩, hl⟩

theorem agreeInv_step {p : Params} {s s' : Sys} {e : Event} (h : AgreeInv s) (ha : Agreeable s e)
    (hw : ∀ action bag, e = .configure action bag → ∀ g, Graph.load p.useBarycenter bag = .ok g → AgreeingMap g)
    (ht : Trans p s e s') : AgreeInv s' := by
  refine ⟨graphInv_step h.graph (fun a b he g hg => (hw a b he g hg).1.1) ht,
    endsInv_step h.graph h.ends ?_ (fun a b he g hg => agrees_ends (hw a b he g hg).2.1) ht,
    linkInv_step h.graph h.link (fun a b he g hg => (hw a b he g hg).1.2) ht,
    solverInv_step h.solver ha ht, fitInv_step h.graph h.ends h.link h.solver h.fit ha ht⟩
  rintro ⟨action, bag, rfl, hl⟩
  exact absurd ha hl

theorem agreeInv_reach {p : Params} {s : Sys} (h : Reach p AgreeingMap Agreeable s) : AgreeInv s :=
  Reach.inv h (fun _ _ _ hst hw => agreeInv_start hst hw) (fun _ _ _ hI ha hw ht => agreeInv_step hI ha hw ht)

/-- **C111** As long as matches are sure and loop closures find nothing to correct, every constraint of the graph leads from
the place of its first scan to that of its second, in every reachable state except between the two pushes of the executor. -/
theorem c111_constraints_agree {p : Params} {s : Sys} (h : Reach p AgreeingMap Agreeable s)
    (hs : ∀ scan odom, s.spin ≠ .append scan odom) : Agrees s.constraints s.scans := by
  intro c hc
  obtain ⟨-, a, b, ha, hb, hl⟩ := (agreeInv_reach h).fit.fits c hc
  rcases ha with ⟨x, hx, rfl⟩ | ⟨-, sc, o, ha, -⟩
  · rcases hb with ⟨y, hy, rfl⟩ | ⟨-, sc, o, hb, -⟩
    · exact ⟨x, y, hx, hy, hl⟩
    · exact absurd hb (hs _ _)
  · exact absurd ha (hs _ _)

/-- Every scan of the first list is in the second, at the same place. -/
def PlacesKept (a b : List Scan) : Prop :=
  ∀ (i : ℕ) (x : Scan), a[i]? = some x → ∃ y, b[i]? = some y ∧ SamePlace x.pose y.pose

theorem PlacesKept.of_same {a b : List Scan} (h : SamePlaces a b) : PlacesKept a b := fun _ _ hx => samePlaces_get h hx

theorem PlacesKept.of_prefix {a b : List Scan} (h : a <+: b) : PlacesKept a b :=
  fun _ x hx => ⟨x, prefix_get h hx, SamePlace.refl _⟩

theorem placesKept_step {p : Params} {s s' : Sys} {e : Event} (hI : AgreeInv s) (ha : Agreeable s e) (ht : Trans p s e s') :
    PlacesKept s.scans s'.scans := by
  have same : ∀ t : Sys, t.scans = s.scans → PlacesKept s.scans t.scans :=
    fun t h => PlacesKept.of_prefix (by rw [h])
  have grow : ∀ (t : Sys) (l : List Scan), t.scans = s.scans ++ l → PlacesKept s.scans t.scans :=
    fun t l h => PlacesKept.of_prefix (by rw [h]; exact List.prefix_append _ _)
  cases ht with
  | laserIgnored msg mount odom odomEnd hi =>
    obtain ⟨r, l, g, m, e, -⟩ := setup_cases p msg mount s
    rw [e]; exact same _ rfl
  | laserScan msg mount odom odomEnd points hi hgo hinit ht =>
    obtain ⟨r, l, g, m, e, -⟩ := setup_cases p msg mount s
    rw [e]; exact same _ rfl
  | pushScan scan odom hi => exact grow _ [scan] (by simp [Sys.scans])
  | poseScan m odom visit near i rest hi he hn hf hnear hv hfind =>
    exact grow _ [(Scan.new s.scans.length).setPose m.pose] (by simp [Sys.scans])
  | configureFlags action bag hi hl =>
    obtain ⟨en, ini, e, -⟩ := configureMapping_frame action s
    rw [e]; exact same _ rfl
  | load action bag g hi hl hg => exact absurd ha hl
  | loopReject score correction cov q cand hi hs =>
    obtain ⟨pr, l, e⟩ := afterAttempt_frame q s
    rw [e]; exact same _ rfl
  | loopPush q c hi =>
    obtain ⟨pr, l, e⟩ := afterAttempt_frame q { s with constraints := s.constraints ++ [c], update := true }
    rw [e]; exact same _ rfl
  | loopAccept score correction cov q cand scan candidate hi hf hs h1 h2 =>
    obtain ⟨hcov, rfl⟩ := ha
    exact PlacesKept.of_same (samePlaces_set s.heap q.scan scan h1 s.epoch)
  | loopOptimise ceres b solver scans hi ho =>
    show PlacesKept s.scans (if s.epoch = s.epoch then scans else _)
    rw [if_pos rfl]
    exact PlacesKept.of_same (optimise_fits hI.graph hI.link hI.solver hI.fit ha ho)
  | pubTf hi =>
    obtain ⟨x, e⟩ := pubTf_frame s
    rw [e]; exact same _ rfl
  | _ => exact same _ rfl

/-- **C111** So the map never moves: whatever is scanned and however often it is optimised, every scan keeps its place from
the moment it is in the graph. -/
theorem c111_map_does_not_move {p : Params} {s t : Sys} {es : List Event} (h : Reach p AgreeingMap Agreeable s)
    (he : Exec p (fun s e => Agreeable s e ∧ ¬ ∃ action bag, e = .configure action bag) s es t) :
    PlacesKept s.scans t.scans := by
  have hI := agreeInv_reach h
  suffices AgreeInv t ∧ PlacesKept s.scans t.scans from this.2
  refine Exec.inv (I := fun t => AgreeInv t ∧ PlacesKept s.scans t.scans) ?_ he ⟨hI, PlacesKept.of_prefix (List.prefix_refl _)⟩
  rintro t e t' ⟨h1, h2⟩ ⟨ha, hno⟩ ht
  refine ⟨agreeInv_step h1 ha (fun a b he => absurd ⟨a, b, he⟩ hno) ht, fun i x hx => ?_⟩
  obtain ⟨y, hy, hp⟩ := h2 i x hx
  obtain ⟨z, hz, hq⟩ := placesKept_step h1 ha ht i y hy
  exact ⟨z, hz, hp.trans hq⟩

/-- An optimiser that proposes whatever it likes and calls it usable if it costs no more. -/
def cautious (f : ℤ → Pose2d) (s : Solver) : Outcome :=
  ⟨@decide (∀ c, CostIs s.blocks s.nodes c → ∃ c', c' ≤ c ∧ CostIs s.blocks (s.solved ⟨true, f⟩).nodes c')
    (Classical.propDecidable _), f⟩

theorem cautious_notWorse (f : ℤ → Pose2d) : NotWorse (cautious f) := by
  intro s c hu h
  have := (@decide_eq_true_iff _ (Classical.propDecidable _)).mp hu
  exact this c h

/-- A link that says nothing. -/
def emptyLink : Constraint := ⟨0, 1, Pose2d.zero, fun _ _ => .fin 0, false⟩

theorem normSq_nonneg (r : Fin 3 → ℝ) : 0 ≤ normSq r := by
  unfold normSq
  positivity

/-- **C111** (what is not claimed) With a constraint whose information says nothing, an optimiser that makes nothing worse may
move a scan anywhere, although the map agrees with the constraint. -/
theorem c111_empty_information_lets_go : ∃ s' scans',
    Agrees [emptyLink] [Scan.new 0, Scan.new 1] ∧ ¬ Sure emptyLink ∧
    Solver.new.optimize (cautious fun _ => ⟨5, 0, 0⟩) [emptyLink] [Scan.new 0, Scan.new 1] = .ok (true, s', scans') ∧
    (scans'[1]?).map (·.pose) = some ⟨5, 0, 0⟩ ∧ ¬ SamePlaces [Scan.new 0, Scan.new 1] scans' := by
  have k0 : key (Scan.new 0) = 0 := wrapI32_of_lt (n := 0) (by norm_num)
  have k1 : key (Scan.new 1) = 1 := wrapI32_of_lt (n := 1) (by norm_num)
  have hL : matrixL emptyLink.information = fun _ _ => .fin 0 := by
    have h0 : Fl.le (.fin (0 : ℝ)) (.fin 0) := by rw [Fl.le_fin]
    funext i j
    unfold matrixL llt3 emptyLink
    dsimp only
    rw [if_pos h0]
    fin_cases i <;> fin_cases j <;> rfl
  set v : Solver := ⟨setNodes (fun _ => none) [Scan.new 0, Scan.new 1], [⟨Pose2d.zero, fun _ _ => .fin 0, 0, 1⟩], [0], 1⟩ with hv
  have hp : Solver.new.prepare [emptyLink] [Scan.new 0, Scan.new 1] (Scan.new 0) = .ok v := by
    have hin : inProblem ⟨setNodes (fun _ => none) [Scan.new 0, Scan.new 1], [⟨Pose2d.zero, fun _ _ => .fin 0, 0, 1⟩], [], 1⟩ 0 :=
      ⟨_, List.mem_singleton.mpr rfl, Or.inl rfl⟩
    unfold prepare
    simp only [Solver.new, List.drop_zero, List.foldlM_cons, List.foldlM_nil]
    unfold addConstraint
    simp only [emptyLink, List.getElem?_cons_zero, List.getElem?_cons_succ, k0, k1]
    have hL' : matrixL (fun _ _ => Fl.fin 0) = fun _ _ => Fl.fin 0 := hL
    rw [if_neg (by norm_num), hL']
    simp only [List.nil_append, Res.ok_bind]
    simp only [pure, Except.pure, Res.ok_bind, List.length_singleton]
    rw [if_pos hin]
  have hn0 : v.nodes 0 = some Pose2d.zero := by
    show (if (0 : ℤ) = key (Scan.new 1) then some (Scan.new 1).getPose else
      if (0 : ℤ) = key (Scan.new 0) then some (Scan.new 0).getPose else none) = _
    rw [k0, k1, if_neg (by norm_num), if_pos rfl]
    rfl
  have hn1 : v.nodes 1 = some Pose2d.zero := by
    show (if (1 : ℤ) = key (Scan.new 1) then some (Scan.new 1).getPose else
      if (1 : ℤ) = key (Scan.new 0) then some (Scan.new 0).getPose else none) = _
    rw [k0, k1, if_pos rfl]
    rfl
  have hin0 : v.inProblem 0 := ⟨_, List.mem_singleton.mpr rfl, Or.inl rfl⟩
  have hin1 : v.inProblem 1 := ⟨_, List.mem_singleton.mpr rfl, Or.inr rfl⟩
  have hs0 : ∀ b, (v.solved ⟨b, fun _ => ⟨5, 0, 0⟩⟩).nodes 0 = some Pose2d.zero := by
    intro b
    have : (0 : ℤ) ∈ v.constants ∨ ¬ v.inProblem 0 := Or.inl (by simp [hv])
    simp only [solved, hn0, Option.map_some, if_pos this]
  have hs1 : ∀ b, (v.solved ⟨b, fun _ => ⟨5, 0, 0⟩⟩).nodes 1 = some ⟨5, 0, 0⟩ := by
    intro b
    have : ¬ ((1 : ℤ) ∈ v.constants ∨ ¬ v.inProblem 1) := by
      rintro (h | h)
      · simp [hv] at h
      · exact h hin1
    simp only [solved, hn1, Option.map_some, if_neg this]
  have hu : (cautious (fun _ => ⟨5, 0, 0⟩) v).usable = true := by
    refine (@decide_eq_true_iff _ (Classical.propDecidable _)).mpr ?_
    rintro c ⟨rs, -, rfl⟩
    refine ⟨0, List.sum_nonneg (by intro x hx; obtain ⟨r, -, rfl⟩ := List.mem_map.mp hx; exact normSq_nonneg r), [fun _ => 0], ?_, ?_⟩
    · refine List.Forall₂.cons ⟨_, _, hs0 true, hs1 true, ?_⟩ .nil
      intro i
      show (Fl.fin 0 * .fin _ + Fl.fin 0 * .fin _ + Fl.fin 0 * .fin _ : Fl) = _
      simp only [Fl.fin_mul, Fl.fin_add, zero_mul, add_zero]
    · simp [normSq]
  have hns : ¬ Sure emptyLink := by
    rintro ⟨inf, h1, h2⟩
    have h3 : ∀ i j, inf i j = 0 := by
      intro i j
      have := h1 i j
      injection this with this
      exact this.symm
    have := quad_pos h2 (x := ![1, 0, 0]) (fun hc => by have := congrFun hc 0; simp at this)
    rw [quad_three] at this
    simp [h3] at this
  have hw : ((v.solved (cautious (fun _ => ⟨5, 0, 0⟩) v)).writeBack [Scan.new 0, Scan.new 1]) =
      [(Scan.new 0).setPose Pose2d.zero, (Scan.new 1).setPose ⟨5, 0, 0⟩] := by
    unfold writeBack
    simp only [List.map_cons, List.map_nil, k0, k1]
    have e0 : (v.solved (cautious (fun _ => ⟨5, 0, 0⟩) v)).nodes 0 = some Pose2d.zero := hs0 _
    have e1 : (v.solved (cautious (fun _ => ⟨5, 0, 0⟩) v)).nodes 1 = some ⟨5, 0, 0⟩ := hs1 _
    rw [e0, e1]
  refine ⟨v.solved (cautious (fun _ => ⟨5, 0, 0⟩) v), [(Scan.new 0).setPose Pose2d.zero, (Scan.new 1).setPose ⟨5, 0, 0⟩], ?_, hns, ?_, ?_, ?_⟩
  · intro c hc
    rw [List.mem_singleton] at hc
    subst hc
    refine ⟨Scan.new 0, Scan.new 1, rfl, rfl, ?_⟩
    unfold Leads
    have : compose (Scan.new 0).pose emptyLink.transform = (Scan.new 1).pose := by
      simp [compose, emptyLink, Scan.new, Pose2d.zero]
    rw [this]
    exact SamePlace.refl _
  · unfold optimize
    simp only
    rw [hp]
    simp only [Res.ok_bind]
    rw [if_pos hu, hw]
  · rfl
  · rintro ⟨-, h⟩
    have := (h 1 _ _ rfl rfl).1
    simp [Scan.new, Scan.setPose, Pose2d.zero] at this

/-- The covariance of the example. -/
def sureIdentity : Mat3 := fun i j => .fin (if i = j then 1 else 0)

theorem sureIdentity_sure : SureCov sureIdentity := by
  refine ⟨1, fun i j => ?_, Matrix.PosDef.one⟩
  unfold sureIdentity
  rw [Matrix.one_apply]

theorem demoMap_agrees (use : Bool) : AgreeingMap (demoMap use) := by
  refine ⟨⟨?_, ?_⟩, ?_, ?_⟩
  · intro i a ha
    match i, ha with
    | 0, ha => cases ha; rfl
    | 1, ha => cases ha; rfl
  · intro j h0 hj
    have : j = 1 := by simp [demoMap] at hj; omega
    subst this
    exact ⟨demoLink, List.mem_singleton.mpr rfl, rfl, by norm_num [demoLink]⟩
  · intro c hc
    have := List.mem_singleton.mp hc
    subst this
    refine ⟨mapDot 0 Pose2d.zero, mapDot 1 Pose2d.zero, rfl, rfl, ?_⟩
    unfold Leads
    have : compose (mapDot 0 Pose2d.zero).pose demoLink.transform = (mapDot 1 Pose2d.zero).pose := by
      simp [compose, demoLink, mapDot, Scan.setPose, Scan.setPoints, Pose2d.zero]
    rw [this]
    exact SamePlace.refl _
  · intro c hc
    have := List.mem_singleton.mp hc
    subst this
    refine ⟨1, fun i j => ?_, Matrix.PosDef.one⟩
    fin_cases i <;> fin_cases j <;> simp [demoLink, Matrix.one_apply]

theorem demoRound_agreeable : ∀ e ∈ demoRound Pose2d.zero sureIdentity, ∀ t, Agreeable t e := by
  intro e he t
  simp only [demoRound, demoClosing, demoLaser, List.mem_append, List.mem_cons, List.not_mem_nil, or_false] at he
  rcases he with (rfl | (rfl | rfl | rfl) | rfl | rfl) | (rfl | rfl | rfl) | rfl
  all_goals first | trivial | exact ⟨sureIdentity_sure, rfl⟩

/-- Example: a map from a file, a scan, a loop closure that finds nothing to correct, and then an optimiser that would like all
scans at (1, 2). -/
example : Reach demoOpt AgreeingMap Agreeable (demoOptimising Pose2d.zero sureIdentity) ∧
    (demoOptimising Pose2d.zero sureIdentity).loop = .optimising ∧
    Agreeable (demoOptimising Pose2d.zero sureIdentity) (.loopOptimise (cautious fun _ => ⟨1, 2, 3⟩)) := by
  refine ⟨⟨true, some demoBag, _, demoRound Pose2d.zero sureIdentity, demoLoaded_start _ _, ?_, ?_⟩, rfl, cautious_notWorse _, ?_⟩
  · intro bag hb g hg
    cases hb
    rw [demoBag_load] at hg
    cases hg
    exact demoMap_agrees _
  · refine Exec.mono (A := fun _ e => (∀ t, Agreeable t e) ∧ ∀ action bag, e ≠ .configure action bag)
      (fun s e he => ⟨he.1 s, fun a b hc => absurd hc (he.2 a b)⟩)
      ((exec_iff_run _ (fun e => (∀ t, Agreeable t e) ∧ ∀ action bag, e ≠ .configure action bag) _ _ _).mpr ⟨run_demoRound _ _, ?_⟩)
    intro e he
    refine ⟨demoRound_agreeable e he, ?_⟩
    rintro action bag rfl
    simp [demoRound, demoClosing, demoLaser] at he
  · show List.length _ ≤ _
    simp [demoOptimising, demoDeciding, demoSetUp, demoLoaded, startWith, Sys.scans, setPoseAt, demoMap]

end

end Ndt
