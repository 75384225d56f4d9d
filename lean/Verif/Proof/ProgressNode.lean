import Verif.Proof.Progress
import Verif.Proof.DemoNode
import Verif.Props.LaserProps

/-! # Helper lemmas: the state of a node that maps within bounds -/

namespace Ndt

open Spec Mapper

noncomputable section

/-- No loads, and not too many scans. -/
def Quiet (s : Sys) (e : Event) : Prop :=
  s.scans.length < 2 ^ 31 ∧ ¬ Loads e ∧ ∀ action bag, e = .configure action bag → bag = []

theorem quiet_exec {np : NodeParams} {b : Bounds} {n0 n : Node} {is : List Input}
    (h : NodeExec np (fun n i => InBounds b n ∧ Ordinary n i) n0 is n) : ∃ es, Exec np.map Quiet n0.sys es n.sys := by
  induction h with
  | nil => exact ⟨[], .nil⟩
  | snoc _ ha hst ih =>
    rename_i t t' i _
    obtain ⟨es, ih⟩ := ih
    rcases Node.step_does hst with rfl | ⟨e, he⟩
    · exact ⟨es, ih⟩
    · by_cases hc : ∃ action bag, e = .configure action bag
      · obtain ⟨action, bag, rfl⟩ := hc
        have hi := he.configure action bag rfl
        have ho := ha.2
        rw [hi] at ho
        have ho : action &&& 4#32 = 0#32 := ho
        refine ⟨es ++ [.configure action []], .snoc ih ⟨ha.1.fewScans, ?_, ?_⟩ ?_⟩
        · rintro ⟨a, c, h1, h2⟩
          cases h1
          exact h2 ho
        · rintro a c h1
          cases h1
          rfl
        · rw [← he.ok]
          unfold Mapper.step
          simp only [configure, configureFile, ho, ne_eq, not_true_eq_false, if_false]
      · refine ⟨es ++ [e], .snoc ih ⟨ha.1.fewScans, ?_, ?_⟩ he.ok⟩
        · rintro ⟨a, c, h1, -⟩
          exact hc ⟨a, c, h1⟩
        · rintro a c h1
          exact absurd ⟨a, c, h1⟩ hc

/-- What is known of the mapper of a node that maps within bounds. -/
structure MapFacts (p : Params) (s : Sys) : Prop where
  graph : GraphInv s
  ends : EndsInv s
  link : LinkInv s
  loop : LoopInv p s
  round : RoundInv s
  ptr : PtrInv s
  made : MatcherInv s
  early : EarlyInv s
  order : OrderInv s
  problem : ProblemInv s
  long : LongInv p s
  spin : p.useFilter = false → SpinInv s
  reach : Reach p (FarMap p.rollingDepth) (fun s e => SmallGraph s e ∧ LoadsBetweenRounds s e) s
  ends' : Reach p ValidMap QuietLoads s

theorem mapFacts {p : Params} {enable : Bool} {es : List Event} {s : Sys}
    (h : Exec p Quiet (startWith p enable false (Graph.new p.useBarycenter)) es s) : MapFacts p s := by
  have hload : ∀ g, Graph.load p.useBarycenter [] = .ok g → g = Graph.new p.useBarycenter := by
    intro g hg; cases hg; rfl
  have reach : ∀ (W : Graph → Prop) (A : Sys → Event → Prop), W (Graph.new p.useBarycenter) →
      (∀ s e, Quiet s e → A s e) → Reach p W A s := by
    intro W A hW hA
    refine ⟨enable, none, _, es, rfl, by simp, Exec.mono (fun s e he => ⟨hA s e he, ?_⟩) h⟩
    intro a c h1 g hg
    rw [he.2.2 a c h1] at hg
    rw [hload g hg]; exact hW
  have rV := reach ValidMap QuietLoads ⟨ids_nil, by intro c hc; simp [Graph.new] at hc⟩ fun s e he hl => absurd hl he.2.1
  have rF := reach (FarMap p.rollingDepth) (fun s e => SmallGraph s e ∧ LoadsBetweenRounds s e)
    ⟨ids_nil, by intro c hc; simp [Graph.new] at hc⟩ fun s e he => ⟨he.1, fun hl => absurd hl he.2.1⟩
  have rL := reach LinkedMap Any ⟨ids_nil, by intro j h0 hj; simp [Graph.new] at hj⟩ fun s e he => trivial
  obtain ⟨hlo, hro⟩ := roundInv_reach rF
  have base : ∀ s es, Exec p Quiet (startWith p enable false (Graph.new p.useBarycenter)) es s →
      GraphInv s ∧ EndsInv s ∧ LoopInv p s ∧ MatcherInv s ∧ EarlyInv s ∧ OrderInv s ∧ ProblemInv s ∧ LongInv p s ∧
        (p.useFilter = false → SpinInv s) ∧ OdomInv s := by
    intro s es h
    refine Exec.inv (I := fun s => GraphInv s ∧ EndsInv s ∧ LoopInv p s ∧ MatcherInv s ∧ EarlyInv s ∧ OrderInv s ∧
      ProblemInv s ∧ LongInv p s ∧ (p.useFilter = false → SpinInv s) ∧ OdomInv s) ?_ h ?_
    · rintro s e s' ⟨h1, h2, h3, h4, h5, h6, h7, h8, h9, h10⟩ ⟨hq1, hq2, hq3⟩ ht
      have hcf : ∀ a c, e = .configure a c → ∀ g, Graph.load p.useBarycenter c = .ok g → g = Graph.new p.useBarycenter := by
        intro a c he g hg
        rw [hq3 a c he] at hg
        exact hload g hg
      refine ⟨graphInv_step h1 (fun a c he g hg => by rw [hcf a c he g hg]; exact ids_nil) ht,
        endsInv_step h1 h2 (fun hl => absurd hl hq2)
          (fun a c he g hg => by rw [hcf a c he g hg]; intro c hc; simp [Graph.new] at hc) ht,
        loopInv_step h1 h10 h3 hq1 (fun a c he g hg => by rw [hcf a c he g hg]; intro c hc; simp [Graph.new] at hc) ht,
        matcherInv_step h4 ht, earlyInv_step h4 h5 (fun hl => absurd hl hq2) ht,
        orderInv_step h1 h2 h3 h6 hq2 ht, problemInv_step h1 h7 ht, longInv_step h8 hq2 ht,
        fun hf => spinInv_step hf (h9 hf) hq2 ht, odomInv_step h10 ht⟩
    · refine ⟨graphInv_start (enable := enable) (file := none) rfl (by simp), ?_, ?_, ⟨fun h => absurd rfl h, fun h => h.elim⟩,
        fun _ => ⟨rfl, Or.inl rfl⟩, ?_, Or.inl rfl, fun h => absurd rfl h, ?_, ?_⟩
      · refine ⟨?_, ?_, ?_, ?_, ?_⟩
        · intro c hc; simp [startWith, Graph.new] at hc
        all_goals (intros; simp [startWith] at *)
      · refine ⟨?_, ?_, ?_, ?_, ?_⟩
        · intro c hc; simp [startWith, Graph.new] at hc
        all_goals (intros; simp [startWith] at *)
      · intro c hc; simp [startWith, Graph.new] at hc
      · intro _
        exact ⟨fun a b h => by simp [startWith] at h, fun a b h => by simp [startWith] at h,
          fun a b h => by simp [startWith] at h, fun a b h => by simp [startWith] at h⟩
      · intro c scan odom h; simp [startWith] at h
  obtain ⟨h1, h2, h3, h4, h5, h6, h7, h8, h9, -⟩ := base s es h
  exact ⟨h1, h2, (linkInv_reach rL).2, hlo, hro, ptrInv_reach rF, h4, h5, h6, h7, h8, h9, rF, rV⟩

theorem maps_start {np : NodeParams} {enable : Bool} {n0 : Node} (h : Node.start np enable none = .ok n0) :
    n0.sys = startWith np.map enable false (Graph.new np.map.useBarycenter) := by
  have := (Node.start_sys h).1
  unfold Mapper.start at this
  injection this with this
  exact this.symm

theorem exec_tied {np : NodeParams} {A : Node → Input → Prop} {enable : Bool} {file : Option (List BagMsg)} {n0 n : Node}
    {is : List Input} (hst : Node.start np enable file = .ok n0) (h : NodeExec np A n0 is n) : Node.Tied np n :=
  Node.exec_inv (fun _ _ _ hI _ hs => Node.tied_step hI hs) h (Node.tied_start hst)

/-- The maps of the matchers are within the bounds. -/
structure GridsIn (np : NodeParams) (b : Bounds) (n : Node) : Prop where
  glob : ∀ m, n.globalN = some m → ∀ g, m.ndt = some g → GridIn b np.globalCfg.resolution g
  loc : ∀ m, n.localN = some m → ∀ g, m.ndt = some g → GridIn b np.localCfg.resolution g

theorem fits_params {b : Bounds} {cfg m : Matcher} (h : HasParams cfg m) (hf : Fits b cfg) :
    Fits b m ∧ m.resolution = cfg.resolution := by
  obtain ⟨r, nd, rfl⟩ := h
  exact ⟨⟨hf.res, hf.linear, hf.angular, hf.cells, hf.near⟩, rfl⟩

theorem window_of {p : Params} {scan : Scan} {odom : Pose2d} {s s' : Sys} (hd : 10 ≤ p.rollingDepth)
    (h : addWindow p scan odom s = .ok s') (hne : s.scans ≠ []) :
    ∃ w, s'.localM = some w ∧ w ≠ [] ∧ ∀ t ∈ w, t ∈ s.scans := by
  unfold addWindow at h
  split_ifs at h with h1 h2 h3
  · cases h; exact ⟨_, rfl, hne, fun _ h => h⟩
  · cases h
    refine ⟨_, rfl, ?_, fun t ht => List.mem_of_mem_drop ht⟩
    intro h0
    have := congrArg List.length h0
    rw [List.length_drop, List.length_nil] at this
    omega

theorem region_of {p : Params} {q : Search} {s s' : Sys} {q' : Search} {c : Ptr} (hq : SearchOK p s.processed q)
    (h : loopCandidate q s = .ok s') (hm : s'.loop = .matching q' c) :
    ∃ w, s'.globalM = some w ∧ w ≠ [] ∧ ∀ t ∈ w, t ∈ s.scans := by
  unfold loopCandidate at h
  split at h
  · cases h; simp [nextScan] at hm
  · rename_i i rest hr
    split at h
    · cases h
    · rename_i cand hc
      split at h
      · cases h; simp at hm
      · simp only at h
        generalize hb : (if 0 < i then i - 1 else i) = b at h
        generalize he : (if i < q.rolling then i + 1 else i) = e at h
        split at h
        · injection h
        · split at h
          · injection h
          · injection h with h
            rw [← h] at hm ⊢
            have hi : i < q.rolling := hq.rest i (by rw [hr]; simp)
            have hl := (List.getElem?_eq_some_iff.mp hc).1
            refine ⟨_, rfl, ?_, fun t ht => List.mem_of_mem_take (List.mem_of_mem_drop ht)⟩
            intro h0
            have := congrArg List.length h0
            rw [List.length_drop, List.length_take, List.length_nil] at this
            rw [if_pos hi] at he
            split at hb <;> omega

theorem reset_fits {b : Bounds} {m : Matcher} (h : Fits b m) : Fits b m.reset :=
  ⟨h.res, h.linear, h.angular, h.cells, h.near⟩

theorem gridsIn_step {np : NodeParams} {b : Bounds} (hp : Suits b np) {n n' : Node} {i : Input} (hT : Node.Tied np n)
    (hF : MapFacts np.map n.sys) (hb : InBounds b n) (ho : Ordinary n i) (hG : GridsIn np b n)
    (h : n.step np i = .ok n') : GridsIn np b n' := by
  cases Node.step_ntrans h with
  | makes msg mount odom odomEnd r g s hm hr hg hs =>
    have he : n.sys.enable = true := ho.2 hm.2.1
    rw [hp.noFilter, he] at hg
    cases hg
    exact ⟨fun m h g hg => by (cases h; cases hg), fun m h g hg => by (cases h; cases hg)⟩
  | addWindow scan odom s l l' w hi hl hw ha hs =>
    refine ⟨hG.glob, ?_⟩
    simp only [Mapper.step, hi] at hs
    obtain ⟨w', hw', hne, hsub⟩ := window_of hp.depth hs ((hF.spin hp.noFilter).window scan odom hi)
    rw [hw] at hw'
    cases hw'
    obtain ⟨hf, hres⟩ := fits_params (hT.lcfg l hl) hp.loc
    obtain ⟨r0, r1⟩ := hb.range l (Or.inr hl)
    obtain ⟨g, hg, hin⟩ := addScans_in hp.place hp.reach (reset_fits hf) r0 r1 hne fun t ht => hb.scans t (hsub t ht)
    rw [hg] at ha
    cases ha
    intro m h g' hg'
    cases h
    cases hg'
    rw [← hres]; exact hin
  | loopMap q q' c s g g' w hi hi' hg hw ha hs =>
    refine ⟨?_, hG.loc⟩
    simp only [Mapper.step, hi] at hs
    obtain ⟨w', hw', hne, hsub⟩ := region_of (hF.loop.candidates q hi) hs hi'
    rw [hw] at hw'
    cases hw'
    obtain ⟨hf, hres⟩ := fits_params (hT.gcfg g hg) hp.glob
    obtain ⟨r0, r1⟩ := hb.range g (Or.inl hg)
    obtain ⟨gr, hgr, hin⟩ := addScans_in hp.place hp.reach (reset_fits hf) r0 r1 hne fun t ht => hb.scans t (hsub t ht)
    rw [hgr] at ha
    cases ha
    intro m h g' hg'
    cases h
    cases hg'
    rw [← hres]; exact hin
  | stutter => exact hG
  | _ => exact ⟨hG.glob, hG.loc⟩

/-- Everything needed of a node that maps within bounds. -/
theorem maps_facts {np : NodeParams} {b : Bounds} (hp : Suits b np) {n : Node} (h : Maps np b n) :
    Node.Tied np n ∧ MapFacts np.map n.sys ∧ GridsIn np b n := by
  obtain ⟨enable, n0, is, hst, he⟩ := h
  have hfacts : ∀ {is : List Input} {n : Node}, NodeExec np (fun n i => InBounds b n ∧ Ordinary n i) n0 is n →
      MapFacts np.map n.sys := by
    intro is n he
    obtain ⟨es, hes⟩ := quiet_exec he
    rw [maps_start hst] at hes
    exact mapFacts hes
  refine ⟨exec_tied hst he, hfacts he, ?_⟩
  induction he with
  | nil =>
    obtain ⟨-, hg, hl⟩ := Node.start_sys hst
    exact ⟨fun m h => by (rw [hg] at h; cases h), fun m h => by (rw [hl] at h; cases h)⟩
  | snoc he ha hs ih => exact gridsIn_step hp (exec_tied hst he) (hfacts he) ha.1 ha.2 ih hs

/-! ### Single pieces of work -/

theorem finitePoints_ok : ∀ (ps : List FPoint), (∀ p ∈ ps, ∃ q, IsPoint p q) → ∃ out, finitePoints ps = .ok out
  | [], _ => ⟨[], rfl⟩
  | p :: ps, h => by
      obtain ⟨q, hq⟩ := h p (by simp)
      obtain ⟨out, ho⟩ := finitePoints_ok ps fun r hr => h r (by simp [hr])
      unfold IsPoint at hq
      rw [hq]
      simp only [finitePoints, ho, Res.ok_bind]
      exact ⟨_, rfl⟩

theorem points_defined {msg : LaserMsg} (limit : ℝ) (inverted : Bool) (lt a b : Pose2d) (hn : ∀ r ∈ msg.ranges, r ≠ .ninf)
    (h0 : inverted = true → msg.ranges ≠ []) :
    ∃ ps, Laser.points msg (.fin limit) inverted lt a b = .ok ps ∧ ∀ p ∈ ps, ∃ q, IsPoint p q := by
  cases inverted with
  | false =>
    refine ⟨_, c47_forward_beams_partial msg limit lt a b hn, fun p hp => ?_⟩
    obtain ⟨q, -, rfl⟩ := List.mem_map.mp hp
    exact ⟨_, shift_fin _ (project_fin _ _ _)⟩
  | true =>
    refine ⟨_, c47_inverted_beams_partial msg limit lt a b hn (h0 rfl), fun p hp => ?_⟩
    obtain ⟨q, -, rfl⟩ := List.mem_map.mp hp
    exact ⟨_, shift_fin _ (project_fin _ _ _)⟩

theorem laser_defined {n : Node} {p : Params} {msg : LaserMsg} {mount : Option (Pose2d × Bool)} (h : Readable n msg mount)
    (odom odomEnd : Option Pose2d) : ∃ s', Mapper.step p n.sys (.laser msg mount odom odomEnd) = .ok s' := by
  obtain ⟨h1, ⟨r, h2⟩, h3⟩ := h
  simp only [Mapper.step]
  split
  swap
  · exact ⟨_, rfl⟩
  unfold laserCallback
  have hr : (laserSetup p msg mount n.sys).1.rangeMax = .fin r := by
    rw [← h2]
    unfold laserSetup
    simp only
    split
    · rfl
    · split <;> rfl
  have hl : ∀ pose, (laserSetup p msg mount n.sys).1.laser = some (pose, true) → msg.ranges ≠ [] := by
    intro pose hp
    refine h3 ⟨pose, ?_⟩
    unfold laserSetup at hp
    simp only at hp
    split at hp
    · exact Or.inl hp
    · split at hp
      · exact Or.inl hp
      · exact Or.inr hp
  generalize laserSetup p msg mount n.sys = st at hr hl
  simp only
  split
  · exact ⟨_, rfl⟩
  split
  · exact ⟨_, rfl⟩
  cases odom with
  | none => exact ⟨_, rfl⟩
  | some odom =>
    simp only
    split
    · exact ⟨_, rfl⟩
    cases odomEnd with
    | none => exact ⟨_, rfl⟩
    | some odomEnd =>
      simp only
      split
      · exact ⟨_, rfl⟩
      · rename_i transform inverted hlas
        obtain ⟨ps, hps, hfin⟩ := points_defined r inverted transform odom odomEnd h1 fun hi => hl transform (by rw [hlas, hi])
        obtain ⟨out, hout⟩ := finitePoints_ok ps hfin
        rw [hr, hps]
        simp only [Res.ok_bind, hout]
        exact ⟨_, rfl⟩

theorem addWindow_defined {p : Params} {scan : Scan} {odom : Pose2d} {s : Sys} (hd : 10 ≤ p.rollingDepth)
    (hl : s.localM ≠ none) : ∃ s', addWindow p scan odom s = .ok s' := by
  unfold addWindow
  rw [if_neg hl]
  split
  · exact ⟨_, rfl⟩
  · rw [if_neg (by omega)]; exact ⟨_, rfl⟩

theorem pose_defined (p : Params) (s : Sys) (msg : PoseMsg) (odom : Option Pose2d) (visit : List ℕ) :
    ∃ s', Mapper.step p s (.pose msg odom visit) = .ok s' := by
  simp only [Mapper.step]
  split
  swap
  · exact ⟨_, rfl⟩
  split
  swap
  · exact ⟨_, rfl⟩
  rename_i hv
  unfold poseCallback
  split
  · exact ⟨_, rfl⟩
  split
  · exact ⟨_, rfl⟩
  split
  · exact ⟨_, rfl⟩
  split
  · exact ⟨_, rfl⟩
  split
  swap
  · exact ⟨_, rfl⟩
  obtain ⟨near, hnear⟩ := findNearest_defined (s.graph p) visit ((Scan.new s.scans.length).setPose msg.pose) 10 (-1)
    (by simp)
  simp only [hnear, Res.ok_bind]
  cases near with
  | nil => exact ⟨_, rfl⟩
  | cons i rest =>
    have hi := findNearest_subset hnear i (by simp)
    have hi : i < s.scans.length := by
      have := (List.Perm.mem_iff hv).mp hi
      simpa using this
    simp only
    rw [List.getElem?_eq_getElem hi]
    exact ⟨_, rfl⟩

theorem optimise_defined {p : Params} {s : Sys} (hF : MapFacts p s) (hd : 10 ≤ p.rollingDepth) (hsz : s.scans.length < 2 ^ 31)
    (hsp : ¬ Between s.spin) (hl : s.loop = .optimising) (ceres : Solver → Solver.Outcome) :
    ∃ s', loopOptimise ceres s = .ok s' := by
  have hlong : p.rollingDepth < s.scans.length := hF.long (by rw [hl]; simp) (by rw [hl]; simp)
  have hv : EndsValid s.scans.length s.constraints := by
    have := hF.ends.valid
    have h0 : promised s.spin = 0 := by
      cases hs : s.spin <;> first | rfl | exact absurd ⟨_, _, hs⟩ hsp
    rwa [h0, Nat.add_zero] at this
  have hkey : ∀ (i : ℕ) a, s.scans[i]? = some a → Solver.key a = i := by
    intro i a ha
    have hi := (List.getElem?_eq_some_iff.mp ha).1
    unfold Solver.key Scan.getId
    rw [hF.graph.ids s.epoch i a ha]
    exact wrapI32_small (by omega)
  have hopt : ∃ r, s.solver.optimize ceres s.constraints s.scans = .ok r := by
    cases hsc : s.scans with
    | nil => rw [hsc] at hlong; simp at hlong
    | cons first rest =>
      have hk0 : Solver.key first = 0 := by
        have := hkey 0 first (by rw [hsc]; rfl)
        simpa using this
      refine c36_optimize_defined ceres s.solver s.constraints first rest ?_ ?_
      · intro c hc
        have hc' := List.mem_of_mem_drop hc
        obtain ⟨h1, h2⟩ := hv c hc'
        have h3 := hF.order c hc'
        rw [← hsc]
        refine ⟨s.scans[c.begin_], s.scans[c.end_], List.getElem?_eq_getElem h1, List.getElem?_eq_getElem h2, ?_⟩
        rw [hkey _ _ (List.getElem?_eq_getElem h1), hkey _ _ (List.getElem?_eq_getElem h2)]
        omega
      · rcases hF.problem with h | h
        · right
          obtain ⟨c, hc, he, hb⟩ := hF.link.linked 1 (by omega) (by omega)
          rw [h, List.drop_zero]
          exact ⟨c, hc, Or.inl (by omega)⟩
        · left; rw [hk0]; exact h
  obtain ⟨⟨b, solver, scans⟩, hr⟩ := hopt
  unfold loopOptimise
  rw [hr]
  exact ⟨_, rfl⟩

/-! ### A node that maps within a square of two kilometres -/

/-- Scans within 1 km of the origin, measurements and range up to 30 m. -/
def demoBounds : Bounds := ⟨1000, 30, 30⟩

theorem demo_fits : Fits demoBounds defaultMatcher := by
  constructor <;> norm_num [defaultMatcher, demoBounds]

theorem demo_suits : Suits demoBounds (demoNode false) :=
  ⟨by norm_num [demoBounds], by norm_num [demoBounds], demo_fits, demo_fits, le_refl _, rfl⟩

theorem blank_in {i : ℕ} {pose : Pose2d} (hx : |pose.x| ≤ 1000) (hy : |pose.y| ≤ 1000) : ScanIn demoBounds (blank i pose) :=
  ⟨hx, hy, by simp [blank, Scan.setPoints], fun q hq => by simp [blank, Scan.setPoints] at hq⟩

theorem demo_inBounds {n : Node} (hs : n.sys.scans = [] ∨ n.sys.scans = [blank 0 Pose2d.zero]) (hc : n.sys.constraints = [])
    (hm : ∀ m, n.globalN = some m ∨ n.localN = some m → m.rangeMax = 10)
    (hcur : ∀ s, WorksOn n.sys.spin s → ScanIn demoBounds s) : InBounds demoBounds n := by
  refine ⟨?_, hcur, fun m h => ?_, ?_, ?_⟩
  · intro s h
    rcases hs with e | e
    · rw [e] at h; simp at h
    · rw [e, List.mem_singleton] at h
      rw [h]
      exact blank_in (by norm_num [Pose2d.zero]) (by norm_num [Pose2d.zero])
  · rw [hm m h]; norm_num [demoBounds]
  · rcases hs with e | e <;> rw [e] <;> norm_num
  · rw [hc]; norm_num

/-- One scan is in the map, and the second has to be compared with it. -/
theorem demo_maps : ∃ n scan odom, Maps (demoNode false) demoBounds n ∧ InBounds demoBounds n ∧
    n.sys.scans = [blank 0 Pose2d.zero] ∧ n.sys.spin = .window scan odom := by
  set np := demoNode false with hnp
  set n0 : Node := ⟨demoStart np.map true, none, none, none⟩ with hn0
  have h0 : Node.start np true none = .ok n0 := rfl
  set g : Matcher := { defaultMatcher with rangeMax := 10, ndt := none } with hg
  have hread : ∀ (n : Node) (o : Pose2d), n.sys.laser = none ∨ n.sys.laser = some (Pose2d.zero, false) →
      (n.sys.rangeMax = .fin (-1) ∨ n.sys.rangeMax = .fin 10) → n.sys.enable = true →
      Ordinary n (.plain (demoLaser o)) := by
    intro n o hl hr he
    refine ⟨⟨by simp [noBeams], ?_, ?_⟩, fun _ => he⟩
    · rcases hr with hr | hr <;> rw [hr] <;> unfold Laser.latchRangeMax <;> split_ifs <;> exact ⟨_, rfl⟩
    · rintro ⟨pose, h | h⟩
      · rcases hl with hl | hl <;> rw [hl] at h <;> simp at h
      · simp at h
  obtain ⟨s1, e1⟩ : ∃ s1, Mapper.step np.map (demoStart np.map true) (demoLaser Pose2d.zero) = .ok s1 := ⟨_,
    step_demoLaser_first np.map _ Pose2d.zero rfl rfl rfl (Or.inl rfl)⟩
  have f1 := e1
  rw [step_demoLaser_first np.map _ Pose2d.zero rfl rfl rfl (Or.inl rfl)] at f1
  injection f1 with f1
  have a1 : s1.scans = [] := by rw [← f1]; rfl
  have b1 : s1.constraints = [] := by rw [← f1]; rfl
  have c1 : s1.spin = .append (blank 0 Pose2d.zero) Pose2d.zero := by
    rw [← f1]
    simp [branch, hnp, demoNode, demoParams, demoStart, startWith, Sys.scans, Graph.new, firstPose]
  have d1 : s1.epoch = 0 := by rw [← f1]; rfl
  have hr := run_demoOne np.map Pose2d.zero rfl
  rw [Ndt.run_cons, e1, Res.ok_bind, Ndt.run_cons] at hr
  obtain ⟨s2, e2, hr⟩ := bind_ok hr
  rw [Ndt.run_cons] at hr
  obtain ⟨s3, e3, hr⟩ := bind_ok hr
  cases hr
  have f2 := e2
  simp only [Mapper.step, c1] at f2
  injection f2 with f2
  have a2 : s2.scans = [blank 0 Pose2d.zero] := by
    rw [← f2]
    simp [Sys.scans] at a1 ⊢
    exact a1
  have b2 : s2.constraints = [] := by rw [← f2]; exact b1
  have c2 : ∃ a o, s2.spin = .announce a o := by rw [← f2]; exact ⟨_, _, rfl⟩
  set s := demoOne np.map (demoStart np.map true) Pose2d.zero with hs
  have hscans : s.scans = [blank 0 Pose2d.zero] := by simp [hs, demoOne, Sys.scans]
  have hrange : s.rangeMax = .fin 10 := by
    simp [hs, demoOne, Laser.latchRangeMax, noBeams, demoStart, startWith, hnp, demoNode, demoParams]
  have ht : ¬ tooLittle np.map s ⟨1, 0, 0⟩ := by
    rintro ⟨h, -⟩
    norm_num [hs, demoOne, Pose2d.zero, hnp, demoNode, demoParams] at h
  have hb : branch np.map s (blank s.scans.length (firstPose s ⟨1, 0, 0⟩)) ⟨1, 0, 0⟩ =
      .window (blank 1 (predict s.prevOdom s.prevRobot ⟨1, 0, 0⟩)) ⟨1, 0, 0⟩ := by
    unfold branch firstPose
    rw [if_neg (by simp [hnp, demoNode]), if_pos (show s.enable = true from rfl), if_neg (by simp [hscans]),
      if_neg (by simp [hscans]), hscans]
    rfl
  obtain ⟨s4, e4⟩ : ∃ s4, Mapper.step np.map s (demoLaser ⟨1, 0, 0⟩) = .ok s4 := ⟨_,
    step_demoLaser np.map s ⟨1, 0, 0⟩ rfl rfl rfl (Or.inr ht)⟩
  have f4 := e4
  rw [step_demoLaser np.map s ⟨1, 0, 0⟩ rfl rfl rfl (Or.inr ht), hb] at f4
  injection f4 with f4
  have hpred : predict s.prevOdom s.prevRobot ⟨1, 0, 0⟩ = ⟨1, 0, normalizeAngle 0⟩ := by
    have hz : normalizeAngle 0 = 0 := normalizeAngle_of_mem ⟨by linarith [Real.pi_pos], Real.pi_pos.le⟩
    have hd : shortestAngularDistance 0 0 = 0 := by unfold shortestAngularDistance; rw [sub_zero, hz]
    simp [predict, hs, demoOne, Pose2d.zero, hd]
  have none_range : ∀ m, (none : Option Matcher) = some m ∨ (none : Option Matcher) = some m → m.rangeMax = 10 := by simp
  have g_range : ∀ m, some g = some m ∨ some g = some m → m.rangeMax = 10 := by
    intro m h
    have : g = m := by rcases h with h | h <;> (injection h)
    rw [← this]
  have x0 : NodeExec np (fun n i => InBounds demoBounds n ∧ Ordinary n i) n0 [] n0 := .nil
  have x1 : NodeExec np (fun n i => InBounds demoBounds n ∧ Ordinary n i) n0 _ ⟨s1, some g, some g, none⟩ :=
    .snoc x0 ⟨demo_inBounds (Or.inl rfl) rfl none_range fun s h => h.elim,
      hread n0 Pose2d.zero (Or.inl rfl) (Or.inl rfl) rfl⟩ (by
        rw [Node.step_first_laser np n0 Pose2d.zero rfl rfl rfl rfl rfl, show n0.sys = demoStart np.map true from rfl, e1]
        rfl)
  have x2 : NodeExec np (fun n i => InBounds demoBounds n ∧ Ordinary n i) n0 _ ⟨s2, some g, some g, none⟩ :=
    .snoc (i := .plain .pushScan) x1 ⟨demo_inBounds (Or.inl a1) b1 g_range fun s h => by
        rw [show Node.sys ⟨s1, some g, some g, none⟩ = s1 from rfl, c1] at h; exact h.elim, trivial⟩ (by
      show Node.mapper _ _ _ = _
      unfold Node.mapper
      rw [show Node.sys ⟨s1, some g, some g, none⟩ = s1 from rfl, e2]; rfl)
  have x3 : NodeExec np (fun n i => InBounds demoBounds n ∧ Ordinary n i) n0 _ ⟨s, some g, some g, none⟩ :=
    .snoc (i := .plain .finishScan) x2 ⟨demo_inBounds (Or.inr a2) b2 g_range fun s h => by
        obtain ⟨a, o, c2⟩ := c2
        rw [show Node.sys ⟨s2, some g, some g, none⟩ = s2 from rfl, c2] at h; exact h.elim, trivial⟩ (by
      show Node.mapper _ _ _ = _
      unfold Node.mapper
      rw [show Node.sys ⟨s2, some g, some g, none⟩ = s2 from rfl, e3]; rfl)
  have x4 : NodeExec np (fun n i => InBounds demoBounds n ∧ Ordinary n i) n0 _ ⟨s4, some g, some g, none⟩ :=
    .snoc x3 ⟨demo_inBounds (Or.inr hscans) rfl g_range fun s h => h.elim,
      hread _ ⟨1, 0, 0⟩ (Or.inr rfl) (Or.inr hrange) rfl⟩ (by
        rw [Node.step_laser np _ _ (by simp [hs, demoOne])]
        unfold Node.mapper
        rw [show Node.sys ⟨s, some g, some g, none⟩ = s from rfl, e4]; rfl)
  have a4 : s4.scans = [blank 0 Pose2d.zero] := by rw [← f4]; exact hscans
  have c4 : s4.spin = .window (blank 1 (predict s.prevOdom s.prevRobot ⟨1, 0, 0⟩)) ⟨1, 0, 0⟩ := by rw [← f4]
  refine ⟨_, _, _, ⟨true, n0, _, h0, x4⟩, demo_inBounds (Or.inr a4) (by rw [← f4]; rfl) g_range ?_, a4, c4⟩
  intro t h
  rw [show Node.sys ⟨s4, some g, some g, none⟩ = s4 from rfl, c4] at h
  have h : blank 1 (predict s.prevOdom s.prevRobot ⟨1, 0, 0⟩) = t := h
  rw [← h, hpred]
  exact blank_in (by norm_num) (by norm_num)

end

end Ndt
