import Verif.Spec.Lull
import Verif.Props.IdleProps

/-! # Property C166: the loop closure thread does nothing while the map is short -/

namespace Ndt

open Spec Mapper

noncomputable section

theorem unlooped_idem (s : Sys) : unlooped (unlooped s) = unlooped s := rfl

theorem lull_setup (p : Params) (msg : LaserMsg) (mount : Option (Pose2d × Bool)) (s : Sys) :
    laserSetup p msg mount (unlooped s) = (unlooped (laserSetup p msg mount s).1, (laserSetup p msg mount s).2) := by
  unfold laserSetup
  simp only [show (unlooped s).laser = s.laser from rfl, show (unlooped s).rangeMax = s.rangeMax from rfl]
  rcases s.laser with _ | l
  · cases mount <;> rfl
  · rfl

theorem lull_laser (p : Params) (msg : LaserMsg) (mount : Option (Pose2d × Bool)) (odom odomEnd : Option Pose2d) (s : Sys) :
    laserCallback p msg mount odom odomEnd (unlooped s) = (laserCallback p msg mount odom odomEnd s).map unlooped := by
  unfold laserCallback
  rw [lull_setup]
  rcases laserSetup p msg mount s with ⟨u, b⟩
  simp only [show (unlooped u).initialized = u.initialized from rfl, show (unlooped u).scans = u.scans from rfl,
    show (unlooped u).laser = u.laser from rfl, show (unlooped u).rangeMax = u.rangeMax from rfl,
    show (unlooped u).prevOdom = u.prevOdom from rfl, show (unlooped u).prevRobot = u.prevRobot from rfl,
    show (unlooped u).enable = u.enable from rfl, show ∀ o, tooLittle p (unlooped u) o = tooLittle p u o from fun _ => rfl]
  cases b <;> simp only [Bool.not_true, Bool.not_false, Bool.false_eq_true, if_true, if_false]
  · rfl
  · split
    · rfl
    · cases odom with
      | none => rfl
      | some o =>
        simp only
        split
        · rfl
        · cases odomEnd with
          | none => rfl
          | some oe =>
            rcases u.laser with _ | ⟨lt, inv⟩
            · rfl
            · simp only
              cases Laser.points msg u.rangeMax inv lt o oe with
              | error e => rfl
              | ok fs =>
                simp only [Res.ok_bind]
                cases finitePoints fs with
                | error e => rfl
                | ok pts => rfl

theorem lull_map_map (x : Res Sys) : (x.map unlooped).map unlooped = x.map unlooped := by
  cases x <;> rfl

/-- What the other threads do does not depend on anything of the loop closure thread. -/
theorem lull_step (p : Params) (s : Sys) (e : Event) (he : ¬ IsLoopWork e) :
    (step p (unlooped s) e).map unlooped = (step p s e).map unlooped := by
  cases e with
  | laser msg mount odom odomEnd =>
    simp only [step, show (unlooped s).spin = s.spin from rfl]
    cases s.spin <;> try rfl
    rw [lull_laser, lull_map_map]
  | filtered mean =>
    simp only [step, show (unlooped s).spin = s.spin from rfl, show (unlooped s).globalM = s.globalM from rfl]
    cases s.spin <;> try rfl
    simp only
    split <;> rfl
  | addWindow =>
    simp only [step, show (unlooped s).spin = s.spin from rfl]
    cases s.spin <;> try rfl
    simp only [addWindow, show (unlooped s).localM = s.localM from rfl, show (unlooped s).scans = s.scans from rfl]
    split_ifs <;> rfl
  | localMatched score correction cov =>
    simp only [step, show (unlooped s).spin = s.spin from rfl]
    cases s.spin <;> try rfl
    simp only [localMatched, show (unlooped s).scans = s.scans from rfl]
    cases s.scans.getLast? <;> rfl
  | pushConstraint =>
    simp only [step, show (unlooped s).spin = s.spin from rfl]
    cases s.spin <;> rfl
  | pushScan =>
    simp only [step, show (unlooped s).spin = s.spin from rfl]
    cases s.spin <;> rfl
  | globalMatched correction =>
    simp only [step, show (unlooped s).spin = s.spin from rfl, show (unlooped s).globalM = s.globalM from rfl]
    cases s.spin <;> try rfl
    simp only
    split <;> rfl
  | finishScan =>
    simp only [step, show (unlooped s).spin = s.spin from rfl, show (unlooped s).heap = s.heap from rfl]
    cases s.spin <;> try rfl
    rename_i a odom
    simp only
    cases (s.heap a.epoch)[a.idx]? <;> rfl
  | pose msg odom visit =>
    simp only [step, show (unlooped s).spin = s.spin from rfl, show (unlooped s).scans = s.scans from rfl]
    cases s.spin <;> try rfl
    simp only
    split
    · simp only [poseCallback, show (unlooped s).enable = s.enable from rfl, show (unlooped s).initialized = s.initialized from rfl,
        show (unlooped s).scans = s.scans from rfl, show (unlooped s).graph p = s.graph p from rfl]
      split
      · rfl
      · split
        · rfl
        · cases odom with
          | none => rfl
          | some odom =>
            simp only
            split
            · rfl
            · split
              · cases (s.graph p).findNearest visit ((Scan.new s.scans.length).setPose msg.pose) 10 (-1) with
                | error e => rfl
                | ok near =>
                  simp only [Res.ok_bind]
                  cases near with
                  | nil => rfl
                  | cons i rest =>
                    simp only
                    cases s.scans[i]? <;> rfl
              · rfl
    · rfl
  | setRobot =>
    simp only [step, show (unlooped s).spin = s.spin from rfl]
    cases s.spin <;> rfl
  | setOdom =>
    simp only [step, show (unlooped s).spin = s.spin from rfl]
    cases s.spin <;> rfl
  | configure action bag =>
    simp only [step, show (unlooped s).spin = s.spin from rfl]
    cases s.spin <;> try rfl
    simp only [configure, configureMapping, configureFile]
    cases Graph.load p.useBarycenter bag <;> split_ifs <;> rfl
  | pubCheck =>
    simp only [step, show (unlooped s).pub = s.pub from rfl]
    cases s.pub <;> rfl
  | pubClear =>
    simp only [step, show (unlooped s).pub = s.pub from rfl]
    cases s.pub <;> rfl
  | pubGrid =>
    simp only [step, show (unlooped s).pub = s.pub from rfl]
    cases s.pub <;> try rfl
    simp only [pubGrid, show (unlooped s).grid = s.grid from rfl, show (unlooped s).scans = s.scans from rfl]
    cases s.grid.getMsg s.scans <;> rfl
  | pubGraph =>
    simp only [step, show (unlooped s).pub = s.pub from rfl]
    cases s.pub <;> try rfl
    simp only [pubGraph, show (unlooped s).graph p = s.graph p from rfl]
    cases (s.graph p).getMsg [] <;> rfl
  | pubTf =>
    simp only [step, show (unlooped s).pub = s.pub from rfl]
    cases s.pub <;> try rfl
    simp only [pubTf, show (unlooped s).scans = s.scans from rfl]
    split <;> rfl
  | _ => exact absurd trivial he

/-- Both fail in the same way, or both give the same but for what belongs to the loop closure thread. -/
theorem lull_cases {x y : Res Sys} (h : x.map unlooped = y.map unlooped) :
    (∃ e, x = .error e ∧ y = .error e) ∨ ∃ u t, x = .ok u ∧ y = .ok t ∧ unlooped u = unlooped t := by
  cases x with
  | error a =>
    cases y with
    | error b => cases h; exact Or.inl ⟨_, rfl, rfl⟩
    | ok t => cases h
  | ok u =>
    cases y with
    | error b => cases h
    | ok t => exact Or.inr ⟨u, t, rfl, rfl, Except.ok.inj h⟩

theorem lulled_mapper (np : NodeParams) (n : Node) (e : Event) (he : ¬ IsLoopWork e) :
    ((lull n).mapper np e).map lull = (n.mapper np e).map lull := by
  unfold Node.mapper
  rcases lull_cases (lull_step np.map n.sys e he) with ⟨a, h1, h2⟩ | ⟨u, t, h1, h2, h⟩
  · simp only [lull, h1, h2]
  · simp only [lull, h1, h2, Res.ok_bind]
    show Except.ok (lull { lull n with sys := u }) = Except.ok (lull { n with sys := t })
    simp only [lull, h]

theorem lulled_mapper_bind (np : NodeParams) (n : Node) (e : Event) (he : ¬ IsLoopWork e) (f : Node → Node)
    (hf : ∀ a b, lull a = lull b → lull (f a) = lull (f b)) :
    ((lull n).mapper np e >>= fun m => .ok (f m) : Res Node).map lull = (n.mapper np e >>= fun m => .ok (f m) : Res Node).map lull := by
  have h := lulled_mapper np n e he
  cases h1 : (lull n).mapper np e with
  | error a =>
    cases h2 : n.mapper np e with
    | error b => rw [h1, h2] at h; cases h; rfl
    | ok t => rw [h1, h2] at h; cases h
  | ok u =>
    cases h2 : n.mapper np e with
    | error b => rw [h1, h2] at h; cases h
    | ok t =>
      rw [h1, h2] at h
      exact congrArg Except.ok (hf _ _ (Except.ok.inj h))

theorem lulled_make (np : NodeParams) (n : Node) (msg : LaserMsg) :
    Node.makeMatchers np (lull n) msg = (Node.makeMatchers np n msg).map lull := by
  unfold Node.makeMatchers
  simp only [lull, show (unlooped n.sys).rangeMax = n.sys.rangeMax from rfl, show (unlooped n.sys).enable = n.sys.enable from rfl,
    show (unlooped n.sys).scans = n.sys.scans from rfl]
  cases Node.initMatcher np.globalCfg (Laser.latchRangeMax n.sys.rangeMax msg) with
  | error e => rfl
  | ok g =>
    simp only [Res.ok_bind]
    cases (if (np.map.useFilter || !n.sys.enable) = true then g.addScans n.sys.scans else .ok g : Res Matcher) with
    | error e => rfl
    | ok g =>
      simp only [Res.ok_bind]
      cases Node.initMatcher np.localCfg (Laser.latchRangeMax n.sys.rangeMax msg) <;> rfl

/-- The same for the node. -/
theorem lulled_step (np : NodeParams) (n : Node) (i : Input) (hi : ¬ IsLooping i) :
    (Node.step np (lull n) i).map lull = (Node.step np n i).map lull := by
  cases i with
  | plain e =>
    cases e with
    | laser msg mount odom odomEnd =>
      simp only [Node.step]
      by_cases hm : n.makesMatchers mount
      · rw [if_pos hm, if_pos (show (lull n).makesMatchers mount from hm), lulled_make]
        cases Node.makeMatchers np n msg with
        | error e => rfl
        | ok m => exact lulled_mapper np m _ id
      · rw [if_neg hm, if_neg (show ¬ (lull n).makesMatchers mount from hm)]
        exact lulled_mapper np n _ id
    | addWindow =>
      simp only [Node.step, show (lull n).sys.spin = n.sys.spin from rfl]
      cases n.sys.spin <;> try rfl
      simp only [show (lull n).sys = unlooped n.sys from rfl, show (lull n).localN = n.localN from rfl]
      rcases lull_cases (lull_step np.map n.sys .addWindow id) with ⟨a, h1, h2⟩ | ⟨u, t, h1, h2, h⟩
      · rw [h1, h2]; rfl
      · rw [h1, h2]
        simp only [Res.ok_bind]
        have hl : u.localM = t.localM := show (unlooped u).localM = (unlooped t).localM by rw [h]
        rw [hl]
        cases n.localN with
        | none => rfl
        | some l =>
          cases t.localM with
          | none => rfl
          | some w =>
            simp only
            cases l.reset.addScans w with
            | error e => rfl
            | ok l' =>
              show Except.ok (lull { lull n with sys := u, localN := some l' }) = Except.ok (lull { n with sys := t, localN := some l' })
              simp only [lull, h]
    | localMatched _ _ _ => rfl
    | globalMatched _ => rfl
    | filtered _ => rfl
    | pose _ _ _ => rfl
    | pushConstraint => exact lulled_mapper np n _ id
    | pushScan => exact lulled_mapper np n _ id
    | finishScan => exact lulled_mapper np n _ id
    | setRobot => exact lulled_mapper np n _ id
    | setOdom => exact lulled_mapper np n _ id
    | configure _ _ => exact lulled_mapper np n _ id
    | pubCheck => exact lulled_mapper np n _ id
    | pubClear => exact lulled_mapper np n _ id
    | pubGrid => exact lulled_mapper np n _ id
    | pubGraph => exact lulled_mapper np n _ id
    | pubTf => exact lulled_mapper np n _ id
    | _ => exact absurd trivial hi
  | localMatch junk =>
    simp only [Node.step, show (lull n).sys.spin = n.sys.spin from rfl, show (lull n).localN = n.localN from rfl]
    cases n.sys.spin <;> try rfl
    rename_i scan odom
    simp only
    cases n.localN with
    | none => rfl
    | some l =>
      simp only
      cases l.scoreScan scan with
      | error e => rfl
      | ok v =>
        simp only [Res.ok_bind]
        cases l.matchScan scan Pose2d.zero junk with
        | error e => rfl
        | ok r => exact lulled_mapper np n _ id
  | globalMatch junk =>
    simp only [Node.step, show (lull n).sys.spin = n.sys.spin from rfl, show (lull n).globalN = n.globalN from rfl]
    cases n.sys.spin <;> try rfl
    rename_i scan odom
    simp only
    cases n.globalN with
    | none => rfl
    | some g =>
      simp only
      cases g.scoreScan scan with
      | error e => rfl
      | ok v =>
        simp only [Res.ok_bind]
        cases g.matchScan scan Pose2d.zero junk with
        | error e => rfl
        | ok r => exact lulled_mapper np n _ id
  | loopMatch junk => exact absurd trivial hi
  | filterScan nrm draw =>
    simp only [Node.step, show (lull n).sys.spin = n.sys.spin from rfl, show (lull n).filter = n.filter from rfl,
      show (lull n).globalN = n.globalN from rfl, show (lull n).sys.prevRobot = n.sys.prevRobot from rfl]
    cases n.sys.spin <;> try rfl
    rename_i scan odom
    simp only
    cases n.filter with
    | none => rfl
    | some f =>
      cases n.globalN with
      | none => rfl
      | some g =>
        simp only
        split
        · rfl
        · cases f.update nrm (Node.control n.sys.prevRobot scan.getPose).x (Node.control n.sys.prevRobot scan.getPose).y
            (Node.control n.sys.prevRobot scan.getPose).theta with
          | error e => rfl
          | ok f =>
            simp only [Res.ok_bind]
            cases f.measure fun p => g.scorePoints scan.getPoints p with
            | error e => rfl
            | ok f =>
              simp only [Res.ok_bind]
              cases f.resample np.kldErr np.kldZ draw with
              | error e => rfl
              | ok f =>
                simp only [Res.ok_bind]
                cases Node.meanPose f with
                | error e => rfl
                | ok mean =>
                  simp only [Res.ok_bind]
                  exact lulled_mapper_bind np n (.filtered mean) id (fun m => { m with filter := some f }) (by
                    intro a b h
                    have h1 : unlooped a.sys = unlooped b.sys := congrArg Node.sys h
                    have h2 : a.globalN = b.globalN := show (lull a).globalN = (lull b).globalN by rw [h]
                    have h3 : a.localN = b.localN := show (lull a).localN = (lull b).localN by rw [h]
                    simp only [lull, h1, h2, h3])
  | pose msg odom visit nrm =>
    simp only [Node.step, show (lull n).filter = n.filter from rfl]
    by_cases hm : Node.initsFilter np n msg odom visit
    · rw [if_pos hm, if_pos (show Node.initsFilter np (lull n) msg odom visit from hm)]
      cases n.filter with
      | none => rfl
      | some f =>
        simp only
        split
        · rfl
        · cases f.init nrm msg.pose.x msg.pose.y msg.pose.theta (Real.sqrt msg.covX) (Real.sqrt msg.covY) (Real.sqrt msg.covTheta) with
          | error e => rfl
          | ok f =>
            simp only [Res.ok_bind]
            exact lulled_mapper_bind np n (.pose msg odom visit) id (fun m => { m with filter := some f }) (by
              intro a b h
              have h1 : unlooped a.sys = unlooped b.sys := congrArg Node.sys h
              have h2 : a.globalN = b.globalN := show (lull a).globalN = (lull b).globalN by rw [h]
              have h3 : a.localN = b.localN := show (lull a).localN = (lull b).localN by rw [h]
              simp only [lull, h1, h2, h3])
    · rw [if_neg hm, if_neg (show ¬ Node.initsFilter np (lull n) msg odom visit from hm)]
      exact lulled_mapper np n _ id


/-- The loop closure thread waits or counts the scans. -/
def Lulled (s : Sys) : Prop := s.loop = .asleep ∨ s.loop = .counting

/-- How many scans a piece of work can add. -/
def addsEvent : Event → ℕ
  | .pushScan | .pose .. => 1
  | _ => 0

/-- With few scans it goes on like that, and nothing adds more scans than it should. -/
theorem lulled_trans {p : Params} {s s' : Sys} {e : Event} (hl : Lulled s) (hs : s.scans.length ≤ p.rollingDepth)
    (he : ∀ action bag, e = .configure action bag → action &&& 4#32 = 0#32) (ht : Trans p s e s') :
    Lulled s' ∧ s'.scans.length ≤ s.scans.length + addsEvent e := by
  have no : ∀ l, s.loop = l → l ≠ .asleep → l ≠ .counting → False := by
    intro l h h1 h2
    rcases hl with h3 | h3 <;> rw [h3] at h <;> subst h
    · exact h1 rfl
    · exact h2 rfl
  cases ht with
  | laserIgnored msg mount odom odomEnd hi =>
    obtain ⟨r, l, g, m, h, -⟩ := setup_cases p msg mount s
    rw [h]
    exact ⟨hl, Nat.le_add_right _ _⟩
  | laserScan msg mount odom odomEnd points hi hgo hinit hm =>
    obtain ⟨r, l, g, m, h, -⟩ := setup_cases p msg mount s
    rw [h]
    exact ⟨hl, Nat.le_add_right _ _⟩
  | pushScan scan odom hi => exact ⟨hl, by simp [Sys.scans, addsEvent]⟩
  | poseScan m odom visit near i rest hi hen hn hf hnear hv hfind => exact ⟨hl, by simp [Sys.scans, addsEvent]⟩
  | configureFlags action bag hi hc =>
    unfold configureMapping
    split_ifs <;> exact ⟨hl, Nat.le_add_right _ _⟩
  | load action bag g hi hc hg => exact absurd (he _ _ rfl) hc
  | loopWake hi hen => exact ⟨Or.inr rfl, Nat.le_add_right _ _⟩
  | loopShort hi hn => exact ⟨Or.inl rfl, Nat.le_add_right _ _⟩
  | loopCount hi hn => omega
  | loopPick visit r scan near hi hn hs hv hf => exact (no _ hi nofun nofun).elim
  | loopLeave visit r hi hn => exact (no _ hi nofun nofun).elim
  | loopNext q hi hr => exact (no _ hi nofun nofun).elim
  | loopSkip q i rest cand hi hr hc hp => exact (no _ hi nofun nofun).elim
  | loopCandidate q i rest cand hi hr hc hg => exact (no _ hi nofun nofun).elim
  | loopAccept score correction cov q cand scan candidate hi hf hs hp hq => exact (no _ hi nofun nofun).elim
  | loopReject score correction cov q cand hi hs => exact (no _ hi nofun nofun).elim
  | loopPush q c hi => exact (no _ hi nofun nofun).elim
  | loopDecide r hi => exact (no _ hi nofun nofun).elim
  | loopOptimise ceres b solver scans hi ho => exact (no _ hi nofun nofun).elim
  | pubTf hi =>
    unfold pubTf
    split <;> exact ⟨hl, Nat.le_add_right _ _⟩
  | _ => exact ⟨hl, Nat.le_add_right _ _⟩

theorem lulled_next {np : NodeParams} {n n' : Node} {i : Input} (hl : Lulled n.sys) (hs : n.sys.scans.length ≤ np.map.rollingDepth)
    (hi : ¬ LoadsMap i) (h : Node.step np n i = .ok n') : Lulled n'.sys ∧ n'.sys.scans.length ≤ n.sys.scans.length + adds i := by
  have key : ∀ {e s'}, Mapper.step np.map n.sys e = .ok s' → (∀ action bag, e ≠ .configure action bag) → addsEvent e ≤ adds i →
      Lulled s' ∧ s'.scans.length ≤ n.sys.scans.length + adds i := by
    intro e s' h3 h1 h2
    obtain ⟨h4, h5⟩ := lulled_trans hl hs (fun a b h => absurd h (h1 a b)) (step_trans h3)
    exact ⟨h4, by omega⟩
  cases Node.step_ntrans h with
  | stutter => exact ⟨hl, Nat.le_add_right _ _⟩
  | plain e s hc hw hlm hm hst =>
    obtain ⟨h4, h5⟩ := lulled_trans hl hs (by rintro action bag rfl; exact not_not.mp hi) (step_trans hst)
    refine ⟨h4, h5.trans (Nat.add_le_add_left ?_ _)⟩
    cases e <;> first | exact le_refl _ | exact Nat.zero_le _ | exact absurd trivial hc
  | makes msg mount odom odomEnd r g s hm hr hg hst => exact key hst (fun _ _ h => by cases h) (Nat.zero_le _)
  | addWindow scan odom s l l' w hi hl hw ha hst => exact key hst (fun _ _ h => by cases h) (Nat.zero_le _)
  | loopMap q q' c s g g' w hi hi' hg hw ha hst => exact key hst (fun _ _ h => by cases h) (Nat.zero_le _)
  | localMatch junk scan odom l sc r s hi hl hsc hr hst => exact key hst (fun _ _ h => by cases h) (Nat.zero_le _)
  | globalMatch junk scan odom g sc r s hi hg hsc hr hst => exact key hst (fun _ _ h => by cases h) (Nat.zero_le _)
  | loopMatch junk q c g scan r s hi hg hscan hr hst => exact key hst (fun _ _ h => by cases h) (Nat.zero_le _)
  | filterScan nrm draw scan odom f f1 f2 f3 g mean s hi hf hg h1 h2 h3 h4 hst => exact key hst (fun _ _ h => by cases h) (Nat.zero_le _)
  | poseInit msg odom visit nrm f f' s hi hf h1 hst => exact key hst (fun _ _ h => by cases h) (le_refl _)
  | pose msg odom visit nrm s hi hst => exact key hst (fun _ _ h => by cases h) (le_refl _)

/-- What the loop closure thread does then is only its own. -/
theorem lulled_loop (np : NodeParams) {n : Node} (hl : Lulled n.sys) (hs : n.sys.scans.length ≤ np.map.rollingDepth) {i : Input} (hi : IsLooping i) :
    ∃ t, Node.step np n i = .ok t ∧ lull t = lull n := by
  cases i with
  | plain e =>
    rcases hl with h2 | h2
    all_goals
      cases e <;> first | exact absurd hi id | skip
      all_goals simp only [Node.step, Node.mapper, Mapper.step, h2, Res.ok_bind]
      all_goals first | exact ⟨_, rfl, rfl⟩ | skip
    · refine ⟨_, rfl, ?_⟩
      split <;> rfl
    · refine ⟨_, rfl, ?_⟩
      rw [loopCount, if_pos hs]
      rfl
  | loopMatch junk =>
    rcases hl with h2 | h2
    all_goals
      simp only [Node.step, h2]
      exact ⟨_, rfl, rfl⟩
  | _ => exact absurd hi id

theorem lulled_run (np : NodeParams) (is : List Input) (n m : Node) (hnm : lull n = lull m) (hl : Lulled n.sys)
    (hs : n.sys.scans.length + (is.map adds).sum ≤ np.map.rollingDepth) (hi : ∀ i ∈ is, ¬ LoadsMap i) :
    (Node.run np n is).map lull = (Node.run np m (is.filter fun i => ¬ IsLooping i)).map lull := by
  induction is generalizing n m with
  | nil => exact congrArg Except.ok hnm
  | cons i is ih =>
    have hi' : ∀ j ∈ is, ¬ LoadsMap j := fun j hj => hi j (by simp [hj])
    have e1 : ∀ (m : Node) (js : List Input), Node.run np m (i :: js) = (Node.step np m i >>= fun u => Node.run np u js) := fun _ _ => rfl
    rw [List.map_cons, List.sum_cons] at hs
    by_cases hloop : IsLooping i
    · obtain ⟨t, h1, h2⟩ := lulled_loop np hl (by omega) hloop
      obtain ⟨h3, h4⟩ := lulled_next hl (by omega) (hi i (by simp)) h1
      rw [List.filter_cons_of_neg (by simpa using hloop), e1, h1]
      exact ih t m (h2.trans hnm) h3 (by omega) hi'
    · rw [List.filter_cons_of_pos (by simpa using hloop), e1, e1]
      have a1 := lulled_step np n i hloop
      have a2 := lulled_step np m i hloop
      rw [hnm, a2] at a1
      cases hn : Node.step np n i with
      | error e =>
        cases hm : Node.step np m i with
        | error e' => rw [hn, hm] at a1; cases a1; rfl
        | ok v => rw [hn, hm] at a1; cases a1
      | ok u =>
        cases hm : Node.step np m i with
        | error e' => rw [hn, hm] at a1; cases a1
        | ok v =>
          rw [hn, hm] at a1
          obtain ⟨h3, h4⟩ := lulled_next hl (by omega) (hi i (by simp)) hn
          exact ih u v (Except.ok.inj a1).symm h3 (by omega) hi'

/-- **C166** As long as the map has no more scans than the rolling window, the loop closure thread only waits and counts. -/
theorem c166_only_counts (np : NodeParams) (is : List Input) {n t : Node} (h1 : n.sys.loop = .asleep ∨ n.sys.loop = .counting)
    (hs : n.sys.scans.length + (is.map adds).sum ≤ np.map.rollingDepth) (hi : ∀ i ∈ is, ¬ LoadsMap i) (h : Node.run np n is = .ok t) :
    (t.sys.loop = .asleep ∨ t.sys.loop = .counting) ∧ t.sys.scans.length ≤ n.sys.scans.length + (is.map adds).sum := by
  induction is generalizing n with
  | nil => cases h; exact ⟨h1, Nat.le_add_right _ _⟩
  | cons i is ih =>
    rw [List.map_cons, List.sum_cons] at hs ⊢
    obtain ⟨u, hu, h⟩ := bind_ok (show (Node.step np n i >>= fun u => Node.run np u is) = .ok t from h)
    obtain ⟨h3, h4⟩ := lulled_next h1 (by omega) (hi i (by simp)) hu
    obtain ⟨h5, h6⟩ := ih h3 (by omega) (fun j hj => hi j (by simp [hj])) h
    exact ⟨h5, by omega⟩

/-- **C166** As long as the map has no more scans than the rolling window, the steps of the loop closure thread may be left out of any run or put into
it: what comes of the run is the same but for where that thread is, whether the run fails or not. -/
theorem c166_short_map (np : NodeParams) (is : List Input) (n : Node) (h1 : n.sys.loop = .asleep ∨ n.sys.loop = .counting)
    (hs : n.sys.scans.length + (is.map adds).sum ≤ np.map.rollingDepth) (hi : ∀ i ∈ is, ¬ LoadsMap i) :
    (Node.run np n is).map lull = (Node.run np n (is.filter fun i => ¬ IsLooping i)).map lull :=
  lulled_run np is n n rfl h1 hs hi

/-- **C166** So a short map of C161 is the same whatever the loop closure thread and the publishing thread do meanwhile. -/
theorem c166_mapping {np : NodeParams} (hf : np.map.useFilter = false)
    (hl : 0 < np.localCfg.linearRes) (ha : 0 < np.localCfg.angularRes) (hpi : np.localCfg.angularSize < Real.pi / 2)
    {range : ℝ} {lt : Pose2d} {inverted : Bool} (ls : List Leg) {scans : List Scan} {odom place : Pose2d} {s t : Node}
    (hs : Mapping np range lt inverted scans odom place s) (hloop : s.sys.loop = .asleep ∨ s.sys.loop = .counting)
    (hr : Surveys np range lt inverted scans odom place (ls.map Leg.stop))
    (hw : OnTheWay np.map.minDist np.map.minRot odom ls) (is : List Input)
    (hfew : s.sys.scans.length + (is.map adds).sum ≤ np.map.rollingDepth) (hi : ∀ i ∈ is, ¬ LoadsMap i)
    (his : ((is.filter fun i => ¬ IsLooping i).filter fun i => ¬ IsPublishing i) = ls.flatMap Leg.mapInputs) (h : Node.run np s is = .ok t) :
    t.sys.scans.map (·.pose) = scans.map (·.pose) ++ (ls.map Leg.stop).map Stop.place ∧
      t.sys.prevRobot = ((ls.map Leg.stop).getLast?.map Stop.place).getD place := by
  have e := c166_short_map np is s hloop hfew hi
  rw [h] at e
  cases hu : Node.run np s (is.filter fun i => ¬ IsLooping i) with
  | error a => rw [hu] at e; cases e
  | ok u =>
    rw [hu] at e
    have e := Except.ok.inj e
    have e1 : t.sys.scans = u.sys.scans := show (lull t).sys.scans = (lull u).sys.scans by rw [e]
    have e2 : t.sys.prevRobot = u.sys.prevRobot := show (lull t).sys.prevRobot = (lull u).sys.prevRobot by rw [e]
    rw [e1, e2]
    exact c164_mapping hf hl ha hpi ls hs hr hw _ his hu

/-- **C166** (a concrete run) The mapping node in the corner, with a loop closure thread that wakes up before the second scan and counts the scans after it
was added. -/
theorem c166_corner (junk : Mat3F) : ∃ n u t : Node, Node.start surveyNode true none = .ok n ∧
    Node.run surveyNode n [.plain (.laser surveyMsg (some (Pose2d.zero, false)) (some Pose2d.zero) (some ⟨3 / 10, 0, 0⟩)), .plain .pushScan,
      .plain .finishScan] = .ok u ∧ 2 ≤ surveyNode.map.rollingDepth ∧
    Node.run surveyNode u ([.plain .loopWake, (pauseAt ⟨2 / 100, 0, 0⟩).input] ++ (surveyStop junk).mapInputs ++ [.plain .loopCount]) = .ok t ∧
    t.sys.scans.map (·.pose) = [Pose2d.zero, ⟨7 / 100, 0, 0⟩] ∧ t.sys.prevRobot = ⟨7 / 100, 0, 0⟩ := by
  obtain ⟨fs, h1, h2⟩ := surveyMsg_points
  obtain ⟨n, u, b1, b2, b3, -, -⟩ := first_stop_full (np := surveyNode) rfl (range := 10) (by norm_num)
    (by norm_num [Laser.latchRangeMax, surveyNode, demoNode, demoParams, surveyMsg]) h1 h2
  have h0 : normalizeAngle 0 = 0 := normalizeAngle_of_mem ⟨by linarith [Real.pi_pos], Real.pi_pos.le⟩
  have k1 : 0 < surveyNode.localCfg.linearRes := by norm_num [surveyNode, demoNode, defaultMatcher]
  have k2 : 0 < surveyNode.localCfg.angularRes := by norm_num [surveyNode, demoNode, defaultMatcher]
  have k3 : surveyNode.localCfg.angularSize < Real.pi / 2 := by
    have := Real.two_le_pi
    norm_num [surveyNode, demoNode, defaultMatcher]
    linarith
  have hd : 2 ≤ surveyNode.map.rollingDepth := by norm_num [surveyNode, demoNode, demoParams]
  let ls : List Leg := [⟨[pauseAt ⟨2 / 100, 0, 0⟩], surveyStop junk⟩]
  have hw : OnTheWay surveyNode.map.minDist surveyNode.map.minRot Pose2d.zero ls := ⟨by
    intro r hr
    simp only [List.mem_cons, List.not_mem_nil, or_false] at hr
    subst hr
    norm_num [Moved, pauseAt, surveyNode, demoNode, demoParams, Pose2d.zero, shortestAngularDistance, h0], trivial⟩
  obtain ⟨t', a1, -⟩ := c163_mapping rfl k1 k2 k3 ls b3 (surveyStop_surveys junk) hw
  have hn : n.sys.loop = .asleep ∧ n.sys.scans = [] := by
    have h := (Node.start_sys b1).1
    rw [← Except.ok.inj (show Except.ok _ = Except.ok n.sys from h)]
    exact ⟨rfl, rfl⟩
  obtain ⟨hu, -⟩ := c166_only_counts surveyNode _ (Or.inl hn.1) (by rw [hn.2]; simp only [List.map, List.sum_cons, List.sum_nil, adds, List.length_nil]; omega) (by
    intro i hi
    simp only [List.mem_cons, List.not_mem_nil, or_false] at hi
    rcases hi with rfl | rfl | rfl <;> exact id) b2
  set is : List Input := [.plain .loopWake, (pauseAt ⟨2 / 100, 0, 0⟩).input] ++ (surveyStop junk).mapInputs ++ [.plain .loopCount] with his
  have hfil : (is.filter fun i => ¬ IsLooping i) = ls.flatMap Leg.mapInputs := by
    simp [his, ls, Stop.mapInputs, Leg.mapInputs, IsLooping, Pause.input]
  have hfil2 : ((is.filter fun i => ¬ IsLooping i).filter fun i => ¬ IsPublishing i) = ls.flatMap Leg.mapInputs := by
    rw [hfil]
    simp [ls, Stop.mapInputs, Leg.mapInputs, IsPublishing, Pause.input]
  have hfew : u.sys.scans.length + (is.map adds).sum ≤ surveyNode.map.rollingDepth := by
    rw [b3.scans, his]
    simp only [Stop.mapInputs, Pause.input, List.cons_append, List.nil_append, List.map, List.sum_cons, List.sum_nil, adds, List.length_cons,
      List.length_nil]
    omega
  have hno : ∀ i ∈ is, ¬ LoadsMap i := by
    intro i hi
    simp only [his, Stop.mapInputs, Pause.input, List.cons_append, List.nil_append, List.mem_cons, List.not_mem_nil, or_false] at hi
    rcases hi with rfl | rfl | rfl | rfl | rfl | rfl | rfl | rfl | rfl <;> exact id
  have e := c166_short_map surveyNode is u hu hfew hno
  rw [hfil, a1] at e
  cases ht : Node.run surveyNode u is with
  | error a => rw [ht] at e; cases e
  | ok t =>
    obtain ⟨h6, h7⟩ := c166_mapping rfl k1 k2 k3 ls b3 hu (surveyStop_surveys junk) hw is hfew hno hfil2 ht
    exact ⟨n, u, t, b1, b2, hd, ht, h6, h7⟩

end

end Ndt
