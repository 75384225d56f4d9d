import Verif.Spec.Hush
import Verif.Proof.Mapper
import Verif.Props.PauseProps

/-! # Property C164: the publishing thread is invisible to the others -/

namespace Ndt

open Spec Mapper

noncomputable section

/-- A step of the mapper but for the publishing thread. -/
def isPubEvent : Event → Prop
  | .pubCheck | .pubClear | .pubGrid | .pubGraph | .pubTf => True
  | _ => False

theorem unpublished_idem (s : Sys) : unpublished (unpublished s) = unpublished s := rfl

theorem hush_setup (p : Params) (msg : LaserMsg) (mount : Option (Pose2d × Bool)) (s : Sys) :
    laserSetup p msg mount (unpublished s) = (unpublished (laserSetup p msg mount s).1, (laserSetup p msg mount s).2) := by
  unfold laserSetup
  simp only [show (unpublished s).laser = s.laser from rfl, show (unpublished s).rangeMax = s.rangeMax from rfl]
  rcases s.laser with _ | l
  · cases mount <;> rfl
  · rfl

theorem hush_laser (p : Params) (msg : LaserMsg) (mount : Option (Pose2d × Bool)) (odom odomEnd : Option Pose2d) (s : Sys) :
    laserCallback p msg mount odom odomEnd (unpublished s) = (laserCallback p msg mount odom odomEnd s).map unpublished := by
  unfold laserCallback
  rw [hush_setup]
  rcases laserSetup p msg mount s with ⟨u, b⟩
  simp only [show (unpublished u).initialized = u.initialized from rfl, show (unpublished u).scans = u.scans from rfl,
    show (unpublished u).laser = u.laser from rfl, show (unpublished u).rangeMax = u.rangeMax from rfl,
    show (unpublished u).prevOdom = u.prevOdom from rfl, show (unpublished u).prevRobot = u.prevRobot from rfl,
    show (unpublished u).enable = u.enable from rfl, show ∀ o, tooLittle p (unpublished u) o = tooLittle p u o from fun _ => rfl]
  cases b <;> simp only [Bool.not_true, Bool.not_false, Bool.false_eq_true, if_true, if_false]
  · rfl
  · split
    · rfl
    · cases odom with
      | none => rfl
      | some o =>
        simp only
        split
        · rfl
        · cases odomEnd with
          | none => rfl
          | some oe =>
            rcases u.laser with _ | ⟨lt, inv⟩
            · rfl
            · simp only
              cases Laser.points msg u.rangeMax inv lt o oe with
              | error e => rfl
              | ok fs =>
                simp only [Res.ok_bind]
                cases finitePoints fs with
                | error e => rfl
                | ok pts => rfl

theorem hush_map_map (x : Res Sys) : (x.map unpublished).map unpublished = x.map unpublished := by
  cases x <;> rfl

theorem hush_attempt' (q : Search) (s t : Sys) (h : unpublished s = unpublished t) :
    unpublished (afterAttempt q s) = unpublished (afterAttempt q t) := by
  have e1 : unpublished (nextScan q.round s) = nextScan q.round (unpublished s) := rfl
  have e2 : unpublished (nextScan q.round t) = nextScan q.round (unpublished t) := rfl
  have e3 : ∀ l, unpublished { s with loop := l } = { unpublished s with loop := l } := fun _ => rfl
  have e4 : ∀ l, unpublished { t with loop := l } = { unpublished t with loop := l } := fun _ => rfl
  unfold afterAttempt
  generalize (q.left + (2 ^ 64 - 1)) % 2 ^ 64 = m
  split
  · rw [e1, e2, h]
  · rw [e3, e4, h]

theorem hush_attempt (q : Search) (s t : Sys) (h : s = t) :
    unpublished (afterAttempt q (unpublished s)) = unpublished (afterAttempt q t) := by
  subst h
  exact hush_attempt' q _ _ rfl

/-- What the other threads do does not depend on anything of the publishing thread. -/
theorem hush_step (p : Params) (s : Sys) (e : Event) (he : ¬ isPubEvent e) :
    (step p (unpublished s) e).map unpublished = (step p s e).map unpublished := by
  cases e with
  | pubCheck => exact absurd trivial he
  | pubClear => exact absurd trivial he
  | pubGrid => exact absurd trivial he
  | pubGraph => exact absurd trivial he
  | pubTf => exact absurd trivial he
  | laser msg mount odom odomEnd =>
    simp only [step, show (unpublished s).spin = s.spin from rfl]
    cases s.spin <;> try rfl
    rw [hush_laser, hush_map_map]
  | filtered mean =>
    simp only [step, show (unpublished s).spin = s.spin from rfl, show (unpublished s).globalM = s.globalM from rfl]
    cases s.spin <;> try rfl
    simp only
    split <;> rfl
  | addWindow =>
    simp only [step, show (unpublished s).spin = s.spin from rfl]
    cases s.spin <;> try rfl
    simp only [addWindow, show (unpublished s).localM = s.localM from rfl, show (unpublished s).scans = s.scans from rfl]
    split_ifs <;> rfl
  | localMatched score correction cov =>
    simp only [step, show (unpublished s).spin = s.spin from rfl]
    cases s.spin <;> try rfl
    simp only [localMatched, show (unpublished s).scans = s.scans from rfl]
    cases s.scans.getLast? <;> rfl
  | pushConstraint =>
    simp only [step, show (unpublished s).spin = s.spin from rfl]
    cases s.spin <;> rfl
  | pushScan =>
    simp only [step, show (unpublished s).spin = s.spin from rfl]
    cases s.spin <;> rfl
  | globalMatched correction =>
    simp only [step, show (unpublished s).spin = s.spin from rfl, show (unpublished s).globalM = s.globalM from rfl]
    cases s.spin <;> try rfl
    simp only
    split <;> rfl
  | finishScan =>
    simp only [step, show (unpublished s).spin = s.spin from rfl, show (unpublished s).heap = s.heap from rfl]
    cases s.spin <;> try rfl
    rename_i a odom
    simp only
    cases (s.heap a.epoch)[a.idx]? <;> rfl
  | pose msg odom visit =>
    simp only [step, show (unpublished s).spin = s.spin from rfl, show (unpublished s).scans = s.scans from rfl]
    cases s.spin <;> try rfl
    simp only
    split
    · simp only [poseCallback, show (unpublished s).enable = s.enable from rfl, show (unpublished s).initialized = s.initialized from rfl,
        show (unpublished s).scans = s.scans from rfl, show (unpublished s).graph p = s.graph p from rfl]
      split
      · rfl
      · split
        · rfl
        · cases odom with
          | none => rfl
          | some odom =>
            simp only
            split
            · rfl
            · split
              · cases (s.graph p).findNearest visit ((Scan.new s.scans.length).setPose msg.pose) 10 (-1) with
                | error e => rfl
                | ok near =>
                  simp only [Res.ok_bind]
                  cases near with
                  | nil => rfl
                  | cons i rest =>
                    simp only
                    cases s.scans[i]? <;> rfl
              · rfl
    · rfl
  | setRobot =>
    simp only [step, show (unpublished s).spin = s.spin from rfl]
    cases s.spin <;> rfl
  | setOdom =>
    simp only [step, show (unpublished s).spin = s.spin from rfl]
    cases s.spin <;> rfl
  | configure action bag =>
    simp only [step, show (unpublished s).spin = s.spin from rfl]
    cases s.spin <;> try rfl
    simp only [configure, configureMapping, configureFile]
    cases Graph.load p.useBarycenter bag <;> split_ifs <;> rfl
  | loopWake =>
    simp only [step, show (unpublished s).loop = s.loop from rfl, show (unpublished s).enable = s.enable from rfl]
    cases s.loop <;> try rfl
    simp only
    split <;> rfl
  | loopCount =>
    simp only [step, show (unpublished s).loop = s.loop from rfl]
    cases s.loop <;> try rfl
    simp only [loopCount, show (unpublished s).scans = s.scans from rfl]
    split <;> rfl
  | loopPick visit =>
    simp only [step, show (unpublished s).loop = s.loop from rfl, show (unpublished s).processed = s.processed from rfl,
      show (unpublished s).scans = s.scans from rfl]
    cases s.loop <;> try rfl
    rename_i r
    simp only [loopPick, show (unpublished s).processed = s.processed from rfl, show (unpublished s).scans = s.scans from rfl,
      show (unpublished s).graph p = s.graph p from rfl]
    generalize (if 0 < wrapI32 (s.processed - p.rollingDepth : ℕ) then (wrapI32 (s.processed - p.rollingDepth : ℕ)).toNat
      else s.scans.length) = m
    split
    · rfl
    · split
      · cases s.scans[s.processed]? with
        | none => rfl
        | some scan =>
          simp only
          cases (s.graph p).findNearest visit scan p.searchSize (wrapI32 (s.processed - p.rollingDepth : ℕ)) <;> rfl
      · rfl
  | loopCandidate =>
    simp only [step, show (unpublished s).loop = s.loop from rfl]
    cases s.loop <;> try rfl
    rename_i q
    simp only [loopCandidate, show (unpublished s).scans = s.scans from rfl, show (unpublished s).globalM = s.globalM from rfl]
    cases q.rest with
    | nil => rfl
    | cons i rest =>
      simp only
      cases s.scans[i]? with
      | none => rfl
      | some cand =>
        simp only
        split
        · rfl
        · generalize (if i < q.rolling then i + 1 else i) = e
          generalize (if 0 < i then i - 1 else i) = b
          split
          · rfl
          · cases s.globalM <;> rfl
  | loopMatched score correction cov =>
    simp only [step, show (unpublished s).loop = s.loop from rfl]
    cases s.loop with
    | matching q cand =>
      simp only [loopMatched, show (unpublished s).typical = s.typical from rfl, show (unpublished s).heap = s.heap from rfl]
      split
      · cases (s.heap q.scan.epoch)[q.scan.idx]? <;> cases (s.heap cand.epoch)[cand.idx]? <;> rfl
      · exact congrArg Except.ok (hush_attempt q s s rfl)
    | _ => rfl
  | loopPush =>
    simp only [step, show (unpublished s).loop = s.loop from rfl]
    cases s.loop with
    | pushing q c => exact congrArg Except.ok (hush_attempt' q _ _ rfl)
    | _ => rfl
  | loopDecide =>
    simp only [step, show (unpublished s).loop = s.loop from rfl]
    cases s.loop <;> rfl
  | loopOptimise ceres =>
    simp only [step, show (unpublished s).loop = s.loop from rfl]
    cases s.loop <;> try rfl
    simp only [loopOptimise, show (unpublished s).solver = s.solver from rfl, show (unpublished s).constraints = s.constraints from rfl,
      show (unpublished s).scans = s.scans from rfl]
    cases s.solver.optimize ceres s.constraints s.scans <;> rfl

/-- What the publishing thread does changes nothing of the others. -/
theorem hush_pub {p : Params} {s t : Sys} {e : Event} (he : isPubEvent e) (h : step p s e = .ok t) : unpublished t = unpublished s := by
  cases e <;> try exact absurd he id
  all_goals
    simp only [step] at h
    cases hp : s.pub <;> rw [hp] at h <;> try (cases h; rfl)
  · unfold pubGrid at h
    obtain ⟨⟨grid, msg⟩, -, h⟩ := bind_ok h
    cases h
    rfl
  · unfold pubGraph at h
    obtain ⟨msg, -, h⟩ := bind_ok h
    cases h
    rfl
  · have h := Except.ok.inj h
    subst h
    unfold pubTf
    split <;> rfl

/-- A node without what belongs to publishing. -/
def quiet (n : Node) : Node := { n with sys := unpublished n.sys }

theorem same_iff (n m : Node) : SameButPublished n m ↔ quiet n = quiet m := by
  obtain ⟨a, b, c, d⟩ := n
  obtain ⟨a', b', c', d'⟩ := m
  simp [SameButPublished, quiet]

/-- Both fail in the same way, or both give the same but for what belongs to publishing. -/
theorem hush_cases {x y : Res Sys} (h : x.map unpublished = y.map unpublished) :
    (∃ e, x = .error e ∧ y = .error e) ∨ ∃ u t, x = .ok u ∧ y = .ok t ∧ unpublished u = unpublished t := by
  cases x with
  | error a =>
    cases y with
    | error b => cases h; exact Or.inl ⟨_, rfl, rfl⟩
    | ok t => cases h
  | ok u =>
    cases y with
    | error b => cases h
    | ok t => exact Or.inr ⟨u, t, rfl, rfl, Except.ok.inj h⟩

theorem quiet_mapper (np : NodeParams) (n : Node) (e : Event) (he : ¬ isPubEvent e) :
    ((quiet n).mapper np e).map quiet = (n.mapper np e).map quiet := by
  unfold Node.mapper
  rcases hush_cases (hush_step np.map n.sys e he) with ⟨a, h1, h2⟩ | ⟨u, t, h1, h2, h⟩
  · simp only [quiet, h1, h2]
  · simp only [quiet, h1, h2, Res.ok_bind]
    show Except.ok (quiet { quiet n with sys := u }) = Except.ok (quiet { n with sys := t })
    simp only [quiet, h]

theorem quiet_mapper_bind (np : NodeParams) (n : Node) (e : Event) (he : ¬ isPubEvent e) (f : Node → Node)
    (hf : ∀ a b, quiet a = quiet b → quiet (f a) = quiet (f b)) :
    ((quiet n).mapper np e >>= fun m => .ok (f m) : Res Node).map quiet = (n.mapper np e >>= fun m => .ok (f m) : Res Node).map quiet := by
  have h := quiet_mapper np n e he
  cases h1 : (quiet n).mapper np e with
  | error a =>
    cases h2 : n.mapper np e with
    | error b => rw [h1, h2] at h; cases h; rfl
    | ok t => rw [h1, h2] at h; cases h
  | ok u =>
    cases h2 : n.mapper np e with
    | error b => rw [h1, h2] at h; cases h
    | ok t =>
      rw [h1, h2] at h
      exact congrArg Except.ok (hf _ _ (Except.ok.inj h))

theorem quiet_make (np : NodeParams) (n : Node) (msg : LaserMsg) :
    Node.makeMatchers np (quiet n) msg = (Node.makeMatchers np n msg).map quiet := by
  unfold Node.makeMatchers
  simp only [quiet, show (unpublished n.sys).rangeMax = n.sys.rangeMax from rfl, show (unpublished n.sys).enable = n.sys.enable from rfl,
    show (unpublished n.sys).scans = n.sys.scans from rfl]
  cases Node.initMatcher np.globalCfg (Laser.latchRangeMax n.sys.rangeMax msg) with
  | error e => rfl
  | ok g =>
    simp only [Res.ok_bind]
    cases (if (np.map.useFilter || !n.sys.enable) = true then g.addScans n.sys.scans else .ok g : Res Matcher) with
    | error e => rfl
    | ok g =>
      simp only [Res.ok_bind]
      cases Node.initMatcher np.localCfg (Laser.latchRangeMax n.sys.rangeMax msg) <;> rfl

/-- The same for the node. -/
theorem hushed_step (np : NodeParams) (n : Node) (i : Input) (hi : ¬ IsPublishing i) :
    (Node.step np (quiet n) i).map quiet = (Node.step np n i).map quiet := by
  cases i with
  | plain e =>
    cases e with
    | pubCheck => exact absurd trivial hi
    | pubClear => exact absurd trivial hi
    | pubGrid => exact absurd trivial hi
    | pubGraph => exact absurd trivial hi
    | pubTf => exact absurd trivial hi
    | laser msg mount odom odomEnd =>
      simp only [Node.step]
      by_cases hm : n.makesMatchers mount
      · rw [if_pos hm, if_pos (show (quiet n).makesMatchers mount from hm), quiet_make]
        cases Node.makeMatchers np n msg with
        | error e => rfl
        | ok m => exact quiet_mapper np m _ id
      · rw [if_neg hm, if_neg (show ¬ (quiet n).makesMatchers mount from hm)]
        exact quiet_mapper np n _ id
    | addWindow =>
      simp only [Node.step, show (quiet n).sys.spin = n.sys.spin from rfl]
      cases n.sys.spin <;> try rfl
      simp only [show (quiet n).sys = unpublished n.sys from rfl, show (quiet n).localN = n.localN from rfl]
      rcases hush_cases (hush_step np.map n.sys .addWindow id) with ⟨a, h1, h2⟩ | ⟨u, t, h1, h2, h⟩
      · rw [h1, h2]; rfl
      · rw [h1, h2]
        simp only [Res.ok_bind]
        have hl : u.localM = t.localM := show (unpublished u).localM = (unpublished t).localM by rw [h]
        rw [hl]
        cases n.localN with
        | none => rfl
        | some l =>
          cases t.localM with
          | none => rfl
          | some w =>
            simp only
            cases l.reset.addScans w with
            | error e => rfl
            | ok l' =>
              show Except.ok (quiet { quiet n with sys := u, localN := some l' }) = Except.ok (quiet { n with sys := t, localN := some l' })
              simp only [quiet, h]
    | loopCandidate =>
      simp only [Node.step, show (quiet n).sys = unpublished n.sys from rfl, show (quiet n).globalN = n.globalN from rfl,
        show (unpublished n.sys).loop = n.sys.loop from rfl]
      rcases hush_cases (hush_step np.map n.sys .loopCandidate id) with ⟨a, h1, h2⟩ | ⟨u, t, h1, h2, h⟩
      · rw [h1, h2]; rfl
      · rw [h1, h2]
        simp only [Res.ok_bind]
        have hg : u.globalM = t.globalM := show (unpublished u).globalM = (unpublished t).globalM by rw [h]
        have hl : u.loop = t.loop := show (unpublished u).loop = (unpublished t).loop by rw [h]
        rw [hl, hg]
        have e0 : Except.map quiet (Except.ok { quiet n with sys := u } : Res Node) = Except.map quiet (.ok { n with sys := t }) := by
          show Except.ok (quiet { quiet n with sys := u }) = Except.ok (quiet { n with sys := t })
          simp only [quiet, h]
        cases n.sys.loop <;> try exact e0
        cases t.loop <;> try exact e0
        simp only
        cases n.globalN with
        | none => rfl
        | some g =>
          cases t.globalM with
          | none => rfl
          | some w =>
            simp only
            cases g.reset.addScans w with
            | error e => rfl
            | ok g' =>
              show Except.ok (quiet { quiet n with sys := u, globalN := some g' }) = Except.ok (quiet { n with sys := t, globalN := some g' })
              simp only [quiet, h]
    | localMatched _ _ _ => rfl
    | globalMatched _ => rfl
    | loopMatched _ _ _ => rfl
    | filtered _ => rfl
    | pose _ _ _ => rfl
    | pushConstraint => exact quiet_mapper np n _ id
    | pushScan => exact quiet_mapper np n _ id
    | finishScan => exact quiet_mapper np n _ id
    | setRobot => exact quiet_mapper np n _ id
    | setOdom => exact quiet_mapper np n _ id
    | configure _ _ => exact quiet_mapper np n _ id
    | loopWake => exact quiet_mapper np n _ id
    | loopCount => exact quiet_mapper np n _ id
    | loopPick _ => exact quiet_mapper np n _ id
    | loopPush => exact quiet_mapper np n _ id
    | loopDecide => exact quiet_mapper np n _ id
    | loopOptimise _ => exact quiet_mapper np n _ id
  | localMatch junk =>
    simp only [Node.step, show (quiet n).sys.spin = n.sys.spin from rfl, show (quiet n).localN = n.localN from rfl]
    cases n.sys.spin <;> try rfl
    rename_i scan odom
    simp only
    cases n.localN with
    | none => rfl
    | some l =>
      simp only
      cases l.scoreScan scan with
      | error e => rfl
      | ok v =>
        simp only [Res.ok_bind]
        cases l.matchScan scan Pose2d.zero junk with
        | error e => rfl
        | ok r => exact quiet_mapper np n _ id
  | globalMatch junk =>
    simp only [Node.step, show (quiet n).sys.spin = n.sys.spin from rfl, show (quiet n).globalN = n.globalN from rfl]
    cases n.sys.spin <;> try rfl
    rename_i scan odom
    simp only
    cases n.globalN with
    | none => rfl
    | some g =>
      simp only
      cases g.scoreScan scan with
      | error e => rfl
      | ok v =>
        simp only [Res.ok_bind]
        cases g.matchScan scan Pose2d.zero junk with
        | error e => rfl
        | ok r => exact quiet_mapper np n _ id
  | loopMatch junk =>
    simp only [Node.step, show (quiet n).sys.loop = n.sys.loop from rfl, show (quiet n).sys.heap = n.sys.heap from rfl,
      show (quiet n).globalN = n.globalN from rfl]
    cases n.sys.loop with
    | matching q cand =>
      simp only
      cases n.globalN with
      | none => rfl
      | some g =>
        cases (n.sys.heap q.scan.epoch)[q.scan.idx]? with
        | none => rfl
        | some scan =>
          simp only
          cases g.matchScan scan Pose2d.zero junk with
          | error e => (show (Except.error e : Res Node) = .error e; rfl)
          | ok r => exact quiet_mapper np n (.loopMatched r.score r.pose r.covariance) id
    | _ => rfl
  | filterScan nrm draw =>
    simp only [Node.step, show (quiet n).sys.spin = n.sys.spin from rfl, show (quiet n).filter = n.filter from rfl,
      show (quiet n).globalN = n.globalN from rfl, show (quiet n).sys.prevRobot = n.sys.prevRobot from rfl]
    cases n.sys.spin <;> try rfl
    rename_i scan odom
    simp only
    cases n.filter with
    | none => rfl
    | some f =>
      cases n.globalN with
      | none => rfl
      | some g =>
        simp only
        split
        · rfl
        · cases f.update nrm (Node.control n.sys.prevRobot scan.getPose).x (Node.control n.sys.prevRobot scan.getPose).y
            (Node.control n.sys.prevRobot scan.getPose).theta with
          | error e => rfl
          | ok f =>
            simp only [Res.ok_bind]
            cases f.measure fun p => g.scorePoints scan.getPoints p with
            | error e => rfl
            | ok f =>
              simp only [Res.ok_bind]
              cases f.resample np.kldErr np.kldZ draw with
              | error e => rfl
              | ok f =>
                simp only [Res.ok_bind]
                cases Node.meanPose f with
                | error e => rfl
                | ok mean =>
                  simp only [Res.ok_bind]
                  exact quiet_mapper_bind np n (.filtered mean) id (fun m => { m with filter := some f }) (by
                    intro a b h
                    have h1 : unpublished a.sys = unpublished b.sys := congrArg Node.sys h
                    have h2 : a.globalN = b.globalN := show (quiet a).globalN = (quiet b).globalN by rw [h]
                    have h3 : a.localN = b.localN := show (quiet a).localN = (quiet b).localN by rw [h]
                    simp only [quiet, h1, h2, h3])
  | pose msg odom visit nrm =>
    simp only [Node.step, show (quiet n).filter = n.filter from rfl]
    by_cases hm : Node.initsFilter np n msg odom visit
    · rw [if_pos hm, if_pos (show Node.initsFilter np (quiet n) msg odom visit from hm)]
      cases n.filter with
      | none => rfl
      | some f =>
        simp only
        split
        · rfl
        · cases f.init nrm msg.pose.x msg.pose.y msg.pose.theta (Real.sqrt msg.covX) (Real.sqrt msg.covY) (Real.sqrt msg.covTheta) with
          | error e => rfl
          | ok f =>
            simp only [Res.ok_bind]
            exact quiet_mapper_bind np n (.pose msg odom visit) id (fun m => { m with filter := some f }) (by
              intro a b h
              have h1 : unpublished a.sys = unpublished b.sys := congrArg Node.sys h
              have h2 : a.globalN = b.globalN := show (quiet a).globalN = (quiet b).globalN by rw [h]
              have h3 : a.localN = b.localN := show (quiet a).localN = (quiet b).localN by rw [h]
              simp only [quiet, h1, h2, h3])
    · rw [if_neg hm, if_neg (show ¬ Node.initsFilter np (quiet n) msg odom visit from hm)]
      exact quiet_mapper np n _ id

theorem hushed_pub {np : NodeParams} {n t : Node} {i : Input} (hi : IsPublishing i) (h : Node.step np n i = .ok t) : quiet t = quiet n := by
  have key : ∀ e, isPubEvent e → n.mapper np e = .ok t → quiet t = quiet n := by
    intro e he h
    unfold Node.mapper at h
    obtain ⟨u, h1, h2⟩ := bind_ok h
    cases h2
    simp only [quiet, hush_pub he h1]
  cases i with
  | plain e =>
    cases e with
    | pubCheck => exact key .pubCheck trivial h
    | pubClear => exact key .pubClear trivial h
    | pubGrid => exact key .pubGrid trivial h
    | pubGraph => exact key .pubGraph trivial h
    | pubTf => exact key .pubTf trivial h
    | _ => exact absurd hi id
  | _ => exact absurd hi id

theorem hushed_run (np : NodeParams) (is : List Input) (n m t : Node) (hnm : quiet n = quiet m) (h : Node.run np n is = .ok t) :
    ∃ t', Node.run np m (is.filter fun i => ¬ IsPublishing i) = .ok t' ∧ quiet t = quiet t' := by
  induction is generalizing n m with
  | nil => exact ⟨m, rfl, by cases h; exact hnm⟩
  | cons i is ih =>
    unfold Node.run at h
    rw [List.foldlM_cons] at h
    obtain ⟨u, h1, h2⟩ := bind_ok h
    by_cases hi : IsPublishing i
    · rw [List.filter_cons_of_neg (by simp [hi])]
      exact ih u m ((hushed_pub hi h1).trans hnm) h2
    · rw [List.filter_cons_of_pos (by simp [hi])]
      have e1 := hushed_step np n i hi
      have e2 := hushed_step np m i hi
      rw [hnm, e2, h1] at e1
      cases hm : Node.step np m i with
      | error e => rw [hm] at e1; cases e1
      | ok v =>
        rw [hm] at e1
        obtain ⟨t', h3, h4⟩ := ih u v (Except.ok.inj e1).symm h2
        refine ⟨t', ?_, h4⟩
        unfold Node.run at h3 ⊢
        rw [List.foldlM_cons, hm, Res.ok_bind, h3]

theorem hushed_back (np : NodeParams) (is : List Input) (n m t' : Node) (hnm : quiet n = quiet m)
    (h : Node.run np m (is.filter fun i => ¬ IsPublishing i) = .ok t') :
    (∃ t, Node.run np n is = .ok t ∧ quiet t = quiet t') ∨
      ∃ pre i post u e, is = pre ++ i :: post ∧ IsPublishing i ∧ Node.run np n pre = .ok u ∧ Node.step np u i = .error e := by
  induction is generalizing n m with
  | nil => exact Or.inl ⟨n, rfl, by cases h; exact hnm⟩
  | cons i is ih =>
    have more : ∀ u, Node.step np n i = .ok u →
        ((∃ t, Node.run np u is = .ok t ∧ quiet t = quiet t') ∨
          ∃ pre j post v e, is = pre ++ j :: post ∧ IsPublishing j ∧ Node.run np u pre = .ok v ∧ Node.step np v j = .error e) →
        (∃ t, Node.run np n (i :: is) = .ok t ∧ quiet t = quiet t') ∨
          ∃ pre j post v e, i :: is = pre ++ j :: post ∧ IsPublishing j ∧ Node.run np n pre = .ok v ∧ Node.step np v j = .error e := by
      rintro u hu (⟨t, h1, h2⟩ | ⟨pre, j, post, v, e, rfl, h2, h3, h4⟩)
      · refine Or.inl ⟨t, ?_, h2⟩
        unfold Node.run at h1 ⊢
        rw [List.foldlM_cons, hu, Res.ok_bind, h1]
      · refine Or.inr ⟨i :: pre, j, post, v, e, rfl, h2, ?_, h4⟩
        unfold Node.run at h3 ⊢
        rw [List.foldlM_cons, hu, Res.ok_bind, h3]
    by_cases hi : IsPublishing i
    · rw [List.filter_cons_of_neg (by simp [hi])] at h
      cases hu : Node.step np n i with
      | error e => exact Or.inr ⟨[], i, is, n, e, rfl, hi, rfl, hu⟩
      | ok u => exact more u hu (ih u m ((hushed_pub hi hu).trans hnm) h)
    · rw [List.filter_cons_of_pos (by simp [hi])] at h
      unfold Node.run at h
      rw [List.foldlM_cons] at h
      obtain ⟨v, h1, h2⟩ := bind_ok h
      have e1 := hushed_step np n i hi
      have e2 := hushed_step np m i hi
      rw [hnm, e2, h1] at e1
      cases hu : Node.step np n i with
      | error e => rw [hu] at e1; cases e1
      | ok u =>
        rw [hu] at e1
        exact more u hu (ih u v (Except.ok.inj e1).symm h2)

/-- **C164** Whatever the threads do, in whatever order: without the work of the publishing thread the others do the same, and end in the same state. -/
theorem c164_publishing_is_invisible (np : NodeParams) (n t : Node) (is : List Input) (h : Node.run np n is = .ok t) :
    ∃ t', Node.run np n (is.filter fun i => ¬ IsPublishing i) = .ok t' ∧ SameButPublished t t' := by
  obtain ⟨t', h1, h2⟩ := hushed_run np is n n t rfl h
  exact ⟨t', h1, (same_iff _ _).mpr h2⟩

/-- **C164** Conversely, publishing in between changes nothing, unless it fails itself. -/
theorem c164_publishing_added (np : NodeParams) (n t' : Node) (is : List Input) (h : Node.run np n (is.filter fun i => ¬ IsPublishing i) = .ok t') :
    (∃ t, Node.run np n is = .ok t ∧ SameButPublished t t') ∨
      ∃ pre i post u e, is = pre ++ i :: post ∧ IsPublishing i ∧ Node.run np n pre = .ok u ∧ Node.step np u i = .error e := by
  rcases hushed_back np is n n t' rfl h with ⟨t, h1, h2⟩ | h
  · exact Or.inl ⟨t, h1, (same_iff _ _).mpr h2⟩
  · exact Or.inr h

/-- **C164** So the node of C161 that publishes in the midst of its work has the same map. -/
theorem c164_mapping {np : NodeParams} (hf : np.map.useFilter = false)
    (hl : 0 < np.localCfg.linearRes) (ha : 0 < np.localCfg.angularRes) (hpi : np.localCfg.angularSize < Real.pi / 2)
    {range : ℝ} {lt : Pose2d} {inverted : Bool} (ls : List Leg) {scans : List Scan} {odom place : Pose2d} {s t : Node}
    (hs : Mapping np range lt inverted scans odom place s) (hr : Surveys np range lt inverted scans odom place (ls.map Leg.stop))
    (hw : OnTheWay np.map.minDist np.map.minRot odom ls) (is : List Input)
    (his : (is.filter fun i => ¬ IsPublishing i) = ls.flatMap Leg.mapInputs) (h : Node.run np s is = .ok t) :
    t.sys.scans.map (·.pose) = scans.map (·.pose) ++ (ls.map Leg.stop).map Stop.place ∧
      t.sys.prevRobot = ((ls.map Leg.stop).getLast?.map Stop.place).getD place := by
  obtain ⟨u, h1, -, h2, h3⟩ := c163_mapping hf hl ha hpi ls hs hr hw
  obtain ⟨t', h4, h5, -⟩ := c164_publishing_is_invisible np s t is h
  rw [his, h1] at h4
  obtain rfl := Except.ok.inj h4
  have e1 : t.sys.scans = u.sys.scans := show (unpublished t.sys).scans = (unpublished u.sys).scans by rw [h5]
  have e2 : t.sys.prevRobot = u.sys.prevRobot := show (unpublished t.sys).prevRobot = (unpublished u.sys).prevRobot by rw [h5]
  rw [e1, e2]
  exact ⟨h2, h3⟩

/-- **C164** And the node of C160 is at the same place. -/
theorem c164_localising {np : NodeParams} (hf : np.map.useFilter = false) {mt : Matcher} {scans : List Scan} {mt' : Matcher} {g : NdtGrid}
    (hm : GoodMap mt scans mt' g) {wall : ℤ × ℤ → Line}
    (hwall : WallsOf g.originX g.originY g.cellSize (mapPoints (scans.map .addScan)) wall)
    (hl : 0 < mt'.linearRes) (ha : 0 < mt'.angularRes) (hpi : mt'.angularSize < Real.pi / 2)
    {range : ℝ} (hrange : 0 ≤ range) {lt : Pose2d} {inverted : Bool} {n : ℕ} (ls : List Leg) {odom place : Pose2d} {s t : Node}
    (hs : Tracks (.fin range) lt inverted n mt' odom place s)
    (hr : Drives np (.fin range) lt inverted n mt' g (mapPoints (scans.map .addScan)) wall odom place (ls.map Leg.stop))
    (hw : OnTheWay np.map.minDist np.map.minRot odom ls) (is : List Input)
    (his : (is.filter fun i => ¬ IsPublishing i) = ls.flatMap Leg.inputs) (h : Node.run np s is = .ok t) :
    t.sys.prevRobot = ((ls.map Leg.stop).getLast?.map Stop.place).getD place ∧ t.sys.scans = s.sys.scans := by
  obtain ⟨u, h1, -, h2, h3⟩ := c163_localising hf hm hwall hl ha hpi hrange ls hs hr hw
  obtain ⟨t', h4, h5, -⟩ := c164_publishing_is_invisible np s t is h
  rw [his, h1] at h4
  obtain rfl := Except.ok.inj h4
  have e1 : t.sys.scans = u.sys.scans := show (unpublished t.sys).scans = (unpublished u.sys).scans by rw [h5]
  have e2 : t.sys.prevRobot = u.sys.prevRobot := show (unpublished t.sys).prevRobot = (unpublished u.sys).prevRobot by rw [h5]
  rw [e1, e2]
  exact ⟨h2, h3⟩

/-- **C164** (a concrete run) The mapping node in the corner has something to publish, and starts with that in the midst of its second scan; the map is that
of C161. -/
theorem c164_corner (junk : Mat3F) : ∃ n u t : Node, Node.start surveyNode true none = .ok n ∧
    Node.run surveyNode n [.plain (.laser surveyMsg (some (Pose2d.zero, false)) (some Pose2d.zero) (some ⟨3 / 10, 0, 0⟩)), .plain .pushScan,
      .plain .finishScan] = .ok u ∧ u.sys.pub = .check ∧ u.sys.update = true ∧
    Node.run surveyNode u ([.plain .pubCheck, (pauseAt ⟨2 / 100, 0, 0⟩).input] ++ (surveyStop junk).mapInputs.take 2 ++ [.plain .pubClear] ++
      (surveyStop junk).mapInputs.drop 2) = .ok t ∧
    t.sys.scans.map (·.pose) = [Pose2d.zero, ⟨7 / 100, 0, 0⟩] ∧ t.sys.prevRobot = ⟨7 / 100, 0, 0⟩ := by
  obtain ⟨fs, h1, h2⟩ := surveyMsg_points
  obtain ⟨n, u, b1, b2, b3, b4, b5⟩ := first_stop_full (np := surveyNode) rfl (range := 10) (by norm_num)
    (by norm_num [Laser.latchRangeMax, surveyNode, demoNode, demoParams, surveyMsg]) h1 h2
  have h0 : normalizeAngle 0 = 0 := normalizeAngle_of_mem ⟨by linarith [Real.pi_pos], Real.pi_pos.le⟩
  have k1 : 0 < surveyNode.localCfg.linearRes := by norm_num [surveyNode, demoNode, defaultMatcher]
  have k2 : 0 < surveyNode.localCfg.angularRes := by norm_num [surveyNode, demoNode, defaultMatcher]
  have k3 : surveyNode.localCfg.angularSize < Real.pi / 2 := by
    have := Real.two_le_pi
    norm_num [surveyNode, demoNode, defaultMatcher]
    linarith
  let ls : List Leg := [⟨[pauseAt ⟨2 / 100, 0, 0⟩], surveyStop junk⟩]
  have hw : OnTheWay surveyNode.map.minDist surveyNode.map.minRot Pose2d.zero ls := ⟨by
    intro r hr
    simp only [List.mem_cons, List.not_mem_nil, or_false] at hr
    subst hr
    norm_num [Moved, pauseAt, surveyNode, demoNode, demoParams, Pose2d.zero, shortestAngularDistance, h0], trivial⟩
  obtain ⟨t', a1, -⟩ := c163_mapping rfl k1 k2 k3 ls b3 (surveyStop_surveys junk) hw
  set is : List Input := [.plain .pubCheck, (pauseAt ⟨2 / 100, 0, 0⟩).input] ++ (surveyStop junk).mapInputs.take 2 ++ [.plain .pubClear] ++
      (surveyStop junk).mapInputs.drop 2 with his
  have hfil : (is.filter fun i => ¬ IsPublishing i) = ls.flatMap Leg.mapInputs := by
    simp [his, ls, Stop.mapInputs, Leg.mapInputs, IsPublishing, Pause.input]
  have hmem : ∀ i ∈ is, IsPublishing i → i = .plain .pubCheck ∨ i = .plain .pubClear := by
    intro i hi hp
    simp only [his, Stop.mapInputs, Pause.input, List.take, List.drop, List.cons_append, List.nil_append, List.mem_cons, List.not_mem_nil, or_false] at hi
    rcases hi with rfl | rfl | rfl | rfl | rfl | rfl | rfl | rfl | rfl <;> first | exact Or.inl rfl | exact Or.inr rfl | exact absurd hp id
  rcases c164_publishing_added surveyNode u t' is (by rw [hfil]; exact a1) with ⟨t, ht, -⟩ | ⟨pre, i, post, v, e, h3, h4, -, h5⟩
  · obtain ⟨h6, h7⟩ := c164_mapping rfl k1 k2 k3 ls b3 (surveyStop_surveys junk) hw is hfil ht
    exact ⟨n, u, t, b1, b2, b4, b5, ht, h6, h7⟩
  · exfalso
    rcases hmem i (by rw [h3]; simp) h4 with rfl | rfl
    · simp only [Node.step, Node.mapper, Mapper.step] at h5
      cases hp : v.sys.pub <;> rw [hp] at h5 <;> cases h5
    · simp only [Node.step, Node.mapper, Mapper.step] at h5
      cases hp : v.sys.pub <;> rw [hp] at h5 <;> cases h5

end

end Ndt
