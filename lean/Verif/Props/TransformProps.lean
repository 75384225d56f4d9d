import Verif.Proof.Demo
import Verif.Proof.Exec
import Verif.Props.GraphStateProps

/-! # The poses behind the published transform (C70) -/

namespace Ndt

noncomputable section

open Spec Mapper

/-- Robot pose `r` and odometry pose `o` belong together in an execution: they are those of the start, or a laser callback
arrived at them together, or a laser callback arrived at `o` and the scan it had put into the graph had pose `r`, or they
came with an initial pose. -/
def Together (p : Params) (A : Sys → Event → Prop) (s : Sys) (es : List Event) (r o : Pose2d) : Prop :=
  (r = s.prevRobot ∧ o = s.prevOdom) ∨
  ∃ es1 es2 u, es = es1 ++ es2 ∧ Exec p A s es1 u ∧ (u.spin = .finish r o ∨
    (∃ a scan, u.spin = .announce a o ∧ (u.heap a.epoch)[a.idx]? = some scan ∧ scan.pose = r) ∨ u.spin = .poseRobot r o)

theorem together_snoc {p : Params} {A : Sys → Event → Prop} {s : Sys} {es : List Event} {r o : Pose2d} (e : Event)
    (h : Together p A s es r o) : Together p A s (es ++ [e]) r o := by
  rcases h with h | ⟨es1, es2, u, rfl, h1, h2⟩
  · exact Or.inl h
  · exact Or.inr ⟨es1, es2 ++ [e], u, by simp, h1, h2⟩

/-- Where the executor is storing an initial pose: the robot pose is stored, the odometry pose is not. -/
def HalfStored : Spin → Prop
  | .poseOdom _ => True
  | _ => False

theorem pair_inv {p : Params} {A : Sys → Event → Prop} {s t : Sys} {es : List Event} (h0 : ¬ HalfStored s.spin)
    (h : Exec p A s es t) :
    (∀ o, t.spin = .poseOdom o → Together p A s es t.prevRobot o) ∧
    (¬ HalfStored t.spin → Together p A s es t.prevRobot t.prevOdom) := by
  induction h with
  | nil => exact ⟨fun o ho => absurd (by rw [ho]; trivial) h0, fun _ => Or.inl ⟨rfl, rfl⟩⟩
  | @snoc es t t' e hx ha hst ih =>
    obtain ⟨ih1, ih2⟩ := ih
    have keep : ∀ t' : Sys, t'.spin = t.spin → t'.prevRobot = t.prevRobot → t'.prevOdom = t.prevOdom →
        (∀ o, t'.spin = .poseOdom o → Together p A s (es ++ [e]) t'.prevRobot o) ∧
        (¬ HalfStored t'.spin → Together p A s (es ++ [e]) t'.prevRobot t'.prevOdom) := by
      intro t' a b c
      rw [a, b, c]
      exact ⟨fun o ho => together_snoc e (ih1 o ho), fun hn => together_snoc e (ih2 hn)⟩
    have move : ∀ t' : Sys, ¬ HalfStored t.spin → ¬ HalfStored t'.spin → t'.prevRobot = t.prevRobot → t'.prevOdom = t.prevOdom →
        (∀ o, t'.spin = .poseOdom o → Together p A s (es ++ [e]) t'.prevRobot o) ∧
        (¬ HalfStored t'.spin → Together p A s (es ++ [e]) t'.prevRobot t'.prevOdom) := by
      intro t' a a' b c
      refine ⟨fun o ho => absurd (by rw [ho]; trivial) a', fun _ => ?_⟩
      rw [b, c]
      exact together_snoc e (ih2 a)
    cases step_trans hst with
    | stutter _ => exact keep _ rfl rfl rfl
    | laserIgnored msg mount odom odomEnd hi =>
      obtain ⟨r, l, g, m, e, -⟩ := setup_cases p msg mount t
      rw [e]; exact keep _ rfl rfl rfl
    | laserScan msg mount odom odomEnd points hi hgo hinit ht =>
      obtain ⟨r, l, g, m, e, -⟩ := setup_cases p msg mount t
      rw [e]
      refine move _ (by rw [hi]; exact id) ?_ rfl rfl
      simp only [branch]
      split_ifs <;> exact id
    | filtered mean scan odom hi => exact move _ (by rw [hi]; exact id) id rfl rfl
    | addWindow scan odom w hi hl hw => exact move _ (by rw [hi]; exact id) id rfl rfl
    | localMatched score correction cov scan back odom hi hb => exact move _ (by rw [hi]; exact id) id rfl rfl
    | pushConstraint c scan odom hi => exact move _ (by rw [hi]; exact id) id rfl rfl
    | pushScan scan odom hi => exact move _ (by rw [hi]; exact id) id rfl rfl
    | globalMatched correction scan odom hi => exact move _ (by rw [hi]; exact id) id rfl rfl
    | finishScan robot odom hi =>
      exact ⟨fun o ho => (by cases ho), fun _ => Or.inr ⟨es, [_], t, rfl, hx, Or.inl hi⟩⟩
    | announce a odom scan hi hs =>
      exact ⟨fun o ho => (by cases ho), fun _ => Or.inr ⟨es, [_], t, rfl, hx, Or.inr (Or.inl ⟨a, scan, hi, hs, rfl⟩)⟩⟩
    | poseKept m odom visit hi he => exact move _ (by rw [hi]; exact id) id rfl rfl
    | poseScan m odom visit near i rest hi he hn hf hnear hv hfind => exact move _ (by rw [hi]; exact id) id rfl rfl
    | setRobot robot odom hi =>
      refine ⟨fun o ho => ?_, fun hn => absurd trivial hn⟩
      simp only [Spin.poseOdom.injEq] at ho
      subst ho
      exact Or.inr ⟨es, [_], t, rfl, hx, Or.inr (Or.inr hi)⟩
    | setOdom odom hi => exact ⟨fun o ho => (by cases ho), fun _ => together_snoc _ (ih1 odom hi)⟩
    | configureFlags action bag hi hl =>
      obtain ⟨en, ini, e, -⟩ := configureMapping_frame action t
      rw [e]; exact keep _ rfl rfl rfl
    | load action bag g hi hl hg =>
      obtain ⟨en, ini, e, -⟩ := configureMapping_frame action t
      rw [e]; exact keep _ rfl rfl rfl
    | loopReject score correction cov q cand hi hs =>
      obtain ⟨n, l, e⟩ := afterAttempt_frame q t
      rw [e]; exact keep _ rfl rfl rfl
    | loopPush q c hi =>
      obtain ⟨n, l, e⟩ := afterAttempt_frame q { t with constraints := t.constraints ++ [c], update := true }
      rw [e]; exact keep _ rfl rfl rfl
    | pubTf hi =>
      obtain ⟨x, e⟩ := pubTf_frame t
      rw [e]; exact keep _ rfl rfl rfl
    | _ => exact keep _ rfl rfl rfl

/-- **C70** (laser scans) In every execution and schedule, a transform that is published while no initial pose is being
stored is that of a robot pose and an odometry pose that belong together. Missing: the window in which an initial pose
is being stored, see below. -/
theorem c70_poses_belong_together_partial (p : Params) (A : Sys → Event → Prop) (enable : Bool) (file : Option (List BagMsg))
    (s t t' : Sys) (es : List Event) (hs : Mapper.start p enable file = .ok s) (h : Exec p A s es t)
    (hp : t.pub = .tf) (hn : t.scans ≠ []) (ho : ¬ HalfStored t.spin) (hst : step p t .pubTf = .ok t') :
    ∃ r o, Together p A s es r o ∧ t'.lastTf = some ((toEigen r).mul (toEigen o).inverse) := by
  have h0 : ¬ HalfStored s.spin := by
    rcases start_cases hs with ⟨-, e⟩ | ⟨bag, g, -, -, e⟩ <;> (rw [e]; exact id)
  refine ⟨_, _, (pair_inv h0 h).2 ho, ?_⟩
  unfold step at hst
  rw [hp] at hst
  simp only at hst
  injection hst with hst
  rw [← hst, pubTf, if_neg hn]
  rfl

/-- An initial pose given while localising with a graph of one scan. -/
def demoPose (r o : Pose2d) : Event := .pose ⟨true, r, 1, 1, 1⟩ (some o) [0]

/-- One scan in the graph, mapping disabled, the publishing thread about to publish the transform. -/
def demoOff (p : Params) : Sys :=
  { demoOne p { demoStart p true with pub := .tf } Pose2d.zero with enable := false, initialized := false }

theorem run_demoOff (p : Params) (hf : p.useFilter = false) :
    run p (demoStart p true) [.pubCheck, demoLaser Pose2d.zero, .pushScan, .finishScan, .configure 2#32 []] =
      .ok (demoOff p) := by
  have h1 : step p (demoStart p true) .pubCheck = .ok { demoStart p true with pub := .tf } := by
    simp [step, demoStart, startWith]
  rw [run_cons, h1, Res.ok_bind, run_cons, step_demoLaser_first p _ _ rfl rfl rfl (Or.inl rfl), Res.ok_bind]
  simp [branch, hf, run_cons, step, run, demoOff, demoOne, demoStart, startWith, Sys.scans, Graph.new, firstPose, blank,
    Scan.getPose, Scan.setPoints, Scan.setPose, configure, configureMapping, configureFile]

theorem demoOff_reach (p : Params) (hf : p.useFilter = false) : Reach p (fun _ => True) Any (demoOff p) := by
  refine ⟨true, none, demoStart p true,
    [.pubCheck, demoLaser Pose2d.zero, .pushScan, .finishScan, .configure 2#32 []], rfl, by simp, ?_⟩
  refine Exec.mono (A := fun _ _ => True) (fun _ _ _ => ⟨trivial, fun _ _ _ _ _ => trivial⟩)
    ((exec_iff_run p (fun _ => True) _ _ _).mpr ⟨run_demoOff p hf, fun _ _ => trivial⟩)

/-- **C70** Refuted: while an initial pose is being stored the publishing thread can publish a transform that is neither that
of the poses before nor that of the poses given. -/
theorem c70_torn_transform : ∃ (p : Params) (s s1 s2 s3 : Sys) (T : Iso), Reach p (fun _ => True) Any s ∧
    step p s (demoPose ⟨5, 0, 0⟩ ⟨3, 0, 0⟩) = .ok s1 ∧ step p s1 .setRobot = .ok s2 ∧ step p s2 .pubTf = .ok s3 ∧
    s3.lastTf = some T ∧ T ≠ (toEigen s.prevRobot).mul (toEigen s.prevOdom).inverse ∧
    T ≠ (toEigen ⟨5, 0, 0⟩).mul (toEigen ⟨3, 0, 0⟩).inverse := by
  refine ⟨demoParams 10 3, demoOff (demoParams 10 3), { demoOff (demoParams 10 3) with spin := .poseRobot ⟨5, 0, 0⟩ ⟨3, 0, 0⟩ },
    { demoOff (demoParams 10 3) with prevRobot := ⟨5, 0, 0⟩, spin := .poseOdom ⟨3, 0, 0⟩ },
    { demoOff (demoParams 10 3) with
      prevRobot := ⟨5, 0, 0⟩, spin := .poseOdom ⟨3, 0, 0⟩, lastTf := some (mapToOdom ⟨5, 0, 0⟩ Pose2d.zero), pub := .check },
    mapToOdom ⟨5, 0, 0⟩ Pose2d.zero, demoOff_reach _ rfl, ?_, rfl, ?_, rfl, ?_, ?_⟩
  · have hv : Visits [0] 1 := by unfold Visits; simp
    have hl : (demoOff (demoParams 10 3)).scans.length = 1 := by simp [demoOff, demoOne, Sys.scans]
    unfold step demoPose
    rw [show (demoOff (demoParams 10 3)).spin = .idle from rfl]
    dsimp only
    rw [if_pos (by rw [hl]; exact hv)]
    simp [poseCallback, demoOff, demoParams]
  · unfold step
    rw [show ({ demoOff (demoParams 10 3) with prevRobot := ⟨5, 0, 0⟩, spin := .poseOdom ⟨3, 0, 0⟩ } : Sys).pub = .tf from rfl]
    dsimp only
    unfold pubTf
    rw [if_neg (by simp [demoOff, demoOne, Sys.scans])]
    rfl
  · intro h
    have := congrArg Iso.tx h
    simp [mapToOdom, Iso.mul, Iso.inverse, toEigen, Pose2d.zero, demoOff, demoOne] at this
  · intro h
    have := congrArg Iso.tx h
    simp [mapToOdom, Iso.mul, Iso.inverse, toEigen, Pose2d.zero] at this

/-- A case of the positive result: after the first scan, with the executor idle. -/
example : ¬ HalfStored (demoOff (demoParams 10 3)).spin ∧ (demoOff (demoParams 10 3)).pub = .tf ∧
    (demoOff (demoParams 10 3)).scans ≠ [] := ⟨id, rfl, by simp [demoOff, demoOne, Sys.scans]⟩

end

end Ndt
