import Verif.Proof.Odometry
import Verif.Proof.DemoStanding
import Verif.Props.GraphStateProps
import Verif.Props.ConstraintProps

/-! # Robot pose, odometry and the newest scan (C77, C78) -/

namespace Ndt

noncomputable section

open Spec Mapper

/-! ## C78 Without corrections the map is the odometry moved rigidly -/

/-- The pose is where the transform puts the odometry pose. -/
def Placed (T : Iso) (odom robot : Pose2d) : Prop := toEigen robot = T.mul (toEigen odom)

/-- What holds at the places of the executor. -/
def AtPlace (T : Iso) (received used : List Pose2d) (scans : List Scan) (epoch : ℕ) (tf : Iso) : Spin → Prop
  | .idle => scans ≠ [] → tf = T
  | .window scan odom | .matching scan odom | .constraint _ scan odom | .append scan odom =>
      (scans ≠ [] → tf = T) ∧ Placed T odom scan.pose ∧ (used ++ [odom]).Sublist received ∧
        (scans = [] → scan.pose = Pose2d.zero)
  | .localise scan odom => scans ≠ [] → tf = T ∧ Placed T odom scan.pose
  | .finish robot odom => scans ≠ [] → tf = T ∧ Placed T odom robot
  | .announce a odom => a.epoch = epoch ∧ ∃ x, scans[a.idx]? = some x ∧ Placed T odom x.pose
  | .filter .. | .poseRobot .. | .poseOdom .. => False

/-- The odometry of the scans: a part of what was received, one pose for each scan of the graph. -/
structure Track (T : Iso) (received used : List Pose2d) (s : Sys) : Prop where
  quiet : LoopQuiet s.loop
  scans : List.Forall₂ (fun o (x : Scan) => Placed T o x.pose) used s.scans
  part : used.Sublist received
  first : ∀ x, s.scans.head? = some x → x.pose = Pose2d.zero
  many : 2 ≤ s.scans.length → mapToOdom s.prevRobot s.prevOdom = T
  place : AtPlace T received used s.scans s.epoch (mapToOdom s.prevRobot s.prevOdom) s.spin

/-- Nothing but odometry decides where scans go: no corrections, no loop closures, no given poses, no loaded map. -/
def OdometryOnly (s : Sys) (e : Event) : Prop :=
  FindsNothing s e ∧ CorrectsNothing e ∧ (∀ m odom visit, e ≠ .pose m odom visit) ∧ ¬ Loads e

theorem Track.view {T : Iso} {received used : List Pose2d} {s s' : Sys} (h : Track T received used s) (hv : SameView s s')
    (hq : LoopQuiet s'.loop) (more : List Pose2d) : Track T (received ++ more) used s' := by
  have hs := hv.scans
  obtain ⟨a, b, c, d, e, -, -⟩ := hv
  refine ⟨hq, by rw [hs]; exact h.scans, h.part.trans (List.sublist_append_left _ _), by rw [hs]; exact h.first,
    by rw [hs, d, e]; exact h.many, ?_⟩
  have hp := h.place
  rw [hs, b, c, d, e]
  revert hp
  cases s.spin with
  | window => exact fun h => ⟨h.1, h.2.1, h.2.2.1.trans (List.sublist_append_left _ _), h.2.2.2⟩
  | matching => exact fun h => ⟨h.1, h.2.1, h.2.2.1.trans (List.sublist_append_left _ _), h.2.2.2⟩
  | constraint => exact fun h => ⟨h.1, h.2.1, h.2.2.1.trans (List.sublist_append_left _ _), h.2.2.2⟩
  | append => exact fun h => ⟨h.1, h.2.1, h.2.2.1.trans (List.sublist_append_left _ _), h.2.2.2⟩
  | _ => exact id

theorem track_step {p : Params} (hf : p.useFilter = false) {T : Iso} {received used : List Pose2d} {s s' : Sys} {e : Event}
    (h : Track T received used s) (ha : OdometryOnly s e) (ht : Trans p s e s') :
    ∃ T' used', Track T' (received ++ odometry [e]) used' s' ∧ (s.scans ≠ [] ∨ s.spin ≠ .idle → T' = T) ∧ (s.scans ≠ [] → s'.scans ≠ []) := by
  obtain ⟨ha1, ha2, ha3, ha4⟩ := ha
  have hq := quiet_step h.quiet ha1 ht
  have viewed : SameView s s' → ∃ T' used', Track T' (received ++ odometry [e]) used' s' ∧ (s.scans ≠ [] ∨ s.spin ≠ .idle → T' = T) ∧
      (s.scans ≠ [] → s'.scans ≠ []) := fun hv =>
    ⟨T, used, h.view hv hq _, fun _ => rfl, fun hn => by rw [hv.scans]; exact hn⟩
  by_cases ho : IsLoopWork e ∨ IsPubWork e
  · exact viewed (others_step h.quiet ha1 ho ht)
  have hp := h.place
  cases ht with
  | stutter => exact viewed (.refl s)
  | laserIgnored msg mount odom odomEnd hi =>
    obtain ⟨r, l, g, m, e, -⟩ := setup_cases p msg mount s
    exact viewed (by rw [e]; exact ⟨rfl, rfl, rfl, rfl, rfl, rfl, rfl⟩)
  | laserScan msg mount odom odomEnd points hi hgo hinit ht =>
    obtain ⟨r, l, g, m, e, -⟩ := setup_cases p msg mount s
    rw [hi] at hp
    by_cases hs : s.scans = []
    · -- the first scan decides the transform
      have hu : used = [] := by
        have := h.scans; rw [hs] at this; exact List.forall₂_nil_right_iff.mp this
      refine ⟨mapToOdom Pose2d.zero odom, [], ?_, fun hn => hn.elim (absurd hs) (absurd hi), fun hn => absurd hs hn⟩
      rw [e] at hq ⊢
      refine ⟨hq, ?_, List.nil_sublist _, ?_, ?_, ?_⟩
      · show List.Forall₂ _ [] s.scans
        rw [hs]; exact .nil
      · intro x hx
        have : s.scans.head? = some x := hx
        rw [hs] at this; cases this
      · intro hx
        have : 2 ≤ s.scans.length := hx
        rw [hs] at this; simp at this
      · have hpl : Placed (mapToOdom Pose2d.zero odom) odom (firstPose s odom) := by
          unfold firstPose Placed; rw [if_pos hs, ← mapToOdom_iff]
        show AtPlace _ _ _ s.scans s.epoch (mapToOdom s.prevRobot s.prevOdom) (branch p s _ odom)
        rw [branch, if_neg (by simp [hf]), if_pos hs]
        split_ifs
        · refine ⟨fun hn => absurd hs hn, hpl, ?_, fun _ => ?_⟩
          · exact List.sublist_append_right _ _
          · show firstPose s odom = _
            unfold firstPose; rw [if_pos hs]
        · exact fun hn => absurd hs hn
    · have hT := hp hs
      refine ⟨T, used, ?_, fun _ => rfl, fun hn => by rw [e]; exact hn⟩
      rw [e] at hq ⊢
      refine ⟨hq, h.scans, h.part.trans (List.sublist_append_left _ _), h.first, h.many, ?_⟩
      have hpl : Placed T odom (firstPose s odom) := by
        unfold firstPose; rw [if_neg hs]; exact predict_rel hT odom
      show AtPlace _ _ _ s.scans s.epoch (mapToOdom s.prevRobot s.prevOdom) (branch p s _ odom)
      rw [branch, if_neg (by simp [hf]), if_neg hs]
      split_ifs
      · refine ⟨fun _ => hT, hpl, ?_, fun hn => absurd hn hs⟩
        exact h.part.append (List.Sublist.refl _)
      · exact fun _ => ⟨hT, hpl⟩
  | filtered mean scan odom hi => rw [hi] at hp; exact hp.elim
  | addWindow scan odom w hi hl hw =>
    rw [hi] at hp
    refine ⟨T, used, ⟨hq, h.scans, h.part.trans (List.sublist_append_left _ _), h.first, h.many, ?_⟩, fun _ => rfl, id⟩
    exact ⟨hp.1, hp.2.1, hp.2.2.1.trans (List.sublist_append_left _ _), hp.2.2.2⟩
  | localMatched score correction cov scan back odom hi hb =>
    rw [hi] at hp
    have hc : correction = Pose2d.zero := ha2
    subst hc
    refine ⟨T, used, ⟨hq, h.scans, h.part.trans (List.sublist_append_left _ _), h.first, h.many, ?_⟩, fun _ => rfl, id⟩
    refine ⟨hp.1, ?_, hp.2.2.1.trans (List.sublist_append_left _ _), ?_⟩
    · show Placed T odom (addCorrection Pose2d.zero scan.getPose)
      rw [addCorrection_zero]; exact hp.2.1
    · show s.scans = [] → addCorrection Pose2d.zero scan.getPose = _
      rw [addCorrection_zero]; exact hp.2.2.2
  | pushConstraint c scan odom hi =>
    rw [hi] at hp
    refine ⟨T, used, ⟨hq, h.scans, h.part.trans (List.sublist_append_left _ _), h.first, h.many, ?_⟩, fun _ => rfl, id⟩
    exact ⟨hp.1, hp.2.1, hp.2.2.1.trans (List.sublist_append_left _ _), hp.2.2.2⟩
  | pushScan scan odom hi =>
    rw [hi] at hp
    have hs' : ({ s with
        heap := fun e => if e = s.epoch then s.scans ++ [scan] else s.heap e,
        spin := .announce ⟨s.epoch, s.scans.length⟩ odom } : Sys).scans = s.scans ++ [scan] := by
      simp [Sys.scans]
    refine ⟨T, used ++ [odom], ⟨hq, ?_, ?_, ?_, ?_, ?_⟩, fun _ => rfl, fun _ => by rw [hs']; simp⟩
    · rw [hs']
      exact List.rel_append h.scans (.cons hp.2.1 .nil)
    · exact hp.2.2.1.trans (List.sublist_append_left _ _)
    · rw [hs']
      intro x hx
      by_cases hs : s.scans = []
      · rw [hs] at hx; cases hx; exact hp.2.2.2 hs
      · rw [List.head?_append_of_ne_nil _ hs] at hx; exact h.first x hx
    · rw [hs']
      intro hl
      apply hp.1
      intro hs
      rw [hs] at hl; simp at hl
    · refine ⟨rfl, scan, ?_, hp.2.1⟩
      rw [hs']; simp
  | globalMatched correction scan odom hi =>
    rw [hi] at hp
    have hc : correction = Pose2d.zero := ha2
    subst hc
    refine ⟨T, used, ⟨hq, h.scans, h.part.trans (List.sublist_append_left _ _), h.first, h.many, ?_⟩, fun _ => rfl, id⟩
    show s.scans ≠ [] → mapToOdom s.prevRobot s.prevOdom = T ∧ Placed T odom (addCorrection Pose2d.zero scan.getPose)
    rw [addCorrection_zero]; exact hp
  | finishScan robot odom hi =>
    rw [hi] at hp
    refine ⟨T, used, ⟨hq, h.scans, h.part.trans (List.sublist_append_left _ _), h.first, ?_, ?_⟩, fun _ => rfl, id⟩
    · intro hl
      have hl' : 2 ≤ s.scans.length := hl
      exact (mapToOdom_iff _ _ _).mpr (hp (by intro hs; rw [hs] at hl'; simp at hl')).2
    · intro hs
      exact (mapToOdom_iff _ _ _).mpr (hp hs).2
  | announce a odom scan hi hs =>
    rw [hi] at hp
    obtain ⟨he, x, hx, hpl⟩ := hp
    have : scan = x := by
      rw [he] at hs
      have := hs.symm.trans hx
      injection this
    subst this
    refine ⟨T, used, ⟨hq, h.scans, h.part.trans (List.sublist_append_left _ _), h.first, ?_, ?_⟩, fun _ => rfl, id⟩
    · exact fun _ => (mapToOdom_iff _ _ _).mpr hpl
    · exact fun _ => (mapToOdom_iff _ _ _).mpr hpl
  | poseKept m odom visit hi he => exact absurd rfl (ha3 _ _ _)
  | poseScan m odom visit near i rest hi he hn hf hnear hv hfind => exact absurd rfl (ha3 _ _ _)
  | setRobot robot odom hi => rw [hi] at hp; exact hp.elim
  | setOdom odom hi => rw [hi] at hp; exact hp.elim
  | configureFlags action bag hi hl =>
    obtain ⟨en, ini, e, -⟩ := configureMapping_frame action s
    rw [hi] at hp
    rw [e] at hq ⊢
    refine ⟨T, used, ⟨hq, h.scans, h.part.trans (List.sublist_append_left _ _), h.first, h.many, ?_⟩, fun _ => rfl, id⟩
    show AtPlace _ _ _ s.scans s.epoch (mapToOdom s.prevRobot s.prevOdom) s.spin
    rw [hi]; exact hp
  | load action bag g hi hl hg => exact absurd ⟨action, bag, rfl, hl⟩ ha4
  | _ => exact absurd (by simp [IsLoopWork, IsPubWork]) ho

theorem track_exec {p : Params} (hf : p.useFilter = false) {s t : Sys} {es : List Event} (h : Exec p OdometryOnly s es t)
    {T : Iso} {received used : List Pose2d} (h0 : Track T received used s) :
    ∃ T' used', Track T' (received ++ odometry es) used' t ∧ (s.scans ≠ [] → T' = T ∧ t.scans ≠ []) := by
  induction h with
  | nil => exact ⟨T, used, by simpa [odometry] using h0, fun hs => ⟨rfl, hs⟩⟩
  | @snoc es u u' e _ ha hst ih =>
    obtain ⟨T1, used1, h1, k1⟩ := ih
    obtain ⟨T2, used2, h2, k2, k3⟩ := track_step hf h1 ha (step_trans hst)
    refine ⟨T2, used2, ?_, fun hs => ⟨?_, k3 (k1 hs).2⟩⟩
    · have : odometry (es ++ [e]) = odometry es ++ odometry [e] := by simp [odometry, List.filterMap_append]
      rw [this, ← List.append_assoc]; exact h2
    · rw [k2 (Or.inl (k1 hs).2), (k1 hs).1]

theorem track_start {p : Params} {enable : Bool} {s : Sys} (hs : Mapper.start p enable none = .ok s) :
    ∃ T, Track T [] [] s := by
  rcases start_cases hs with ⟨-, e⟩ | ⟨bag, g, h, -⟩
  · refine ⟨mapToOdom Pose2d.zero Pose2d.zero, ?_⟩
    rw [e]
    refine ⟨trivial, ?_, List.Sublist.refl _, ?_, ?_, ?_⟩
    · simp [startWith, Sys.scans, Graph.new]
    · simp [startWith, Sys.scans, Graph.new]
    · simp [startWith, Sys.scans, Graph.new]
    · exact fun _ => rfl
  · cases h

theorem placed_move {T : Iso} {o r : Pose2d} (h : Placed T o r) (q : Point) : T.apply (move o q) = move r q := by
  unfold Placed at h
  have e1 := congrArg Iso.r00 h
  have e2 := congrArg Iso.r01 h
  have e3 := congrArg Iso.r10 h
  have e4 := congrArg Iso.r11 h
  have e5 := congrArg Iso.tx h
  have e6 := congrArg Iso.ty h
  simp only [toEigen, Iso.mul] at e1 e2 e3 e4 e5 e6
  unfold Iso.apply move
  ext
  · simp only; linear_combination -q.x * e1 - q.y * e2 - e5
  · simp only; linear_combination -q.x * e3 - q.y * e4 - e6

/-- **C78** A mapper that starts without a map, and whose scans are placed by odometry alone: there is one rigid transform
that takes the odometry pose of every scan to its pose in the map, namely the one that takes the odometry pose of the
first scan to the origin. The odometry poses are among those received, in the same order. -/
theorem c78_map_is_moved_odometry (p : Params) (hf : p.useFilter = false) (enable : Bool) (s t : Sys) (es : List Event)
    (hs : Mapper.start p enable none = .ok s) (h : Exec p OdometryOnly s es t) :
    ∃ (T : Iso) (os : List Pose2d), os.Sublist (odometry es) ∧
      List.Forall₂ (fun o (x : Scan) => ∀ q, T.apply (move o q) = move x.pose q) os t.scans ∧
      ∀ o, os.head? = some o → T = (toEigen o).inverse := by
  obtain ⟨T0, h0⟩ := track_start hs
  obtain ⟨T, os, h1, -⟩ := track_exec hf h h0
  refine ⟨T, os, by simpa using h1.part, h1.scans.imp fun _ _ hp => placed_move hp, ?_⟩
  intro o ho
  have hsc := h1.scans
  have hfi := h1.first
  cases os with
  | nil => cases ho
  | cons o' os =>
    cases ho
    cases hx : t.scans with
    | nil => rw [hx] at hsc; cases hsc
    | cons x xs =>
      rw [hx] at hsc hfi
      cases hsc with
      | cons hp _ =>
        have := hfi x rfl
        rw [this] at hp
        have := (mapToOdom_iff _ _ _).mpr hp
        rw [← this]
        unfold mapToOdom Iso.mul toEigen Iso.inverse
        simp [Pose2d.zero]

/-- **C78** The transform from map to odometry does not change any more once the callback of the first scan has ended:
whatever is published after is that transform, also while the executor is in the middle of a callback. -/
theorem c78_transform_never_changes (p : Params) (hf : p.useFilter = false) (enable : Bool) (s0 s t t' : Sys)
    (es1 es2 : List Event) (hs : Mapper.start p enable none = .ok s0) (h1 : Exec p OdometryOnly s0 es1 s)
    (hi : s.spin = .idle) (hne : s.scans ≠ []) (h2 : Exec p OdometryOnly s es2 t) (hp : t.pub = .tf)
    (hst : step p t .pubTf = .ok t') : t'.lastTf = some (mapToOdom s.prevRobot s.prevOdom) := by
  obtain ⟨T0, h0⟩ := track_start hs
  obtain ⟨T, os, k1, -⟩ := track_exec hf h1 h0
  have hT : mapToOdom s.prevRobot s.prevOdom = T := by
    have := k1.place
    rw [hi] at this
    exact this hne
  -- one scan in the graph when the callback has ended
  suffices H : t.scans ≠ [] ∧ mapToOdom t.prevRobot t.prevOdom = T by
    unfold step at hst
    rw [hp] at hst
    simp only at hst
    injection hst with hst
    rw [← hst, pubTf, if_neg H.1, hT, H.2]
  obtain ⟨T', os', k2, k3⟩ := track_exec hf h2 k1
  obtain ⟨rfl, hne'⟩ := k3 hne
  refine ⟨hne', ?_⟩
  have : ∀ {es : List Event} {t : Sys}, Exec p OdometryOnly s es t →
      mapToOdom t.prevRobot t.prevOdom = T' := by
    intro es t h
    induction h with
    | nil => exact hT
    | @snoc es u u' e hx ha hst ih =>
      obtain ⟨Tu, osu, ku, kv⟩ := track_exec hf hx k1
      obtain ⟨rfl, hu⟩ := kv hne
      have hq := ku.quiet
      by_cases ho : IsLoopWork e ∨ IsPubWork e
      · have hv := others_step hq ha.1 ho (step_trans hst)
        obtain ⟨-, -, -, d, e, -, -⟩ := hv
        rw [d, e]; exact ih
      have hpl := ku.place
      cases step_trans hst with
      | stutter => exact ih
      | laserIgnored msg mount odom odomEnd hi =>
        obtain ⟨r, l, g, m, e, -⟩ := setup_cases p msg mount u
        rw [e]; exact ih
      | laserScan msg mount odom odomEnd points hi hgo hinit ht =>
        obtain ⟨r, l, g, m, e, -⟩ := setup_cases p msg mount u
        rw [e]; exact ih
      | finishScan robot odom hi =>
        rw [hi] at hpl
        exact (mapToOdom_iff _ _ _).mpr (hpl hu).2
      | announce a odom scan hi hs =>
        rw [hi] at hpl
        obtain ⟨he, x, hx, hpl⟩ := hpl
        rw [he] at hs
        have : scan = x := by
          have := hs.symm.trans hx
          injection this
        subst this
        exact (mapToOdom_iff _ _ _).mpr hpl
      | setRobot robot odom hi => rw [hi] at hpl; exact hpl.elim
      | setOdom odom hi => rw [hi] at hpl; exact hpl.elim
      | poseKept m odom visit hi he => exact absurd rfl (ha.2.2.1 _ _ _)
      | poseScan m odom visit near i rest hi he hn hf hnear hv hfind => exact absurd rfl (ha.2.2.1 _ _ _)
      | configureFlags action bag hi hl =>
        obtain ⟨en, ini, e, -⟩ := configureMapping_frame action u
        rw [e]; exact ih
      | load action bag g hi hl hg => exact absurd ⟨action, bag, rfl, hl⟩ ha.2.2.2
      | filtered => exact ih
      | addWindow => exact ih
      | localMatched => exact ih
      | pushConstraint => exact ih
      | pushScan => exact ih
      | globalMatched => exact ih
      | _ => exact absurd (by simp [IsLoopWork, IsPubWork]) ho
  exact this h2

/-- A case: two scans a metre apart, the odometry starting at (3, 4) and turned by a radian. -/
example : ∃ s, Exec (demoParams 10 3) OdometryOnly (demoStart (demoParams 10 3) true)
    ([demoLaser ⟨3, 4, 1⟩, .pushScan, .finishScan] ++ ([demoLaser ⟨4, 4, 1⟩, .addWindow,
      .localMatched (.fin (-0.6)) Pose2d.zero fun _ _ => .fin 0, .pushConstraint] ++ [.pushScan, .finishScan])) s ∧
    s.scans.length = 2 := by
  obtain ⟨s, h, hl, -⟩ := demoTwo_ok ⟨3, 4, 1⟩ (.fin (-0.6)) Pose2d.zero fun _ _ => .fin 0
  have e : (⟨3 + 1, 4, 1⟩ : Pose2d) = ⟨4, 4, 1⟩ := by norm_num
  unfold demoTwo at h
  simp only [e] at h
  refine ⟨s, Exec.mono (A := fun _ e => (∀ a b c, e ≠ .loopMatched a b c) ∧ CorrectsNothing e ∧
    (∀ m odom visit, e ≠ .pose m odom visit) ∧ ¬ Loads e) ?_ ((exec_iff_run _ _ _ _ _).mpr ⟨h, ?_⟩), hl⟩
  · rintro s e ⟨h1, h2⟩
    exact ⟨fun a b c he => absurd he (h1 a b c), h2⟩
  · simp [demoLaser, CorrectsNothing, Loads]

/-! ## C77 The constraint between consecutive scans is the motion between them -/

/-- The robot pose is that of the newest scan, at all places of the executor while mapping. -/
structure AtNewest (s : Sys) : Prop where
  quiet : LoopQuiet s.loop
  enable : s.enable = true
  init : s.initialized = true
  place : match s.spin with
    | .idle | .window .. | .matching .. | .constraint .. | .append .. =>
        ∀ x, s.scans.getLast? = some x → x.pose = s.prevRobot
    | .announce a _ => a.epoch = s.epoch ∧ a.idx + 1 = s.scans.length
    | _ => False

/-- The node keeps mapping, and its loop closure thread finds nothing. -/
def OnlyMapping (s : Sys) (e : Event) : Prop := FindsNothing s e ∧ ∀ action bag, e ≠ .configure action bag

theorem atNewest_step {p : Params} (hf : p.useFilter = false) {s s' : Sys} {e : Event} (h : AtNewest s) (ha : OnlyMapping s e)
    (ht : Trans p s e s') : AtNewest s' := by
  have hq := quiet_step h.quiet ha.1 ht
  by_cases ho : IsLoopWork e ∨ IsPubWork e
  · have hv := others_step h.quiet ha.1 ho ht
    have hsc := hv.scans
    obtain ⟨-, b, c, d, e, f, g⟩ := hv
    refine ⟨hq, by rw [f]; exact h.enable, by rw [g]; exact h.init, ?_⟩
    rw [hsc, b, c, e]
    exact h.place
  have hp := h.place
  cases ht with
  | stutter => exact h
  | laserIgnored msg mount odom odomEnd hi =>
    obtain ⟨r, l, g, m, e, -⟩ := setup_cases p msg mount s
    rw [e] at hq ⊢; exact ⟨hq, h.enable, h.init, h.place⟩
  | laserScan msg mount odom odomEnd points hi hgo hinit ht =>
    obtain ⟨r, l, g, m, e, -⟩ := setup_cases p msg mount s
    rw [e] at hq ⊢
    rw [hi] at hp
    refine ⟨hq, h.enable, h.init, ?_⟩
    dsimp only
    rw [branch, if_neg (by simp [hf]), if_pos h.enable]
    split_ifs
    · exact hp
    · exact hp
  | filtered mean scan odom hi => rw [hi] at hp; exact hp.elim
  | addWindow scan odom w hi hl hw => rw [hi] at hp; exact ⟨hq, h.enable, h.init, hp⟩
  | localMatched score correction cov scan back odom hi hb => rw [hi] at hp; exact ⟨hq, h.enable, h.init, hp⟩
  | pushConstraint c scan odom hi => rw [hi] at hp; exact ⟨hq, h.enable, h.init, hp⟩
  | pushScan scan odom hi => exact ⟨hq, h.enable, h.init, rfl, by simp [Sys.scans]⟩
  | globalMatched correction scan odom hi => rw [hi] at hp; exact hp.elim
  | finishScan robot odom hi => rw [hi] at hp; exact hp.elim
  | announce a odom scan hi hs =>
    rw [hi] at hp
    refine ⟨hq, h.enable, h.init, fun x hx => ?_⟩
    obtain ⟨h1, h2⟩ := hp
    have hx' : s.scans.getLast? = some x := hx
    rw [List.getLast?_eq_getElem?, ← h2, Nat.add_sub_cancel] at hx'
    rw [h1] at hs
    have := hs.symm.trans hx'
    injection this with this
    rw [← this]; rfl
  | poseKept m odom visit hi he =>
    rcases he with he | he
    · rw [h.enable] at he; cases he
    · rw [hf] at he; cases he
  | poseScan m odom visit near i rest hi he hn hf hnear hv hfind => rw [h.init] at hn; cases hn
  | setRobot robot odom hi => rw [hi] at hp; exact hp.elim
  | setOdom odom hi => rw [hi] at hp; exact hp.elim
  | configureFlags action bag hi hl => exact absurd rfl (ha.2 action bag)
  | load action bag g hi hl hg => exact absurd rfl (ha.2 action bag)
  | _ => exact absurd (by simp [IsLoopWork, IsPubWork]) ho

/-- **C77** (until a loop closure is found) A mapper that starts without a map and keeps mapping: whenever the executor is
idle, the pose from which the next scan is predicted is that of the newest scan. Missing: after a loop closure, see
below. -/
theorem c77_robot_is_at_newest_scan_partial (p : Params) (hf : p.useFilter = false) (s t : Sys) (es : List Event)
    (hs : Mapper.start p true none = .ok s) (h : Exec p OnlyMapping s es t) (hi : t.spin = .idle) (x : Scan)
    (hx : t.scans.getLast? = some x) : x.pose = t.prevRobot := by
  have h0 : AtNewest s := by
    rcases start_cases hs with ⟨-, e⟩ | ⟨bag, g, h, -⟩
    · rw [e]
      exact ⟨trivial, rfl, rfl, by simp [startWith, Sys.scans, Graph.new]⟩
    · cases h
  have := (Exec.inv (I := AtNewest) (fun _ _ _ hI ha ht => atNewest_step hf hI ha ht) h h0).place
  rw [hi] at this
  exact this x hx

theorem samePose_cancel {b r c m : Pose2d} (h : SamePose (compose b c) (compose r m)) :
    SamePose c m ↔ SamePose b r := by
  obtain ⟨hx, hy, n, hn⟩ := h
  simp only [compose] at hx hy hn
  constructor
  · rintro ⟨cx, cy, k, hk⟩
    have hb : b.theta = r.theta + (n - k : ℤ) * (2 * Real.pi) := by push_cast; linarith
    have e1 : Real.cos b.theta = Real.cos r.theta := by rw [hb, Real.cos_add_int_mul_two_pi]
    have e2 : Real.sin b.theta = Real.sin r.theta := by rw [hb, Real.sin_add_int_mul_two_pi]
    rw [e1, e2, cx, cy] at hx hy
    exact ⟨by linarith, by linarith, n - k, hb⟩
  · rintro ⟨bx, byy, k, hb⟩
    have e1 : Real.cos b.theta = Real.cos r.theta := by rw [hb, Real.cos_add_int_mul_two_pi]
    have e2 : Real.sin b.theta = Real.sin r.theta := by rw [hb, Real.sin_add_int_mul_two_pi]
    have h1 := Real.sin_sq_add_cos_sq r.theta
    rw [e1, e2, bx] at hx
    rw [e1, e2, byy] at hy
    have hx' : Real.cos r.theta * (c.x - m.x) - Real.sin r.theta * (c.y - m.y) = 0 := by linarith
    have hy' : Real.sin r.theta * (c.x - m.x) + Real.cos r.theta * (c.y - m.y) = 0 := by linarith
    refine ⟨?_, ?_, n - k, by push_cast; linarith⟩
    · linear_combination Real.cos r.theta * hx' + Real.sin r.theta * hy' - (c.x - m.x) * h1
    · linear_combination -Real.sin r.theta * hx' + Real.cos r.theta * hy' - (c.y - m.y) * h1

/-- **C77** What the constraint of a new scan says, when the matcher corrects nothing: it is the motion that the odometry
reports exactly if the robot pose is that of the newest scan. -/
theorem c77_constraint_is_motion_iff (p : Params) (s s1 s2 s3 : Sys) (msg : LaserMsg) (mount : Option (Pose2d × Bool))
    (o oe motion : Pose2d) (score : Fl) (cov : Mat3) (back : Scan) (hs : s.scans.getLast? = some back)
    (hf : p.useFilter = false) (he : s.enable = true) (hi : s.spin = .idle)
    (h1 : step p s (.laser msg mount (some o) (some oe)) = .ok s1) (hw : s1.spin ≠ .idle)
    (h2 : step p s1 .addWindow = .ok s2) (h3 : step p s2 (.localMatched score Pose2d.zero cov) = .ok s3)
    (hm : compose s.prevOdom motion = o) :
    ∃ c scan, s3.spin = .constraint c scan o ∧ c.begin_ = back.id ∧
      (SamePose c.transform motion ↔ SamePose back.pose s.prevRobot) := by
  have hne : s.scans ≠ [] := by intro h; rw [h] at hs; cases hs
  obtain ⟨r, l, g, m, e, -⟩ := setup_cases p msg mount s
  have key : ∃ scan, s1.spin = .window scan o ∧ scan.pose = predict s.prevOdom s.prevRobot o ∧ s1.scans = s.scans := by
    cases step_trans h1 with
    | stutter => exact absurd hi hw
    | laserIgnored _ _ _ _ hi' => rw [e] at hw; exact absurd hi hw
    | laserScan _ _ odom odomEnd points hi' hgo hinit ht =>
      refine ⟨((Scan.new s.scans.length).setPose (firstPose s o)).setPoints points, ?_, ?_, ?_⟩
      · show branch p s _ o = _
        unfold branch; simp [hf, he, hne]
      · show firstPose s o = _
        unfold firstPose; rw [if_neg hne]
      · rw [e]; rfl
  obtain ⟨scan, k1, k2, k3⟩ := key
  have key2 : s2.spin = .matching scan o ∧ s2.scans = s.scans := by
    unfold step at h2
    rw [k1] at h2
    simp only [addWindow] at h2
    split at h2
    · cases h2
    split at h2
    · injection h2 with h2; rw [← h2]; exact ⟨rfl, k3⟩
    split at h2
    · cases h2
    · injection h2 with h2; rw [← h2]; exact ⟨rfl, k3⟩
  obtain ⟨k4, k5⟩ := key2
  unfold step at h3
  rw [k4] at h3
  simp only [localMatched] at h3
  rw [k5, hs] at h3
  simp only at h3
  injection h3 with h3
  refine ⟨_, _, by rw [← h3], rfl, ?_⟩
  apply samePose_cancel
  have e1 := (c31_constraint_reproduces_relative_pose back (scan.setPose (addCorrection Pose2d.zero scan.getPose)) cov).2.2.2
  rw [e1]
  show SamePose (addCorrection Pose2d.zero scan.pose) _
  rw [addCorrection_zero, k2]
  exact c52_prediction_is_composition s.prevOdom s.prevRobot o motion hm

/-- **C77** A loop closure of the newest scan moves that scan, but not the robot pose. -/
theorem c77_loop_closure_leaves_robot_behind (p : Params) (s s' : Sys) (score : Fl) (correction : Pose2d) (cov : Mat3)
    (q : Search) (cand : Ptr) (x : Scan) (hl : s.loop = .matching q cand) (hq : q.scan = ⟨s.epoch, s.scans.length - 1⟩)
    (hx : s.scans.getLast? = some x) (hf : score.isFinite) (hs : score < s.typical)
    (h : step p s (.loopMatched score correction cov) = .ok s') :
    s'.prevRobot = s.prevRobot ∧ ∃ x', s'.scans.getLast? = some x' ∧ x'.pose = addCorrection correction x.pose := by
  unfold step at h
  rw [hl] at h
  simp only [loopMatched] at h
  rw [if_pos ⟨hf, hs⟩, hq] at h
  simp only at h
  have hx' : (s.heap s.epoch)[s.scans.length - 1]? = some x := by
    rw [List.getLast?_eq_getElem?] at hx; exact hx
  rw [hx'] at h
  split at h
  · rename_i scan candidate e1 e2
    injection e1 with e1
    subst e1
    injection h with h
    rw [← h]
    refine ⟨rfl, x.setPose (addCorrection correction x.pose), ?_, rfl⟩
    rw [List.getLast?_eq_getElem?]
    simp only [Sys.scans, setPoseAt]
    rw [if_pos trivial, List.length_modify, List.getElem?_modify]
    have hx2 : (s.heap s.epoch)[(s.heap s.epoch).length - 1]? = some x := hx'
    rw [hx2]
    simp [Scan.getPose]
  · cases h

/-- **C77** Refuted: the node starts without a map, adds twelve scans, and then finds a loop closure for the newest. The
scan moves by a metre, the robot pose does not, and the next constraint is not the motion between the scans. -/
theorem c77_robot_left_behind : ∃ (p : Params) (s s' : Sys) (score : Fl) (correction : Pose2d) (cov : Mat3) (x x' : Scan),
    Reach p (fun _ => True) (fun _ e => ∀ action bag, e ≠ .configure action bag) s ∧ s.spin = .idle ∧ s.enable = true ∧
    s.initialized = true ∧ s.scans.getLast? = some x ∧ x.pose = s.prevRobot ∧
    step p s (.loopMatched score correction cov) = .ok s' ∧ s'.spin = .idle ∧ s'.scans.getLast? = some x' ∧
    ¬ SamePose x'.pose s'.prevRobot := by
  obtain ⟨s, es, h1, h2, h3⟩ := standing_many 11
  have hrun : run standParams (demoStart standParams true)
      (es ++ [.loopWake, .loopCount, .loopPick [0], .loopCandidate]) = .ok (standMatching s) := by
    rw [run_append, h1, Res.ok_bind, run_standMatching h2]
  have hlen := h2.len
  have hlast := h2.robot
  cases hx : s.scans.getLast? with
  | none => rw [hx] at hlast; cases hlast
  | some x =>
    rw [hx] at hlast
    simp at hlast
    have hst : ∃ s', step standParams (standMatching s) (.loopMatched (.fin (-1)) ⟨1, 0, 0⟩ fun _ _ => .fin 0) = .ok s' ∧
        s'.spin = (standMatching s).spin := by
      unfold step
      rw [show (standMatching s).loop = .matching ⟨⟨12, false⟩, 1, ⟨0, 11⟩, [], 3⟩ ⟨0, 0⟩ from rfl]
      simp only [loopMatched]
      rw [if_pos]
      · have e1 : ∃ a, (s.heap 0)[11]? = some a := by
          have := h2.len; unfold Sys.scans at this; rw [h2.epoch] at this
          exact ⟨_, List.getElem?_eq_getElem (by omega)⟩
        have e2 : ∃ a, (s.heap 0)[0]? = some a := by
          have := h2.len; unfold Sys.scans at this; rw [h2.epoch] at this
          exact ⟨_, List.getElem?_eq_getElem (by omega)⟩
        obtain ⟨a, ha⟩ := e1
        obtain ⟨b, hb⟩ := e2
        rw [show (standMatching s).heap = s.heap from rfl, ha, hb]
        exact ⟨_, rfl, rfl⟩
      · refine ⟨trivial, ?_⟩
        rw [show (standMatching s).typical = s.typical from rfl, h2.typical]
        simp; norm_num
    obtain ⟨s', hs', hsp⟩ := hst
    have hq : (⟨0, 11⟩ : Ptr) = ⟨(standMatching s).epoch, (standMatching s).scans.length - 1⟩ := by
      show (⟨0, 11⟩ : Ptr) = ⟨s.epoch, s.scans.length - 1⟩
      rw [h2.epoch, hlen]
    obtain ⟨k1, x', k2, k3⟩ := c77_loop_closure_leaves_robot_behind standParams (standMatching s) s' (.fin (-1)) ⟨1, 0, 0⟩ _ _ _ x
      rfl hq hx trivial (by rw [show (standMatching s).typical = s.typical from rfl, h2.typical]; simp; norm_num) hs'
    refine ⟨standParams, standMatching s, s', .fin (-1), ⟨1, 0, 0⟩, _, x, x', ?_, h2.spin, h2.enable, h2.init, hx, hlast, hs', ?_,
      k2, ?_⟩
    · refine ⟨true, none, demoStart standParams true,
        es ++ [.loopWake, .loopCount, .loopPick [0], .loopCandidate], rfl, by simp, ?_⟩
      refine Exec.mono (A := fun _ e => ∀ action bag, e ≠ .configure action bag)
        (fun s e he => ⟨he, fun a b h => absurd h (he a b)⟩) ((exec_iff_run _ _ _ _ _).mpr ⟨hrun, ?_⟩)
      intro e he
      rcases List.mem_append.mp he with he | he
      · exact (h3 e he).1
      · simp only [List.mem_cons, List.not_mem_nil, or_false] at he
        rcases he with rfl | rfl | rfl | rfl <;> simp
    · rw [hsp]; exact h2.spin
    · rintro ⟨hx1, -, -⟩
      rw [k3, k1, show (standMatching s).prevRobot = s.prevRobot from rfl, ← hlast] at hx1
      simp [addCorrection] at hx1

/-- A case of the positive result: twelve scans, the executor idle. -/
example : ∃ s es x, Exec standParams OnlyMapping (demoStart standParams true) es s ∧ s.spin = .idle ∧ s.scans.length = 12 ∧
    s.scans.getLast? = some x ∧ x.pose = s.prevRobot := by
  obtain ⟨s, es, h1, h2, h3⟩ := standing_many 11
  have hx : Exec standParams OnlyMapping (demoStart standParams true) es s := by
    refine Exec.mono (A := fun _ e => (∀ action bag, e ≠ .configure action bag) ∧ ¬ IsLoopWork e) ?_
      ((exec_iff_run _ _ _ _ _).mpr ⟨h1, h3⟩)
    rintro s e ⟨k1, k2⟩
    exact ⟨fun a b c he => absurd (by rw [he]; trivial) k2, k1⟩
  cases hl : s.scans.getLast? with
  | none => have := h2.robot; rw [hl] at this; cases this
  | some x =>
    exact ⟨s, es, x, hx, h2.spin, h2.len, hl, c77_robot_is_at_newest_scan_partial _ rfl _ _ _ rfl hx h2.spin x hl⟩

end

end Ndt
