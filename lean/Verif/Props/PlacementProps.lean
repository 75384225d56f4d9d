import Verif.Proof.DemoLoop
import Verif.Props.TransformProps

/-! # A transform is published once the robot has a place in the map (C109) -/

namespace Ndt

noncomputable section

open Spec Mapper

/-- Robot pose `r` and odometry pose `o` were arrived at together by a laser callback or came with an initial pose. -/
def HasPlace (p : Params) (A : Sys → Event → Prop) (s : Sys) (es : List Event) (r o : Pose2d) : Prop :=
  ∃ es1 es2 u, es = es1 ++ es2 ∧ Exec p A s es1 u ∧ (u.spin = .finish r o ∨
    (∃ a scan, u.spin = .announce a o ∧ (u.heap a.epoch)[a.idx]? = some scan ∧ scan.pose = r) ∨ u.spin = .poseRobot r o)

theorem placed_snoc {p : Params} {A : Sys → Event → Prop} {s : Sys} {es : List Event} {r o : Pose2d} (e : Event)
    (h : HasPlace p A s es r o) : HasPlace p A s (es ++ [e]) r o := by
  obtain ⟨es1, es2, u, rfl, h1, h2⟩ := h
  exact ⟨es1, es2 ++ [e], u, by simp, h1, h2⟩

/-- The transform that moves nothing. -/
def noMotion : Iso := ⟨1, 0, 0, 1, 0, 0⟩

theorem mapToOdom_zero : mapToOdom Pose2d.zero Pose2d.zero = noMotion := by
  unfold mapToOdom toEigen Iso.mul Iso.inverse noMotion Pose2d.zero
  simp

/-- A request to load a map. -/
def LoadsMap : Event → Prop
  | .configure action _ => action &&& 4#32 ≠ 0#32
  | _ => False

/-- The first scan is in the graph and the poses of the robot are not stored yet. -/
def FirstHalfway (t : Sys) : Prop := t.scans.length = 1 ∧ ∃ a o, t.spin = .announce a o

theorem hasPlace_inv {p : Params} {A : Sys → Event → Prop} {s t : Sys} {es : List Event} (h0 : s.spin = .idle)
    (hs : s.scans = []) (hA : ∀ t e, A t e → ¬ LoadsMap e) (h : Exec p A s es t) :
    (∀ o, t.spin = .poseOdom o → HasPlace p A s es t.prevRobot o) ∧
    (¬ HalfStored t.spin → t.scans = [] ∨ FirstHalfway t ∨ HasPlace p A s es t.prevRobot t.prevOdom) := by
  induction h with
  | nil => exact ⟨fun o ho => (by rw [h0] at ho; cases ho), fun _ => Or.inl hs⟩
  | @snoc es t t' e hx ha hst ih =>
    obtain ⟨ih1, ih2⟩ := ih
    have keep : ∀ t' : Sys, t'.spin = t.spin → t'.prevRobot = t.prevRobot → t'.prevOdom = t.prevOdom →
        t'.scans.length = t.scans.length →
        (∀ o, t'.spin = .poseOdom o → HasPlace p A s (es ++ [e]) t'.prevRobot o) ∧
        (¬ HalfStored t'.spin → t'.scans = [] ∨ FirstHalfway t' ∨ HasPlace p A s (es ++ [e]) t'.prevRobot t'.prevOdom) := by
      intro t' a b c d
      rw [a, b, c]
      refine ⟨fun o ho => placed_snoc e (ih1 o ho), fun hn => ?_⟩
      rcases ih2 hn with i | ⟨i1, i2⟩ | i
      · exact Or.inl (List.length_eq_zero_iff.mp (by rw [d, i]; rfl))
      · exact Or.inr (Or.inl ⟨by rw [d, i1], by rw [a]; exact i2⟩)
      · exact Or.inr (Or.inr (placed_snoc e i))
    have move : ∀ t' : Sys, ¬ HalfStored t.spin → (∀ a o, t.spin ≠ .announce a o) → ¬ HalfStored t'.spin →
        t'.prevRobot = t.prevRobot → t'.prevOdom = t.prevOdom → t'.scans = t.scans →
        (∀ o, t'.spin = .poseOdom o → HasPlace p A s (es ++ [e]) t'.prevRobot o) ∧
        (¬ HalfStored t'.spin → t'.scans = [] ∨ FirstHalfway t' ∨ HasPlace p A s (es ++ [e]) t'.prevRobot t'.prevOdom) := by
      intro t' a n a' b c d
      refine ⟨fun o ho => absurd (by rw [ho]; trivial) a', fun _ => ?_⟩
      rw [b, c, d]
      rcases ih2 a with i | ⟨-, x, o, i⟩ | i
      · exact Or.inl i
      · exact absurd i (n x o)
      · exact Or.inr (Or.inr (placed_snoc e i))
    cases step_trans hst with
    | stutter _ => exact keep _ rfl rfl rfl rfl
    | laserIgnored msg mount odom odomEnd hi =>
      obtain ⟨r, l, g, m, e, -⟩ := setup_cases p msg mount t
      rw [e]; exact keep _ rfl rfl rfl rfl
    | laserScan msg mount odom odomEnd points hi hgo hinit ht =>
      obtain ⟨r, l, g, m, e, -⟩ := setup_cases p msg mount t
      rw [e]
      refine move _ (by rw [hi]; exact id) (by rw [hi]; intro a o h; cases h) ?_ rfl rfl rfl
      simp only [branch]
      split_ifs <;> exact id
    | filtered mean scan odom hi =>
      exact move _ (by rw [hi]; exact id) (by rw [hi]; intro a o h; cases h) id rfl rfl rfl
    | addWindow scan odom w hi hl hw =>
      exact move _ (by rw [hi]; exact id) (by rw [hi]; intro a o h; cases h) id rfl rfl rfl
    | localMatched score correction cov scan back odom hi hb =>
      exact move _ (by rw [hi]; exact id) (by rw [hi]; intro a o h; cases h) id rfl rfl rfl
    | pushConstraint c scan odom hi =>
      exact move _ (by rw [hi]; exact id) (by rw [hi]; intro a o h; cases h) id rfl rfl rfl
    | pushScan scan odom hi =>
      refine ⟨fun o ho => (by cases ho), fun _ => ?_⟩
      rcases ih2 (by rw [hi]; exact id) with i | ⟨-, x, o, i⟩ | i
      · exact Or.inr (Or.inl ⟨by simp [Sys.scans] at i ⊢; rw [i], _, _, rfl⟩)
      · rw [hi] at i; cases i
      · exact Or.inr (Or.inr (placed_snoc _ i))
    | globalMatched correction scan odom hi =>
      exact move _ (by rw [hi]; exact id) (by rw [hi]; intro a o h; cases h) id rfl rfl rfl
    | finishScan robot odom hi =>
      exact ⟨fun o ho => (by cases ho), fun _ => Or.inr (Or.inr ⟨es, [_], t, rfl, hx, Or.inl hi⟩)⟩
    | announce a odom scan hi hs =>
      exact ⟨fun o ho => (by cases ho), fun _ => Or.inr (Or.inr ⟨es, [_], t, rfl, hx, Or.inr (Or.inl ⟨a, scan, hi, hs, rfl⟩)⟩)⟩
    | poseKept m odom visit hi he =>
      exact move _ (by rw [hi]; exact id) (by rw [hi]; intro a o h; cases h) id rfl rfl rfl
    | poseScan m odom visit near i rest hi he hn hf hnear hv hfind =>
      refine ⟨fun o ho => (by cases ho), fun _ => ?_⟩
      rcases ih2 (by rw [hi]; exact id) with j | ⟨-, x, o, j⟩ | j
      · rw [j] at hnear; cases hnear
      · rw [hi] at j; cases j
      · exact Or.inr (Or.inr (placed_snoc _ j))
    | setRobot robot odom hi =>
      refine ⟨fun o ho => ?_, fun hn => absurd trivial hn⟩
      simp only [Spin.poseOdom.injEq] at ho
      subst ho
      exact ⟨es, [_], t, rfl, hx, Or.inr (Or.inr hi)⟩
    | setOdom odom hi => exact ⟨fun o ho => (by cases ho), fun _ => Or.inr (Or.inr (placed_snoc _ (ih1 odom hi)))⟩
    | configureFlags action bag hi hl =>
      obtain ⟨en, ini, e, -⟩ := configureMapping_frame action t
      rw [e]; exact keep _ rfl rfl rfl rfl
    | load action bag g hi hl hg => exact absurd hl (hA _ _ ha)
    | loopReject score correction cov q cand hi hs =>
      obtain ⟨n, l, e⟩ := afterAttempt_frame q t
      rw [e]; exact keep _ rfl rfl rfl rfl
    | loopAccept score correction cov q cand scan candidate hi hf hs h1 h2 =>
      refine keep _ rfl rfl rfl ?_
      show ((setPoseAt t.heap q.scan _) t.epoch).length = (t.heap t.epoch).length
      unfold setPoseAt
      split_ifs <;> simp_all
    | loopPush q c hi =>
      obtain ⟨n, l, e⟩ := afterAttempt_frame q { t with constraints := t.constraints ++ [c], update := true }
      rw [e]; exact keep _ rfl rfl rfl rfl
    | loopOptimise ceres b solver scans hi ho =>
      refine keep _ rfl rfl rfl ?_
      show (if t.epoch = t.epoch then scans else _).length = _
      rw [if_pos rfl]
      exact (optimize_same ho).length
    | pubTf hi =>
      obtain ⟨x, e⟩ := pubTf_frame t
      rw [e]; exact keep _ rfl rfl rfl rfl
    | _ => exact keep _ rfl rfl rfl rfl

/-- **C109** (a new map) In every execution and schedule of a mapper that starts without a map and is not told to load one, a
transform that is published is that of a robot pose and an odometry pose that a laser callback arrived at together or that
came with an initial pose, if no initial pose is being stored and the first scan of the map is not being stored. Missing: maps
that are loaded (refuted below), and the two windows (refuted by `c109_first_scan` and `c70_torn_transform`). -/
theorem c109_robot_has_a_place_partial (p : Params) (A : Sys → Event → Prop) (enable : Bool) (s t t' : Sys) (es : List Event)
    (hs : Mapper.start p enable none = .ok s) (hA : ∀ t e, A t e → ¬ LoadsMap e) (h : Exec p A s es t) (hp : t.pub = .tf)
    (hn : t.scans ≠ []) (ho : ¬ HalfStored t.spin) (hf : ¬ FirstHalfway t) (hst : step p t .pubTf = .ok t') :
    ∃ r o, HasPlace p A s es r o ∧ t'.lastTf = some ((toEigen r).mul (toEigen o).inverse) := by
  have e : s = startWith p enable false (Graph.new p.useBarycenter) := by
    unfold Mapper.start at hs
    injection hs with hs
    exact hs.symm
  have h1 := (hasPlace_inv (by rw [e]; rfl) (by rw [e]; rfl) hA h).2 ho
  refine ⟨t.prevRobot, t.prevOdom, ?_, ?_⟩
  · rcases h1 with h1 | h1 | h1
    · exact absurd h1 hn
    · exact absurd h1 hf
    · exact h1
  · unfold step at hst
    rw [hp] at hst
    simp only at hst
    injection hst with hst
    rw [← hst, pubTf, if_neg hn]
    rfl

/-- **C109** (nothing to publish) Without a scan in the graph no transform is published. -/
theorem c109_nothing_without_scans (p : Params) (t t' : Sys) (hn : t.scans = []) (hst : step p t .pubTf = .ok t') :
    t'.lastTf = t.lastTf := by
  unfold step at hst
  cases hp : t.pub <;> rw [hp] at hst <;> simp only at hst <;> injection hst with hst <;> rw [← hst]
  rw [pubTf, if_pos hn]

/-- **C109** (whether the robot is localised is not asked) With any scan in the graph the transform is published, whether the
mapper waits for an initial pose or not. -/
theorem c109_not_asked (p : Params) (t : Sys) (hn : t.scans ≠ []) (hp : t.pub = .tf) (b : Bool) :
    ∃ t', step p { t with initialized := b } .pubTf = .ok t' ∧
      t'.lastTf = some ((toEigen t.prevRobot).mul (toEigen t.prevOdom).inverse) := by
  have hn' : ({ t with initialized := b } : Sys).scans ≠ [] := hn
  refine ⟨pubTf { t with initialized := b }, ?_, ?_⟩
  · unfold step
    rw [show ({ t with initialized := b } : Sys).pub = .tf from hp]
  · rw [pubTf, if_neg hn']
    rfl

/-- **C109** Refuted (a map loaded on request): a mapper that has seen neither a laser message nor an initial pose publishes a
transform right after it loads a map, while it waits for an initial pose. It is the identity: the odometry frame is said to
be the map frame. -/
theorem c109_after_loading (p : Params) : ∃ (s t : Sys), Mapper.start p true none = .ok s ∧
    run p s [.pubCheck, .configure 4#32 demoBag, .pubTf] = .ok t ∧ t.initialized = false ∧ t.laser = none ∧
    t.lastTf = some (noMotion) := by
  refine ⟨demoStart p true, pubTf { demoStart p true with
      pub := .tf, epoch := 1, heap := fun e => if e = 1 then (demoMap p.useBarycenter).scans else (demoStart p true).heap e,
      constraints := [demoLink], update := true, initialized := false }, rfl, ?_, ?_⟩
  · simp [run_cons, run, step, demoStart, startWith, configure, configureMapping, configureFile, demoBag_load, demoMap]
  · simp [pubTf, Sys.scans, demoMap, demoStart, startWith, mapToOdom_zero]

/-- **C109** Refuted (a map given at the start): in every execution and schedule of a mapper that starts with a map, as long as
no initial pose comes in, the transform that is published is the identity, whatever the odometry and wherever the robot is. -/
theorem c109_identity_until_placed (p : Params) (A : Sys → Event → Prop) (enable : Bool) (bag : List BagMsg) (s t : Sys)
    (es : List Event) (hs : Mapper.start p enable (some bag) = .ok s) (hA : ∀ t m o v, ¬ A t (.pose m o v))
    (h : Exec p A s es t) : t.lastTf = none ∨ t.lastTf = some (noMotion) := by
  have key : t.initialized = false ∧ t.spin = .idle ∧ t.prevRobot = Pose2d.zero ∧ t.prevOdom = Pose2d.zero ∧
      (t.lastTf = none ∨ t.lastTf = some (noMotion)) := by
    induction h with
    | nil =>
      rcases start_cases hs with ⟨h, -⟩ | ⟨bag', g, -, -, e⟩
      · cases h
      · rw [e]; exact ⟨rfl, rfl, rfl, rfl, Or.inl rfl⟩
    | @snoc es t t' e hx ha hst ih =>
      obtain ⟨i1, i2, i3, i4, i5⟩ := ih
      cases step_trans hst with
      | laserIgnored msg mount odom odomEnd hi =>
        obtain ⟨r, l, g, m, e, -⟩ := setup_cases p msg mount t
        rw [e]; exact ⟨i1, i2, i3, i4, i5⟩
      | laserScan msg mount odom odomEnd points hi hgo hinit ht => rw [i1] at hinit; cases hinit
      | filtered mean scan odom hi => rw [i2] at hi; cases hi
      | addWindow scan odom w hi hl hw => rw [i2] at hi; cases hi
      | localMatched score correction cov scan back odom hi hb => rw [i2] at hi; cases hi
      | pushConstraint c scan odom hi => rw [i2] at hi; cases hi
      | pushScan scan odom hi => rw [i2] at hi; cases hi
      | globalMatched correction scan odom hi => rw [i2] at hi; cases hi
      | finishScan robot odom hi => rw [i2] at hi; cases hi
      | announce a odom scan hi hs => rw [i2] at hi; cases hi
      | poseKept m odom visit hi he => exact absurd ha (hA _ _ _ _)
      | poseScan m odom visit near i rest hi he hn hf hnear hv hfind => exact absurd ha (hA _ _ _ _)
      | setRobot robot odom hi => rw [i2] at hi; cases hi
      | setOdom odom hi => rw [i2] at hi; cases hi
      | configureFlags action bag hi hl =>
        unfold configureMapping
        split_ifs
        · exact ⟨i1, i2, i3, i4, i5⟩
        · exact ⟨rfl, i2, i3, i4, i5⟩
        · exact ⟨i1, i2, i3, i4, i5⟩
      | load action bag g hi hl hg =>
        obtain ⟨en, ini, e, -⟩ := configureMapping_frame action t
        rw [e]; exact ⟨rfl, i2, i3, i4, i5⟩
      | loopReject score correction cov q cand hi hs =>
        obtain ⟨n, l, e⟩ := afterAttempt_frame q t
        rw [e]; exact ⟨i1, i2, i3, i4, i5⟩
      | loopPush q c hi =>
        obtain ⟨n, l, e⟩ := afterAttempt_frame q { t with constraints := t.constraints ++ [c], update := true }
        rw [e]; exact ⟨i1, i2, i3, i4, i5⟩
      | pubTf hi =>
        unfold pubTf
        split_ifs
        · exact ⟨i1, i2, i3, i4, i5⟩
        · exact ⟨i1, i2, i3, i4, Or.inr (by rw [i3, i4, mapToOdom_zero])⟩
      | _ => exact ⟨i1, i2, i3, i4, i5⟩
  exact key.2.2.2.2

/-- **C109** Refuted (another map): a load leaves the poses of the robot as they are in the map that is given up, and the next
transform is made of them although the mapper waits for an initial pose. -/
theorem c109_old_transform_in_new_map (p : Params) (s t : Sys) (action : BitVec 32) (bag : List BagMsg)
    (hi : s.spin = .idle) (hl : action &&& 4#32 ≠ 0#32) (h : step p s (.configure action bag) = .ok t) (hn : t.scans ≠ [])
    (hp : s.pub = .tf) : t.initialized = false ∧ ∃ t', step p t .pubTf = .ok t' ∧
      t'.lastTf = some ((toEigen s.prevRobot).mul (toEigen s.prevOdom).inverse) := by
  have key : t.initialized = false ∧ t.pub = .tf ∧ t.prevRobot = s.prevRobot ∧ t.prevOdom = s.prevOdom := by
    unfold step at h
    rw [hi] at h
    simp only at h
    unfold configure configureFile at h
    rw [if_pos hl] at h
    obtain ⟨g, -, h⟩ := bind_ok h
    obtain ⟨en, ini, e, -⟩ := configureMapping_frame action s
    rw [e] at h
    injection h with h
    rw [← h]
    exact ⟨rfl, hp, rfl, rfl⟩
  obtain ⟨k1, k2, k3, k4⟩ := key
  refine ⟨k1, ?_⟩
  obtain ⟨t', h1, h2⟩ := c109_not_asked p t hn k2 t.initialized
  exact ⟨t', h1, by rw [h2, k3, k4]⟩

/-- **C109** Refuted (a new map): the publishing thread looks at the graph without a lock. Between the first scan going into
the graph and the poses of the robot being stored it publishes the identity, whatever the odometry pose of that scan. -/
theorem c109_first_scan (p : Params) (hf : p.useFilter = false) (o : Pose2d) : ∃ s t : Sys,
    Mapper.start p true none = .ok s ∧ run p s [.pubCheck, demoLaser o, .pushScan, .pubTf] = .ok t ∧
    t.lastTf = some (noMotion) ∧ ∃ t', step p t .finishScan = .ok t' ∧
      t'.prevRobot = Pose2d.zero ∧ t'.prevOdom = o := by
  have h1 : step p (demoStart p true) .pubCheck = .ok { demoStart p true with pub := .tf } := by
    simp [step, demoStart, startWith]
  refine ⟨demoStart p true, pubTf { demoStart p true with
      pub := .tf, rangeMax := Laser.latchRangeMax (demoStart p true).rangeMax noBeams, laser := some (Pose2d.zero, false),
      globalM := some [], localM := some [], heap := fun e => if e = 0 then [blank 0 Pose2d.zero] else [],
      spin := .announce ⟨0, 0⟩ o }, rfl, ?_, ?_, ?_⟩
  · rw [run_cons, h1, Res.ok_bind, run_cons, step_demoLaser_first p _ _ rfl rfl rfl (Or.inl rfl), Res.ok_bind]
    simp [branch, hf, run_cons, step, run, demoStart, startWith, Sys.scans, Graph.new, firstPose]
  · simp [pubTf, Sys.scans, demoStart, startWith, mapToOdom_zero]
  · simp [pubTf, Sys.scans, demoStart, startWith, step, blank, Scan.getPose, Scan.setPose, Scan.setPoints]

/-- After the first scan is stored the transform is that of its two poses. -/
example (p : Params) (hf : p.useFilter = false) : ∃ s t t' : Sys, Mapper.start p true none = .ok s ∧
    Exec p (fun _ e => ¬ LoadsMap e) s [.pubCheck, demoLaser ⟨3, 0, 0⟩, .pushScan, .finishScan] t ∧ t.pub = .tf ∧
    t.scans ≠ [] ∧ ¬ HalfStored t.spin ∧ ¬ FirstHalfway t ∧ step p t .pubTf = .ok t' ∧
    t'.lastTf = some ⟨1, 0, 0, 1, -3, 0⟩ := by
  refine ⟨demoStart p true, demoOne p { demoStart p true with pub := .tf } ⟨3, 0, 0⟩,
    pubTf (demoOne p { demoStart p true with pub := .tf } ⟨3, 0, 0⟩), rfl, ?_, rfl, ?_, ?_, ?_, rfl, ?_⟩
  · refine (exec_iff_run p (fun e => ¬ LoadsMap e) _ _ _).mpr ⟨?_, ?_⟩
    · have h1 : step p (demoStart p true) .pubCheck = .ok { demoStart p true with pub := .tf } := by
        simp [step, demoStart, startWith]
      rw [run_cons, h1, Res.ok_bind, run_cons, step_demoLaser_first p _ _ rfl rfl rfl (Or.inl rfl), Res.ok_bind]
      simp [branch, hf, run_cons, step, run, demoOne, demoStart, startWith, Sys.scans, Graph.new, firstPose, blank,
        Scan.getPose, Scan.setPoints, Scan.setPose]
    · simp [LoadsMap, demoLaser]
  · simp [demoOne, Sys.scans]
  · exact id
  · rintro ⟨-, a, o, h⟩
    cases h
  · simp [pubTf, demoOne, Sys.scans, mapToOdom, toEigen, Iso.mul, Iso.inverse, Pose2d.zero]

end

end Ndt
