import Verif.Proof.Demo
import Verif.Props.LaserProps

/-! # Each laser message is read with the mounting of its own laser (C110) -/

namespace Ndt

noncomputable section

open Spec Mapper

/-- The scan a laser callback has just made of a message. -/
def ScanMade : Spin → Option Scan
  | .filter scan _ => some scan
  | .window scan _ => some scan
  | .append scan _ => some scan
  | .localise scan _ => some scan
  | _ => none

/-- Where the beams of a message within the limit ended, seen from the robot, for an upright laser mounted at `m`. -/
def beamEnds (m : Pose2d) (limit : ℝ) (msg : LaserMsg) : List Point :=
  (validBeams limit msg.ranges).map fun q => move m (polar (msg.angleMin + q.1 * msg.angleIncrement) q.2)

/-- Every laser message is of a laser mounted at `m`, as far as its mounting is known. -/
def OneLaser (m : Pose2d × Bool) (e : Event) : Prop :=
  match e with
  | .laser _ mount _ _ => mount = none ∨ mount = some m
  | _ => True

theorem one_laser {p : Params} {s t : Sys} {es : List Event} {A : Sys → Event → Prop} (m : Pose2d × Bool)
    (hA : ∀ t e, A t e → OneLaser m e) (h : Exec p A s es t) (h0 : s.laser = none) :
    t.laser = none ∨ t.laser = some m := by
  induction h with
  | nil => exact Or.inl h0
  | @snoc es t t' e hx ha hst ih =>
    have setup : ∀ msg mount, mount = none ∨ mount = some m → (laserSetup p msg mount t).1.laser = none ∨
        (laserSetup p msg mount t).1.laser = some m := by
      intro msg mount hm
      unfold laserSetup
      rcases ih with i | i
      · rw [i]
        rcases hm with hm | hm <;> rw [hm]
        · left; simp [i]
        · right; rfl
      · rw [i]
        right; simp [i]
    cases step_trans hst with
    | laserIgnored msg mount odom odomEnd hi => exact setup msg mount (hA _ _ ha)
    | laserScan msg mount odom odomEnd points hi hgo hinit ht => exact setup msg mount (hA _ _ ha)
    | configureFlags action bag hi hl =>
      obtain ⟨en, ini, e, -⟩ := configureMapping_frame action t
      rw [e]; exact ih
    | load action bag g hi hl hg =>
      obtain ⟨en, ini, e, -⟩ := configureMapping_frame action t
      rw [e]; exact ih
    | loopReject score correction cov q cand hi hs =>
      obtain ⟨n, l, e⟩ := afterAttempt_frame q t
      rw [e]; exact ih
    | loopPush q c hi =>
      obtain ⟨n, l, e⟩ := afterAttempt_frame q { t with constraints := t.constraints ++ [c], update := true }
      rw [e]; exact ih
    | pubTf hi =>
      obtain ⟨x, e⟩ := pubTf_frame t
      rw [e]; exact ih
    | _ => exact ih

theorem finitePoints_forward (msg : LaserMsg) (lt a : Pose2d) (bs : List (ℕ × ℝ)) :
    finitePoints (bs.map fun q => Laser.forwardPoint msg lt (Laser.translation a a) q.1 (.fin q.2)) =
      .ok (bs.map fun q => move lt (polar (msg.angleMin + q.1 * msg.angleIncrement) q.2)) := by
  induction bs with
  | nil => rfl
  | cons b bs ih =>
    have h1 : Laser.forwardPoint msg lt (Laser.translation a a) b.1 (.fin b.2) = (_, _) :=
      c48_projection_at_rest msg lt a b.1 b.2
    simp only [List.map_cons]
    rw [h1]
    unfold finitePoints
    rw [ih]
    rfl

/-- **C110** (one laser) In every execution and schedule in which all messages are of one upright laser, a scan that is made of a
message while the robot is at rest has exactly the points where the beams of the message within the limit ended, in their
order. Missing: an inverted laser loses its first beam (C47), several lasers (refuted below). -/
theorem c110_one_laser_partial (p : Params) (A : Sys → Event → Prop) (enable : Bool) (file : Option (List BagMsg)) (m : Pose2d)
    (s t t' : Sys) (es : List Event) (hs : Mapper.start p enable file = .ok s) (hA : ∀ t e, A t e → OneLaser (m, false) e)
    (h : Exec p A s es t) (msg : LaserMsg) (mount : Option (Pose2d × Bool)) (o : Pose2d) (limit : ℝ)
    (ha : A t (.laser msg mount (some o) (some o))) (hi : t.spin = .idle)
    (hst : step p t (.laser msg mount (some o) (some o)) = .ok t') (hl : t'.rangeMax = .fin limit)
    (hn : ∀ r ∈ msg.ranges, r ≠ .ninf) (scan : Scan) (hm : ScanMade t'.spin = some scan) :
    scan.points = beamEnds m limit msg := by
  have hs0 : s.laser = none := by
    rcases start_cases hs with ⟨-, e⟩ | ⟨bag, g, -, -, e⟩ <;> (rw [e]; rfl)
  have hx := one_laser (m, false) hA (Exec.snoc h ha hst) hs0
  unfold step at hst
  rw [hi] at hst
  simp only at hst
  unfold laserCallback at hst
  obtain ⟨r, l, g, lm, e, -, -, -, -⟩ := setup_cases p msg mount t
  dsimp only at hst
  rw [e] at hst
  dsimp only at hst
  split_ifs at hst with h1 h2 h3
  all_goals try (injection hst with hst; rw [← hst] at hm; simp [hi, ScanMade] at hm; done)
  all_goals
    rcases l with _ | q
    · injection hst with hst
      rw [← hst] at hm
      simp [hi, ScanMade] at hm
    · obtain ⟨fpts, hf, hst⟩ := bind_ok hst
      obtain ⟨pts, hp, hst⟩ := bind_ok hst
      injection hst with hst
      have hr : r = .fin limit := by rw [← hst] at hl; exact hl
      have hq : q = (m, false) := by
        rw [← hst] at hx
        rcases hx with hx | hx
        · cases hx
        · exact Option.some.inj hx
      subst hr hq
      simp only at hf
      rw [c47_forward_beams_partial _ _ _ _ _ hn] at hf
      injection hf with hf
      rw [← hf, finitePoints_forward] at hp
      injection hp with hp
      rw [← hst] at hm
      unfold beamEnds
      rw [hp]
      injection hm with hm
      rw [← hm]
      rfl

/-- **C110** Refuted: once a laser is known the mounting of the laser a message comes from is not asked for. Whatever it is, and
whether it is known or not, the same is done. -/
theorem c110_mounting_not_asked (p : Params) (s : Sys) (msg : LaserMsg) (a b : Option (Pose2d × Bool))
    (o oe : Option Pose2d) (hl : s.laser ≠ none) : step p s (.laser msg a o oe) = step p s (.laser msg b o oe) := by
  obtain ⟨m, hm⟩ := Option.ne_none_iff_exists'.mp hl
  have e : laserSetup p msg a s = laserSetup p msg b s := by
    unfold laserSetup
    rw [hm]
  unfold step
  simp only
  unfold laserCallback
  rw [e]

theorem forwardLoop_range (msg : LaserMsg) (r rm : Fl) (lt t : Pose2d) (i : ℕ) (rs : List Fl) :
    Laser.forwardLoop { msg with rangeMax := r } rm lt t i rs = Laser.forwardLoop msg rm lt t i rs := by
  induction rs generalizing i with
  | nil => rfl
  | cons a rs ih =>
    unfold Laser.forwardLoop
    rw [ih]
    rfl

theorem invertedLoop_range (msg : LaserMsg) (r rm : Fl) (lt t : Pose2d) (i : ℕ) :
    Laser.invertedLoop { msg with rangeMax := r } rm lt t i = Laser.invertedLoop msg rm lt t i := by
  induction i with
  | zero => rfl
  | succ i ih =>
    unfold Laser.invertedLoop
    rw [ih]
    rfl

/-- **C110** Refuted: the same for the largest range of the laser, once one is known. -/
theorem c110_range_not_asked (p : Params) (s : Sys) (msg : LaserMsg) (r : Fl) (mount : Option (Pose2d × Bool))
    (o oe : Option Pose2d) (hr : ¬ s.rangeMax < .fin 0) :
    step p s (.laser { msg with rangeMax := r } mount o oe) = step p s (.laser msg mount o oe) := by
  have e : laserSetup p { msg with rangeMax := r } mount s = laserSetup p msg mount s := by
    unfold laserSetup Laser.latchRangeMax
    simp only [if_neg hr]
  have e2 : ∀ (rm : Fl) (inv : Bool) (lt a b : Pose2d),
      Laser.points { msg with rangeMax := r } rm inv lt a b = Laser.points msg rm inv lt a b := by
    intro rm inv lt a b
    unfold Laser.points
    dsimp only
    rw [forwardLoop_range, invertedLoop_range]
  unfold step
  simp only
  unfold laserCallback
  rw [e]
  simp only [e2]

/-- A message with one beam straight ahead. -/
def aheadBeam (r : ℝ) : LaserMsg := ⟨0, 1, .fin 10, [.fin r]⟩

theorem ahead_beams : validBeams 10 (aheadBeam 1).ranges = [(0, 1)] := by
  have h1 : (1 : ℝ) ≤ 10 := by norm_num
  simp [validBeams, aheadBeam, h1]

/-- What is done with this message after a first one of a laser in the middle of the robot. -/
theorem step_ahead (mount : Option (Pose2d × Bool)) : step (demoParams 10 3) (demoOne (demoParams 10 3) (demoStart (demoParams 10 3) true) Pose2d.zero)
      (.laser (aheadBeam 1) mount (some ⟨5, 0, 0⟩) (some ⟨5, 0, 0⟩)) =
      .ok { demoOne (demoParams 10 3) (demoStart (demoParams 10 3) true) Pose2d.zero with
        rangeMax := .fin 10, spin := .window (((Scan.new 1).setPose (predict Pose2d.zero Pose2d.zero ⟨5, 0, 0⟩)).setPoints
          [move Pose2d.zero (polar (0 + (0 : ℕ) * 1) 1)]) ⟨5, 0, 0⟩ } := by
  have hpts : Laser.points (aheadBeam 1) (.fin 10) false Pose2d.zero ⟨5, 0, 0⟩ ⟨5, 0, 0⟩ =
      .ok ([((0 : ℕ), (1 : ℝ))].map fun q => Laser.forwardPoint (aheadBeam 1) Pose2d.zero
        (Laser.translation ⟨5, 0, 0⟩ ⟨5, 0, 0⟩) q.1 (.fin q.2)) := by
    rw [← ahead_beams]
    exact c47_forward_beams_partial _ _ _ _ _ (by simp [aheadBeam])
  have hfin := finitePoints_forward (aheadBeam 1) Pose2d.zero ⟨5, 0, 0⟩ [(0, 1)]
  have hl : Laser.latchRangeMax (demoOne (demoParams 10 3) (demoStart (demoParams 10 3) true) Pose2d.zero).rangeMax
      (aheadBeam 1) = .fin 10 := by
    have h1 : (Fl.fin (-1)) < .fin 0 := show (-1 : ℝ) < 0 by norm_num
    have h2 : ¬ (Fl.fin 10) < .fin 0 := show ¬ (10 : ℝ) < 0 by norm_num
    simp [demoOne, demoStart, startWith, demoParams, Laser.latchRangeMax, h1, h2, noBeams]
  have ht : ¬ tooLittle (demoParams 10 3) { demoOne (demoParams 10 3) (demoStart (demoParams 10 3) true) Pose2d.zero with
      rangeMax := .fin 10 } ⟨5, 0, 0⟩ := by
    unfold tooLittle demoOne demoParams Pose2d.zero
    norm_num
  have e : laserSetup (demoParams 10 3) (aheadBeam 1) mount
      (demoOne (demoParams 10 3) (demoStart (demoParams 10 3) true) Pose2d.zero) =
      ({ demoOne (demoParams 10 3) (demoStart (demoParams 10 3) true) Pose2d.zero with rangeMax := .fin 10 }, true) := by
    rw [← hl]
    rfl
  unfold step
  rw [show (demoOne (demoParams 10 3) (demoStart (demoParams 10 3) true) Pose2d.zero).spin = .idle from rfl]
  dsimp only
  unfold laserCallback
  dsimp only
  rw [e]
  dsimp only
  rw [if_neg (by simp), if_neg (by simp [demoOne, demoStart, startWith]), if_neg (fun h => ht h.2)]
  rw [show (demoOne (demoParams 10 3) (demoStart (demoParams 10 3) true) Pose2d.zero).laser = some (Pose2d.zero, false)
    from rfl]
  dsimp only
  rw [hpts, Res.ok_bind, hfin, Res.ok_bind]
  simp [demoOne, demoStart, startWith, Sys.scans, demoParams, aheadBeam]

/-- **C110** Refuted: a robot with one laser in its middle and one a metre ahead of it. The first message is of the first. A beam
of 1 metre of the second ended 2 metres from the robot; the scan has it at 1 metre. -/
theorem c110_second_laser : ∃ (p : Params) (s t t' : Sys) (es : List Event) (scan : Scan), Mapper.start p true none = .ok s ∧
    run p s es = .ok t ∧
    step p t (.laser (aheadBeam 1) (some (⟨1, 0, 0⟩, false)) (some ⟨5, 0, 0⟩) (some ⟨5, 0, 0⟩)) = .ok t' ∧
    ScanMade t'.spin = some scan ∧ scan.points = [⟨1, 0⟩] ∧ beamEnds ⟨1, 0, 0⟩ 10 (aheadBeam 1) = [⟨2, 0⟩] := by
  refine ⟨demoParams 10 3, demoStart _ true, demoOne _ (demoStart _ true) Pose2d.zero, _,
    [demoLaser Pose2d.zero, .pushScan, .finishScan], _, rfl, run_demoOne _ _ rfl, step_ahead _, rfl, ?_, ?_⟩
  · simp [Scan.setPoints, move, polar, Pose2d.zero]
  · unfold beamEnds
    rw [ahead_beams]
    simp [move, polar, aheadBeam]
    norm_num

/-- With messages of one laser in the middle of the robot the same beam is where it ended. -/
example : ∃ (s t t' : Sys) (es : List Event) (scan : Scan), Mapper.start (demoParams 10 3) true none = .ok s ∧
    Exec (demoParams 10 3) (fun _ e => OneLaser (Pose2d.zero, false) e) s es t ∧ t.spin = .idle ∧
    step (demoParams 10 3) t (.laser (aheadBeam 1) (some (Pose2d.zero, false)) (some ⟨5, 0, 0⟩) (some ⟨5, 0, 0⟩)) = .ok t' ∧
    t'.rangeMax = .fin 10 ∧ ScanMade t'.spin = some scan ∧ beamEnds Pose2d.zero 10 (aheadBeam 1) = [⟨1, 0⟩] := by
  refine ⟨demoStart _ true, demoOne _ (demoStart _ true) Pose2d.zero, _,
    [demoLaser Pose2d.zero, .pushScan, .finishScan], _, rfl, ?_, rfl, step_ahead _, rfl, rfl, ?_⟩
  · exact (exec_iff_run _ (fun e => OneLaser (Pose2d.zero, false) e) _ _ _).mpr ⟨run_demoOne _ _ rfl, by simp [OneLaser, demoLaser]⟩
  · unfold beamEnds
    rw [ahead_beams]
    simp [move, polar, aheadBeam, Pose2d.zero]

end

end Ndt
