import Verif.Props.MapperProps

/-! # Small executions used in examples and counterexamples -/

namespace Ndt

noncomputable section

open Spec Mapper

/-- A scan without points. -/
def blank (i : ℕ) (pose : Pose2d) : Scan := ((Scan.new i).setPose pose).setPoints []

/-- A laser message without a usable beam while the odometry reports `o`. -/
def demoLaser (o : Pose2d) : Event := .laser noBeams (some (Pose2d.zero, false)) (some o) (some o)

theorem noBeams_points (r : Fl) (lt o oe : Pose2d) : Laser.points noBeams r false lt o oe = .ok [] := by
  simp [Laser.points, noBeams, Laser.forwardLoop, Laser.skip, Fl.isNan]

theorem step_demoLaser (p : Params) (s : Sys) (o : Pose2d) (hi : s.spin = .idle) (hn : s.initialized = true)
    (hl : s.laser = some (Pose2d.zero, false)) (ht : s.scans = [] ∨ ¬ tooLittle p s o) :
    step p s (demoLaser o) = .ok { s with
      rangeMax := Laser.latchRangeMax s.rangeMax noBeams,
      spin := branch p s (blank s.scans.length (firstPose s o)) o } := by
  have e : laserSetup p noBeams (some (Pose2d.zero, false)) s =
      ({ s with rangeMax := Laser.latchRangeMax s.rangeMax noBeams }, true) := by
    unfold laserSetup; rw [hl]
  have ht' : ¬ (({ s with rangeMax := Laser.latchRangeMax s.rangeMax noBeams } : Sys).scans ≠ [] ∧
      tooLittle p { s with rangeMax := Laser.latchRangeMax s.rangeMax noBeams } o) := by
    rintro ⟨h1, h2⟩
    rcases ht with ht | ht
    · exact h1 ht
    · exact ht h2
  unfold step demoLaser
  rw [hi]
  simp only
  unfold laserCallback
  rw [e]
  dsimp only
  rw [if_neg (by simp), if_neg (by simp [hn]), if_neg ht', hl]
  dsimp only
  rw [noBeams_points, Res.ok_bind]
  rfl

theorem step_demoLaser_first (p : Params) (s : Sys) (o : Pose2d) (hi : s.spin = .idle) (hn : s.initialized = true)
    (hl : s.laser = none) (ht : s.scans = [] ∨ ¬ tooLittle p s o) :
    step p s (demoLaser o) = .ok { s with
      rangeMax := Laser.latchRangeMax s.rangeMax noBeams, laser := some (Pose2d.zero, false),
      globalM := some (if p.useFilter || !s.enable then s.scans else []), localM := some [],
      spin := branch p s (blank s.scans.length (firstPose s o)) o } := by
  have ht' : ¬ (s.scans ≠ [] ∧ tooLittle p s o) := by
    rintro ⟨h1, h2⟩
    rcases ht with ht | ht
    · exact h1 ht
    · exact ht h2
  unfold step demoLaser
  rw [hi]
  simp only
  unfold laserCallback laserSetup
  rw [hl]
  dsimp only
  rw [if_neg (by simp), if_neg (by simp [hn]), if_neg (by exact ht')]
  rw [noBeams_points, Res.ok_bind]
  rfl

/-- One scan in the graph, the executor about to announce it. -/
def demoOne (p : Params) (s : Sys) (o : Pose2d) : Sys :=
  { s with
    rangeMax := Laser.latchRangeMax s.rangeMax noBeams, laser := some (Pose2d.zero, false), globalM := some [],
    localM := some [], heap := fun e => if e = s.epoch then [blank 0 Pose2d.zero] else s.heap e, prevOdom := o,
    prevRobot := Pose2d.zero, update := true, spin := .idle }

/-- The first scan of an empty graph. -/
theorem run_demoOne (p : Params) (o : Pose2d) (hf : p.useFilter = false) :
    run p (demoStart p true) [demoLaser o, .pushScan, .finishScan] = .ok (demoOne p (demoStart p true) o) := by
  rw [run_cons, step_demoLaser_first p _ o rfl rfl rfl (Or.inl rfl), Res.ok_bind]
  simp [branch, hf, run_cons, step, run, demoOne, demoStart, startWith, Sys.scans, Graph.new, firstPose, blank, Scan.getPose,
    Scan.setPoints, Scan.setPose]

/-- The second scan of the graph, matched and its constraint added, the scan itself not yet. -/
def demoHalf (p : Params) (s : Sys) (o : Pose2d) (score : Fl) (correction : Pose2d) (cov : Mat3) : Sys :=
  { s with
    rangeMax := Laser.latchRangeMax s.rangeMax noBeams, localM := some s.scans,
    typical := typicalResponse s.typical score,
    constraints := s.constraints ++ [makeConstraint (blank 0 Pose2d.zero)
      ((blank s.scans.length (predict s.prevOdom s.prevRobot o)).setPose
        (addCorrection correction (predict s.prevOdom s.prevRobot o))) cov],
    spin := .append ((blank s.scans.length (predict s.prevOdom s.prevRobot o)).setPose
        (addCorrection correction (predict s.prevOdom s.prevRobot o))) o }

/-- From one scan to the moment at which the constraint of the second is in the graph. -/
theorem run_demoHalf (p : Params) (s : Sys) (o : Pose2d) (score : Fl) (correction : Pose2d) (cov : Mat3)
    (hf : p.useFilter = false) (hd : 1 ≤ p.rollingDepth) (he : s.enable = true) (hi : s.spin = .idle)
    (hn : s.initialized = true) (hl : s.laser = some (Pose2d.zero, false)) (hm : s.localM ≠ none)
    (hs : s.scans = [blank 0 Pose2d.zero]) (ht : ¬ tooLittle p s o) :
    run p s [demoLaser o, .addWindow, .localMatched score correction cov, .pushConstraint] =
      .ok (demoHalf p s o score correction cov) := by
  rw [run_cons, step_demoLaser p s o hi hn hl (Or.inr ht), Res.ok_bind, run_cons]
  have hs' : s.heap s.epoch = [blank 0 Pose2d.zero] := hs
  have hw : step p { s with
      rangeMax := Laser.latchRangeMax s.rangeMax noBeams,
      spin := branch p s (blank s.scans.length (firstPose s o)) o } .addWindow = .ok { s with
      rangeMax := Laser.latchRangeMax s.rangeMax noBeams, localM := some s.scans,
      spin := .matching (blank s.scans.length (predict s.prevOdom s.prevRobot o)) o } := by
    have hb : branch p s (blank s.scans.length (firstPose s o)) o =
        .window (blank s.scans.length (predict s.prevOdom s.prevRobot o)) o := by
      unfold branch firstPose
      rw [if_neg (by simp [hf]), if_pos he, if_neg (by simp [hs]), if_neg (by simp [hs])]
    rw [hb]
    unfold step addWindow
    dsimp only
    rw [if_neg hm, if_pos]
    · rfl
    · show s.scans.length ≤ _
      rw [hs]; exact hd
  rw [hw, Res.ok_bind, run_cons]
  have hb : (({ s with
      rangeMax := Laser.latchRangeMax s.rangeMax noBeams, localM := some s.scans,
      spin := .matching (blank s.scans.length (predict s.prevOdom s.prevRobot o)) o } : Sys)).scans.getLast? =
      some (blank 0 Pose2d.zero) := by
    show s.scans.getLast? = _
    rw [hs]; rfl
  have hlm : step p ({ s with
      rangeMax := Laser.latchRangeMax s.rangeMax noBeams, localM := some s.scans,
      spin := .matching (blank s.scans.length (predict s.prevOdom s.prevRobot o)) o } : Sys)
      (.localMatched score correction cov) = .ok { s with
        rangeMax := Laser.latchRangeMax s.rangeMax noBeams, localM := some s.scans,
        typical := typicalResponse s.typical score,
        spin := .constraint (makeConstraint (blank 0 Pose2d.zero)
          ((blank s.scans.length (predict s.prevOdom s.prevRobot o)).setPose
            (addCorrection correction (predict s.prevOdom s.prevRobot o))) cov)
          ((blank s.scans.length (predict s.prevOdom s.prevRobot o)).setPose
            (addCorrection correction (predict s.prevOdom s.prevRobot o))) o } := by
    unfold step localMatched
    dsimp only
    rw [hb]
    rfl
  rw [hlm, Res.ok_bind]
  rfl

end

end Ndt
