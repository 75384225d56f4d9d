import Verif.Proof.Demo

/-! # A small map with a possible loop closure, used in examples and counterexamples -/

namespace Ndt

noncomputable section

open Spec Mapper

/-! ## A small map for examples: two scans at the same place -/

/-- A scan with one point. -/
def mapDot (i : ℕ) (pose : Pose2d) : Scan := ((Scan.new i).setPose pose).setPoints [⟨1, 0⟩]

def demoLink : Constraint := ⟨0, 1, Pose2d.zero, fun i j => .fin (if (i.val * 3 + j.val) % 4 = 0 then 1 else 0), false⟩

/-- A file with two scans at the origin. -/
def demoBag : List BagMsg :=
  [⟨"scans", .scan ⟨0, 0, 0, 0, [⟨1, 0⟩]⟩⟩, ⟨"scans", .scan ⟨1, 0, 0, 0, [⟨1, 0⟩]⟩⟩,
   ⟨"constraints", .constraint ⟨0, 1, 0, 0, 0, fun k => .fin (if k % 4 = 0 then 1 else 0), false⟩⟩]

def demoMap (use : Bool) : Graph := ⟨use, [mapDot 0 Pose2d.zero, mapDot 1 Pose2d.zero], [demoLink]⟩

theorem demoBag_load (use : Bool) : Graph.load use demoBag = .ok (demoMap use) := by
  simp [Graph.load, demoBag, Graph.loadMsg, Graph.new, demoMap, Graph.scanOfMsg, Graph.constraintOfMsg, mapDot, demoLink,
    ofI64, Pose2d.zero]

/-- The mapper with this map. -/
def demoLoaded (p : Params) (enable : Bool) : Sys := startWith p enable true (demoMap p.useBarycenter)

theorem demoLoaded_start (p : Params) (enable : Bool) : Mapper.start p enable (some demoBag) = .ok (demoLoaded p enable) := by
  simp [Mapper.start, demoBag_load, demoLoaded]

/-- The loop closure thread has taken the second of the two scans. -/
def demoSearch (s : Sys) (limit : ℕ) : Sys :=
  { s with processed := 1, loop := .candidates ⟨⟨2, false⟩, 1, ⟨s.epoch, 1⟩, [0], limit⟩ }

theorem run_demoSearch (p : Params) (s : Sys) (hd : p.rollingDepth = 0) (hz : 0 < p.searchSize) (hb : p.useBarycenter = false)
    (hs : s.scans = [mapDot 0 Pose2d.zero, mapDot 1 Pose2d.zero]) (hl : s.loop = .asleep) (he : s.enable = true)
    (hp : s.processed = 0) :
    run p s [.loopWake, .loopCount, .loopPick [0]] = .ok (demoSearch s p.searchLimit) := by
  have h1 : step p s .loopWake = .ok { s with loop := .counting } := by
    unfold step; rw [hl]; simp [he]
  have h2 : step p { s with loop := .counting } .loopCount =
      .ok { s with processed := 1, loop := .picking ⟨2, false⟩ } := by
    have hlen : (({ s with loop := .counting } : Sys)).scans.length = 2 := by
      show s.scans.length = 2
      rw [hs]; rfl
    unfold step
    dsimp only
    unfold loopCount
    rw [hlen, if_neg (by simp [hd])]
    simp [hd, hp]
  have hw : wrapI32 1 = 1 := by decide
  have h3 : step p { s with processed := 1, loop := .picking ⟨2, false⟩ } (.loopPick [0]) =
      .ok (demoSearch s p.searchLimit) := by
    have hs1 : s.heap s.epoch = [mapDot 0 Pose2d.zero, mapDot 1 Pose2d.zero] := hs
    have hv : Visits [0] 1 := by unfold Visits; simp
    have hf : (({ s with processed := 1, loop := .picking ⟨2, false⟩ } : Sys).graph p).findNearest [0]
        (mapDot 1 Pose2d.zero) p.searchSize 1 = .ok [0] := by
      unfold Graph.findNearest
      simp only [Sys.graph, Sys.scans, hs1]
      rw [if_neg (by simp), List.filter_eq_self.mpr]
      · simp
      · intro i hi
        simp at hi
        subst hi
        simp [hb, Graph.refPose, Graph.sqDist, mapDot, Scan.getPose, Scan.setPose, Scan.setPoints]
        exact hz
    unfold step
    dsimp only
    rw [if_neg (by simp [hd, hw, hv])]
    unfold loopPick
    dsimp only
    rw [if_pos (by norm_num)]
    simp only [Sys.scans, hs1]
    simp only [hd, Nat.sub_zero, hw]
    simp only [List.getElem?_cons_succ, List.getElem?_cons_zero]
    rw [hf]
    rfl
  rw [run_cons, h1, Res.ok_bind, run_cons, h2, Res.ok_bind, run_cons, h3, Res.ok_bind]
  rfl

/-- A laser message before localisation only sets up laser and matchers. -/
def demoSetUp (p : Params) (s : Sys) : Sys :=
  { s with
    rangeMax := Laser.latchRangeMax s.rangeMax noBeams, laser := some (Pose2d.zero, false),
    globalM := some (if p.useFilter || !s.enable then s.scans else []), localM := some [] }

theorem step_demoSetUp (p : Params) (s : Sys) (o : Pose2d) (hi : s.spin = .idle) (hn : s.initialized = false)
    (hl : s.laser = none) : step p s (demoLaser o) = .ok (demoSetUp p s) := by
  unfold step demoLaser
  rw [hi]
  simp only
  unfold laserCallback laserSetup
  rw [hl]
  dsimp only
  rw [if_neg (by simp), if_pos (by simp [hn])]
  rfl

/-- The candidate of the small map is about to be matched. -/
def demoMatching (s : Sys) (limit : ℕ) : Sys :=
  { s with
    processed := 1, globalM := some [mapDot 0 Pose2d.zero],
    loop := .matching ⟨⟨2, false⟩, 1, ⟨s.epoch, 1⟩, [], limit⟩ ⟨s.epoch, 0⟩ }

theorem step_demoMatching (p : Params) (s : Sys) (limit : ℕ)
    (hs : s.scans = [mapDot 0 Pose2d.zero, mapDot 1 Pose2d.zero]) (hg : s.globalM ≠ none) :
    step p (demoSearch s limit) .loopCandidate = .ok (demoMatching s limit) := by
  have hs1 : s.heap s.epoch = [mapDot 0 Pose2d.zero, mapDot 1 Pose2d.zero] := hs
  obtain ⟨w, hw⟩ := Option.ne_none_iff_exists'.mp hg
  unfold step demoSearch
  dsimp only
  unfold loopCandidate
  simp [Sys.scans, hs1, hw, mapDot, Scan.getPoints, Scan.setPoints, demoMatching]

/-- The map with the pose of the second scan corrected. -/
def demoCorrected (s : Sys) (limit : ℕ) (correction : Pose2d) (cov : Mat3) : Sys :=
  { demoMatching s limit with
    heap := setPoseAt s.heap ⟨s.epoch, 1⟩ correction,
    loop := .pushing ⟨⟨2, true⟩, 1, ⟨s.epoch, 1⟩, [], limit⟩
      { makeConstraint (mapDot 0 Pose2d.zero) ((mapDot 1 Pose2d.zero).setPose correction) cov with switchable := true } }

theorem step_demoCorrected (p : Params) (s : Sys) (limit : ℕ) (score : Fl) (correction : Pose2d) (cov : Mat3)
    (hs : s.scans = [mapDot 0 Pose2d.zero, mapDot 1 Pose2d.zero]) (hf : score.isFinite) (ht : score < s.typical) :
    step p (demoMatching s limit) (.loopMatched score correction cov) = .ok (demoCorrected s limit correction cov) := by
  have hs1 : s.heap s.epoch = [mapDot 0 Pose2d.zero, mapDot 1 Pose2d.zero] := hs
  have hc : addCorrection correction Pose2d.zero = correction := by simp [addCorrection, Pose2d.zero]
  unfold step demoMatching
  dsimp only
  unfold loopMatched
  dsimp only
  rw [if_pos ⟨hf, ht⟩, hs1]
  simp only [List.getElem?_cons_succ, List.getElem?_cons_zero]
  have : (mapDot 1 Pose2d.zero).getPose = Pose2d.zero := rfl
  rw [this, hc]
  rfl

/-- The loop closure constraint of the small map. -/
def demoClosure (correction : Pose2d) (cov : Mat3) : Constraint :=
  { makeConstraint (mapDot 0 Pose2d.zero) ((mapDot 1 Pose2d.zero).setPose correction) cov with switchable := true }

/-- The loop closure constraint of the small map is in the graph, and the round is over. -/
def demoDeciding (s : Sys) (correction : Pose2d) (cov : Mat3) : Sys :=
  { s with
    processed := 2, globalM := some [mapDot 0 Pose2d.zero], heap := setPoseAt s.heap ⟨s.epoch, 1⟩ correction,
    constraints := s.constraints ++ [demoClosure correction cov], update := true, loop := .deciding ⟨2, true⟩ }

theorem run_demoDeciding (p : Params) (s : Sys) (correction : Pose2d) (cov : Mat3) :
    run p (demoCorrected s 3 correction cov) [.loopPush, .loopCandidate, .loopPick []] =
      .ok (demoDeciding s correction cov) := by
  have h1 : step p (demoCorrected s 3 correction cov) .loopPush = .ok
      { s with
        processed := 1, globalM := some [mapDot 0 Pose2d.zero], heap := setPoseAt s.heap ⟨s.epoch, 1⟩ correction,
        constraints := s.constraints ++ [demoClosure correction cov], update := true,
        loop := .candidates ⟨⟨2, true⟩, 1, ⟨s.epoch, 1⟩, [], 2⟩ } := by
    show Except.ok (afterAttempt _ _) = _
    unfold afterAttempt
    rw [if_neg (by norm_num)]
    norm_num
    simp [demoCorrected, demoMatching, demoClosure]
  rw [run_cons, h1, Res.ok_bind]
  simp [run_cons, step, loopCandidate, nextScan, loopPick, run, demoDeciding]

end

end Ndt
