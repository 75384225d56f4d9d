import Verif.Proof.DemoLoop

/-! # A mapper that stands still and adds scan after scan, used in examples and counterexamples -/

namespace Ndt

noncomputable section

open Spec Mapper

/-- A laser message with one beam of a metre straight ahead. -/
def oneBeam : LaserMsg := ⟨0, 1, .fin 10, [.fin 1]⟩

/-- Parameters that need no travel. -/
def standParams : Params := { demoParams 10 3 with minDist := 0, nodeLimit := 1, searchSize := 5 }

/-- A laser message with one beam while the odometry says that the robot is at the origin. -/
def standLaser : Event := .laser oneBeam (some (Pose2d.zero, false)) (some Pose2d.zero) (some Pose2d.zero)

theorem oneBeam_points : Laser.points oneBeam (.fin 10) false Pose2d.zero Pose2d.zero Pose2d.zero =
    .ok [(.fin 1, .fin 0)] := by
  have hs : ¬ Laser.skip (.fin 10) (.fin 1) := by
    unfold Laser.skip
    simp
  simp [Laser.points, oneBeam, Laser.forwardLoop, hs, Laser.forwardPoint, Laser.shift, Laser.project, Laser.perMeas,
    Laser.translation, Pose2d.zero]

/-- A mapper that has added `n` scans at the same place. -/
structure Standing (n : ℕ) (s : Sys) : Prop where
  enable : s.enable = true
  init : s.initialized = true
  spin : s.spin = .idle
  loop : s.loop = .asleep
  laser : s.laser = some (Pose2d.zero, false)
  range : s.rangeMax = .fin 10
  localM : s.localM ≠ none
  globalM : s.globalM ≠ none
  len : s.scans.length = n
  scans : ∀ x ∈ s.scans, x.pose.x = 0 ∧ x.pose.y = 0 ∧ x.points = [⟨1, 0⟩]
  odom : s.prevOdom = Pose2d.zero
  robot : s.scans.getLast?.map (·.pose) = some s.prevRobot
  typical : s.typical = .fin (-0.5)
  processed : s.processed = 0
  optLast : s.optLast = 0
  epoch : s.epoch = 0

theorem stand_tooLittle (s : Sys) (h : s.prevOdom = Pose2d.zero) : ¬ tooLittle standParams s Pose2d.zero := by
  unfold tooLittle
  rw [h]
  simp [standParams, Pose2d.zero]

/-- The first scan. -/
theorem standing_one : ∃ s, run standParams (demoStart standParams true) [standLaser, .pushScan, .finishScan] = .ok s ∧
    Standing 1 s := by
  have h1 : step standParams (demoStart standParams true) standLaser = .ok
      { demoStart standParams true with
        rangeMax := .fin 10, laser := some (Pose2d.zero, false), globalM := some [], localM := some [],
        spin := .append (((Scan.new 0).setPose Pose2d.zero).setPoints [⟨1, 0⟩]) Pose2d.zero } := by
    have hr : Laser.latchRangeMax (.fin (-1)) oneBeam = .fin 10 := by simp [Laser.latchRangeMax, oneBeam]
    have e : laserSetup standParams oneBeam (some (Pose2d.zero, false)) (demoStart standParams true) =
        ({ demoStart standParams true with
          rangeMax := .fin 10, laser := some (Pose2d.zero, false), globalM := some [], localM := some [] }, true) := by
      unfold laserSetup
      simp only [demoStart, startWith]
      rw [show standParams.rangeMax = .fin (-1) from rfl, hr]
      simp [standParams, demoParams]
    unfold step standLaser
    rw [show (demoStart standParams true).spin = .idle from rfl]
    simp only
    unfold laserCallback
    rw [e]
    dsimp only
    rw [if_neg (by simp), if_neg (by simp [demoStart, startWith]), if_neg (by simp [demoStart, startWith, Sys.scans, Graph.new]),
      oneBeam_points, Res.ok_bind]
    simp [finitePoints, demoStart, startWith, Sys.scans, Graph.new, standParams, demoParams]
  refine ⟨_, by rw [run_cons, h1, Res.ok_bind]; rfl, ?_⟩
  constructor <;> simp [Sys.scans, demoStart, startWith, Graph.new, Scan.setPose, Scan.setPoints, Pose2d.zero, Scan.getPose]

/-- The events by which one more scan is added. -/
def standMore : List Event :=
  [standLaser, .addWindow, .localMatched (.fin (-0.5)) Pose2d.zero fun _ _ => .fin 0, .pushConstraint, .pushScan, .finishScan]

theorem standing_more {n : ℕ} {s : Sys} (hn : 1 ≤ n) (h : Standing n s) :
    ∃ s', run standParams s standMore = .ok s' ∧ Standing (n + 1) s' := by
  have hne : s.scans ≠ [] := by intro hs; have := h.len; rw [hs] at this; simp at this; omega
  obtain ⟨back, hback⟩ : ∃ b, s.scans.getLast? = some b := by
    rw [List.getLast?_eq_some_getLast hne]; exact ⟨_, rfl⟩
  have hrob := h.robot
  rw [hback] at hrob
  simp at hrob
  have hbm := h.scans back (List.mem_of_getLast? hback)
  set r := predict s.prevOdom s.prevRobot Pose2d.zero with hr
  have hrx : r.x = 0 ∧ r.y = 0 := by
    rw [hr, h.odom, ← hrob]
    simp [predict, hbm.1, hbm.2.1, Pose2d.zero]
  have hlr : Laser.latchRangeMax s.rangeMax oneBeam = .fin 10 := by rw [h.range]; simp [Laser.latchRangeMax]
  let scan : Scan := ((Scan.new n).setPose r).setPoints [⟨1, 0⟩]
  have h1 : step standParams s standLaser = .ok { s with rangeMax := .fin 10, spin := .window scan Pose2d.zero } := by
    have e : laserSetup standParams oneBeam (some (Pose2d.zero, false)) s = ({ s with rangeMax := .fin 10 }, true) := by
      unfold laserSetup; rw [h.laser, hlr]
    unfold step standLaser
    rw [h.spin]
    simp only
    unfold laserCallback
    rw [e]
    dsimp only
    rw [if_neg (by simp), if_neg (by simp [h.init]), if_neg, h.laser]
    · dsimp only
      rw [oneBeam_points, Res.ok_bind]
      simp only [finitePoints, Res.ok_bind]
      have hlen : (s.heap s.epoch).length = n := h.len
      have hne' : ¬ s.heap s.epoch = [] := hne
      have hfil : standParams.useFilter = false := rfl
      simp only [Sys.scans, hne', hfil, h.enable, h.laser, hlen]
      simp [scan, hr]
    · rintro ⟨-, h2⟩
      exact stand_tooLittle s h.odom h2
  obtain ⟨w, h2⟩ : ∃ w, step standParams { s with rangeMax := .fin 10, spin := .window scan Pose2d.zero } .addWindow =
      .ok { s with rangeMax := .fin 10, localM := some w, spin := .matching scan Pose2d.zero } := by
    unfold step addWindow
    dsimp only
    rw [if_neg h.localM]
    have hl : ({ s with rangeMax := .fin 10, spin := .window scan Pose2d.zero } : Sys).scans.length = n := h.len
    rw [hl]
    by_cases hd : n ≤ standParams.rollingDepth
    · rw [if_pos hd]; exact ⟨_, rfl⟩
    · rw [if_neg hd, if_neg]
      · exact ⟨_, rfl⟩
      · have : ¬ n ≤ 10 := hd
        omega
  have h3 : step standParams { s with rangeMax := .fin 10, localM := some w, spin := .matching scan Pose2d.zero }
      (.localMatched (.fin (-0.5)) Pose2d.zero fun _ _ => .fin 0) = .ok
      { s with
        rangeMax := .fin 10, localM := some w, typical := .fin (-0.5),
        spin := .constraint (makeConstraint back (scan.setPose r) fun _ _ => .fin 0) (scan.setPose r) Pose2d.zero } := by
    unfold step localMatched
    dsimp only
    rw [show ({ s with rangeMax := .fin 10, localM := some w, spin := .matching scan Pose2d.zero } : Sys).scans.getLast? =
      some back from hback]
    dsimp only
    have ht : typicalResponse s.typical (.fin (-0.5)) = .fin (-0.5) := by
      rw [h.typical]; simp [typicalResponse]; norm_num
    have hc : addCorrection Pose2d.zero scan.getPose = r := by
      show addCorrection Pose2d.zero r = r
      simp [addCorrection, Pose2d.zero]
    rw [ht, hc]
  refine ⟨_, by rw [standMore, run_cons, h1, Res.ok_bind, run_cons, h2, Res.ok_bind, run_cons, h3, Res.ok_bind,
    run_cons, step, Res.ok_bind, run_cons, step, Res.ok_bind, run_cons]; dsimp only [step]; simp [Sys.scans]; rfl, ?_⟩
  have hlen := h.len
  have hsc := h.scans
  constructor <;> first
    | exact h.enable
    | exact h.init
    | rfl
    | exact h.loop
    | exact h.laser
    | exact h.globalM
    | exact h.processed
    | exact h.optLast
    | exact h.epoch
    | skip
  · simp
  · simp [Sys.scans] at hlen ⊢; exact hlen
  · intro x hx
    simp [Sys.scans] at hx
    rcases hx with hx | hx
    · exact hsc x hx
    · subst hx; exact ⟨hrx.1, hrx.2, rfl⟩
  · simp [Sys.scans]; rfl

/-- As many scans as one likes. -/
theorem standing_many (n : ℕ) : ∃ s es, run standParams (demoStart standParams true) es = .ok s ∧ Standing (n + 1) s ∧
    ∀ e ∈ es, (∀ action bag, e ≠ .configure action bag) ∧ ¬ IsLoopWork e := by
  induction n with
  | zero =>
    obtain ⟨s, h1, h2⟩ := standing_one
    exact ⟨s, _, h1, h2, by simp [standLaser, IsLoopWork]⟩
  | succ n ih =>
    obtain ⟨s, es, h1, h2, h3⟩ := ih
    obtain ⟨s', h4, h5⟩ := standing_more (by omega) h2
    refine ⟨s', es ++ standMore, by rw [run_append, h1, Res.ok_bind, h4], h5, ?_⟩
    intro e he
    rcases List.mem_append.mp he with he | he
    · exact h3 e he
    · simp only [standMore, List.mem_cons, List.not_mem_nil, or_false] at he
      rcases he with rfl | rfl | rfl | rfl | rfl | rfl <;> simp [standLaser, IsLoopWork]

/-- The loop closure thread takes the last of twelve scans and is about to match it against the first. -/
def standMatching (s : Sys) : Sys :=
  { s with
    processed := 11, globalM := some (s.scans.take 1),
    loop := .matching ⟨⟨12, false⟩, 1, ⟨0, 11⟩, [], 3⟩ ⟨0, 0⟩ }

theorem run_standMatching {s : Sys} (h : Standing 12 s) :
    run standParams s [.loopWake, .loopCount, .loopPick [0], .loopCandidate] = .ok (standMatching s) := by
  have hlen := h.len
  have hep := h.epoch
  have hlen' : (s.heap s.epoch).length = 12 := h.len
  obtain ⟨x, hx⟩ : ∃ x, s.scans[11]? = some x := ⟨_, List.getElem?_eq_getElem (by omega)⟩
  obtain ⟨y, hy⟩ : ∃ y, s.scans[0]? = some y := ⟨_, List.getElem?_eq_getElem (by omega)⟩
  have hxs := h.scans x (List.mem_of_getElem? hx)
  have hys := h.scans y (List.mem_of_getElem? hy)
  have h1 : step standParams s .loopWake = .ok { s with loop := .counting } := by
    unfold step; rw [h.loop]; simp [h.enable]
  have h2 : step standParams { s with loop := .counting } .loopCount =
      .ok { s with processed := 11, loop := .picking ⟨12, false⟩ } := by
    unfold step
    dsimp only
    unfold loopCount
    rw [show ({ s with loop := .counting } : Sys).scans.length = 12 from h.len,
      show standParams.rollingDepth = 10 from rfl, if_neg (by omega)]
    simp [h.processed]
  have hw : wrapI32 (11 - 10) = 1 := by decide
  have h3 : step standParams { s with processed := 11, loop := .picking ⟨12, false⟩ } (.loopPick [0]) =
      .ok { s with processed := 11, loop := .candidates ⟨⟨12, false⟩, 1, ⟨0, 11⟩, [0], 3⟩ } := by
    have hv : Visits [0] 1 := by unfold Visits; simp
    have hf : (({ s with processed := 11, loop := .picking ⟨12, false⟩ } : Sys).graph standParams).findNearest [0]
        x standParams.searchSize 1 = .ok [0] := by
      have hy' : (s.heap s.epoch)[0]? = some y := hy
      unfold Graph.findNearest
      simp only [Sys.graph, Sys.scans]
      simp only [hlen']
      rw [if_neg (show ¬ 12 < (if (0 : ℤ) < 1 then Int.toNat 1 else 12) by decide), List.filter_eq_self.mpr]
      · simp
      · intro i hi
        simp at hi
        subst hi
        simp [hy', Graph.refPose, Graph.sqDist, Scan.getPose, hxs.1, hxs.2.1, hys.1, hys.2.1, standParams, demoParams]
    unfold step
    dsimp only
    rw [show standParams.rollingDepth = 10 from rfl, hw, if_neg (by simp [hv])]
    unfold loopPick
    dsimp only
    rw [if_pos (by norm_num), show ({ s with processed := 11, loop := .picking ⟨12, false⟩ } : Sys).scans[11]? = some x from hx]
    dsimp only
    rw [show standParams.rollingDepth = 10 from rfl, hw, hf, Res.ok_bind, hep]
    rfl
  have h4 : step standParams { s with processed := 11, loop := .candidates ⟨⟨12, false⟩, 1, ⟨0, 11⟩, [0], 3⟩ } .loopCandidate =
      .ok (standMatching s) := by
    obtain ⟨w, hw⟩ := Option.ne_none_iff_exists'.mp h.globalM
    unfold step loopCandidate
    dsimp only
    rw [show ({ s with processed := 11, loop := .candidates ⟨⟨12, false⟩, 1, ⟨0, 11⟩, [0], 3⟩ } : Sys).scans[0]? = some y
      from hy]
    dsimp only
    rw [if_neg (by simp [Scan.getPoints, hys.2.2])]
    rw [if_neg (by simp [Sys.scans, hlen']), hw]
    simp [standMatching, Sys.scans, hep]
  rw [run_cons, h1, Res.ok_bind, run_cons, h2, Res.ok_bind, run_cons, h3, Res.ok_bind, run_cons, h4, Res.ok_bind]
  rfl

end

end Ndt
