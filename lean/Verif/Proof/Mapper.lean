import Verif.Model.Mapper
import Mathlib.Tactic.SplitIfs

/-! # Helper lemmas about the mapper: a list of everything a step can do -/

namespace Ndt

noncomputable section

namespace Mapper

/-- The place after the common part of `laserCallback`. -/
def branch (p : Params) (s : Sys) (scan : Scan) (odom : Pose2d) : Spin :=
  if p.useFilter then .filter scan odom
  else if s.enable then (if s.scans = [] then .append scan odom else .window scan odom)
  else .localise scan odom

/-- The pose a new scan gets. -/
def firstPose (s : Sys) (odom : Pose2d) : Pose2d :=
  if s.scans = [] then Pose2d.zero else predict s.prevOdom s.prevRobot odom

/-- Everything a step can do, with its result. -/
inductive Trans (p : Params) (s : Sys) : Event → Sys → Prop
  | stutter (e : Event) : Trans p s e s
  | laserIgnored (msg : LaserMsg) (mount : Option (Pose2d × Bool)) (odom odomEnd : Option Pose2d) (hi : s.spin = .idle) :
      Trans p s (.laser msg mount odom odomEnd) (laserSetup p msg mount s).1
  | laserScan (msg : LaserMsg) (mount : Option (Pose2d × Bool)) (odom odomEnd : Pose2d) (points : List Point)
      (hi : s.spin = .idle) (hgo : (laserSetup p msg mount s).2 = true) (hinit : s.initialized = true)
      (ht : s.scans = [] ∨ ¬ tooLittle p s odom) :
      Trans p s (.laser msg mount (some odom) (some odomEnd)) { (laserSetup p msg mount s).1 with
        spin := branch p s (((Scan.new s.scans.length).setPose (firstPose s odom)).setPoints points) odom }
  | filtered (mean : Pose2d) (scan : Scan) (odom : Pose2d) (hi : s.spin = .filter scan odom) :
      Trans p s (.filtered mean) { s with spin := .finish mean odom }
  | addWindow (scan : Scan) (odom : Pose2d) (w : List Scan) (hi : s.spin = .window scan odom) (hl : s.localM ≠ none)
      (hw : addWindow p scan odom s = .ok { s with localM := some w, spin := .matching scan odom }) :
      Trans p s .addWindow { s with localM := some w, spin := .matching scan odom }
  | localMatched (score : Fl) (correction : Pose2d) (cov : Mat3) (scan back : Scan) (odom : Pose2d)
      (hi : s.spin = .matching scan odom) (hb : s.scans.getLast? = some back) :
      Trans p s (.localMatched score correction cov) { s with
        typical := typicalResponse s.typical score,
        spin := .constraint (makeConstraint back (scan.setPose (addCorrection correction scan.getPose)) cov)
          (scan.setPose (addCorrection correction scan.getPose)) odom }
  | pushConstraint (c : Constraint) (scan : Scan) (odom : Pose2d) (hi : s.spin = .constraint c scan odom) :
      Trans p s .pushConstraint { s with constraints := s.constraints ++ [c], spin := .append scan odom }
  | pushScan (scan : Scan) (odom : Pose2d) (hi : s.spin = .append scan odom) :
      Trans p s .pushScan { s with heap := fun e => if e = s.epoch then s.scans ++ [scan] else s.heap e,
                                   spin := .announce ⟨s.epoch, s.scans.length⟩ odom }
  | globalMatched (correction : Pose2d) (scan : Scan) (odom : Pose2d) (hi : s.spin = .localise scan odom) :
      Trans p s (.globalMatched correction) { s with spin := .finish (addCorrection correction scan.getPose) odom }
  | finishScan (robot odom : Pose2d) (hi : s.spin = .finish robot odom) :
      Trans p s .finishScan { s with prevOdom := odom, prevRobot := robot, spin := .idle }
  | announce (a : Ptr) (odom : Pose2d) (scan : Scan) (hi : s.spin = .announce a odom)
      (hs : (s.heap a.epoch)[a.idx]? = some scan) :
      Trans p s .finishScan { s with prevOdom := odom, prevRobot := scan.getPose, update := true, spin := .idle }
  | poseKept (m : PoseMsg) (odom : Pose2d) (visit : List ℕ) (hi : s.spin = .idle)
      (he : s.enable = false ∨ p.useFilter = true) :
      Trans p s (.pose m (some odom) visit) { s with spin := .poseRobot m.pose odom }
  | poseScan (m : PoseMsg) (odom : Pose2d) (visit : List ℕ) (near : Scan) (i : ℕ) (rest : List ℕ) (hi : s.spin = .idle)
      (he : s.enable = true) (hn : s.initialized = false) (hf : p.useFilter = false) (hnear : s.scans[i]? = some near)
      (hv : Visits visit s.scans.length)
      (hfind : (s.graph p).findNearest visit ((Scan.new s.scans.length).setPose m.pose) 10 (-1) = .ok (i :: rest)) :
      Trans p s (.pose m (some odom) visit)
        { s with heap := fun e => if e = s.epoch then s.scans ++ [(Scan.new s.scans.length).setPose m.pose] else s.heap e,
                 constraints := s.constraints ++
                   [makeConstraint near ((Scan.new s.scans.length).setPose m.pose) (poseCovariance m)],
                 spin := .poseRobot m.pose odom }
  | setRobot (robot odom : Pose2d) (hi : s.spin = .poseRobot robot odom) :
      Trans p s .setRobot { s with prevRobot := robot, spin := .poseOdom odom }
  | setOdom (odom : Pose2d) (hi : s.spin = .poseOdom odom) :
      Trans p s .setOdom { s with prevOdom := odom, initialized := true, spin := .idle }
  | configureFlags (action : BitVec 32) (bag : List BagMsg) (hi : s.spin = .idle) (hl : action &&& 4#32 = 0#32) :
      Trans p s (.configure action bag) (configureMapping action s)
  | load (action : BitVec 32) (bag : List BagMsg) (g : Graph) (hi : s.spin = .idle) (hl : action &&& 4#32 ≠ 0#32)
      (hg : Graph.load p.useBarycenter bag = .ok g) :
      Trans p s (.configure action bag) { configureMapping action s with
        epoch := s.epoch + 1, heap := fun e => if e = s.epoch + 1 then g.scans else s.heap e,
        constraints := g.constraints, update := true, initialized := false }
  | loopWake (hi : s.loop = .asleep) (he : s.enable = true) : Trans p s .loopWake { s with loop := .counting }
  | loopShort (hi : s.loop = .counting) (hn : s.scans.length ≤ p.rollingDepth) :
      Trans p s .loopCount { s with loop := .asleep }
  | loopCount (hi : s.loop = .counting) (hn : p.rollingDepth < s.scans.length) :
      Trans p s .loopCount { s with processed := if s.processed ≤ p.rollingDepth then p.rollingDepth + 1 else s.processed,
                                    loop := .picking ⟨s.scans.length, false⟩ }
  | loopPick (visit : List ℕ) (r : Round) (scan : Scan) (near : List ℕ) (hi : s.loop = .picking r) (hn : s.processed < r.n)
      (hs : s.scans[s.processed]? = some scan)
      (hv : Visits visit (if 0 < wrapI32 (s.processed - p.rollingDepth : ℕ) then
        (wrapI32 (s.processed - p.rollingDepth : ℕ)).toNat else s.scans.length))
      (hf : (s.graph p).findNearest visit scan p.searchSize (wrapI32 (s.processed - p.rollingDepth : ℕ)) = .ok near) :
      Trans p s (.loopPick visit) { s with
        loop := .candidates ⟨r, s.processed - p.rollingDepth, ⟨s.epoch, s.processed⟩, near, p.searchLimit⟩ }
  | loopLeave (visit : List ℕ) (r : Round) (hi : s.loop = .picking r) (hn : r.n ≤ s.processed) :
      Trans p s (.loopPick visit) { s with loop := .deciding r }
  | loopNext (q : Search) (hi : s.loop = .candidates q) (hr : q.rest = []) :
      Trans p s .loopCandidate (nextScan q.round s)
  | loopSkip (q : Search) (i : ℕ) (rest : List ℕ) (cand : Scan) (hi : s.loop = .candidates q) (hr : q.rest = i :: rest)
      (hc : s.scans[i]? = some cand) (hp : cand.points = []) :
      Trans p s .loopCandidate { s with loop := .candidates { q with rest := rest } }
  | loopCandidate (q : Search) (i : ℕ) (rest : List ℕ) (cand : Scan) (hi : s.loop = .candidates q) (hr : q.rest = i :: rest)
      (hc : s.scans[i]? = some cand) (hg : s.globalM ≠ none) :
      Trans p s .loopCandidate { s with
        globalM := some ((s.scans.take (if i < q.rolling then i + 1 else i)).drop (if 0 < i then i - 1 else i)),
        loop := .matching { q with rest := rest } ⟨s.epoch, i⟩ }
  | loopAccept (score : Fl) (correction : Pose2d) (cov : Mat3) (q : Search) (cand : Ptr) (scan candidate : Scan)
      (hi : s.loop = .matching q cand) (hf : score.isFinite) (hs : score < s.typical)
      (h1 : (s.heap q.scan.epoch)[q.scan.idx]? = some scan) (h2 : (s.heap cand.epoch)[cand.idx]? = some candidate) :
      Trans p s (.loopMatched score correction cov) { s with
        heap := setPoseAt s.heap q.scan (addCorrection correction scan.getPose),
        loop := .pushing { q with round := { q.round with newMatches := true } }
          { makeConstraint candidate (scan.setPose (addCorrection correction scan.getPose)) cov with switchable := true } }
  | loopReject (score : Fl) (correction : Pose2d) (cov : Mat3) (q : Search) (cand : Ptr) (hi : s.loop = .matching q cand)
      (hs : ¬ (score.isFinite ∧ score < s.typical)) :
      Trans p s (.loopMatched score correction cov) (afterAttempt q s)
  | loopPush (q : Search) (c : Constraint) (hi : s.loop = .pushing q c) :
      Trans p s .loopPush (afterAttempt q { s with constraints := s.constraints ++ [c], update := true })
  | loopDecide (r : Round) (hi : s.loop = .deciding r) :
      Trans p s .loopDecide { s with loop := if shouldOptimise p r s then .optimising else .asleep }
  | loopOptimise (ceres : Solver → Solver.Outcome) (b : Bool) (solver : Solver) (scans : List Scan)
      (hi : s.loop = .optimising) (ho : s.solver.optimize ceres s.constraints s.scans = .ok (b, solver, scans)) :
      Trans p s (.loopOptimise ceres) { s with
        solver := solver, heap := fun e => if e = s.epoch then scans else s.heap e,
        optLast := scans.length, update := true, loop := .asleep }
  | pubCheck (hi : s.pub = .check) : Trans p s .pubCheck { s with pub := if s.update then .clear else .tf }
  | pubClear (hi : s.pub = .clear) : Trans p s .pubClear { s with update := false, pub := .grid }
  | pubGrid (grid : OccGrid) (msg : GridMsg) (hi : s.pub = .grid) (hg : s.grid.getMsg s.scans = .ok (grid, msg)) :
      Trans p s .pubGrid { s with grid := grid, lastGrid := some msg, pub := .graph }
  | pubGraph (msg : List Graph.Marker) (hi : s.pub = .graph) (hg : (s.graph p).getMsg [] = .ok msg) :
      Trans p s .pubGraph { s with lastMarkers := some msg, pub := .tf }
  | pubTf (hi : s.pub = .tf) : Trans p s .pubTf (pubTf s)

theorem bind_ok {α β : Type} {x : Res α} {f : α → Res β} {b : β} (h : (x >>= f) = .ok b) :
    ∃ a, x = .ok a ∧ f a = .ok b := by
  cases x with
  | error e => cases h
  | ok a => exact ⟨a, rfl, h⟩

theorem setup_scans (p : Params) (msg : LaserMsg) (mount : Option (Pose2d × Bool)) (s : Sys) :
    (laserSetup p msg mount s).1.scans = s.scans ∧ (laserSetup p msg mount s).1.initialized = s.initialized ∧
    (laserSetup p msg mount s).1.enable = s.enable ∧ (laserSetup p msg mount s).1.prevOdom = s.prevOdom ∧
    (laserSetup p msg mount s).1.prevRobot = s.prevRobot := by
  unfold laserSetup Sys.scans
  simp only
  split
  · simp
  · split <;> simp

/-- What the set-up can change. -/
theorem setup_cases (p : Params) (msg : LaserMsg) (mount : Option (Pose2d × Bool)) (s : Sys) :
    ∃ r l g m, (laserSetup p msg mount s).1 = { s with rangeMax := r, laser := l, globalM := g, localM := m } ∧
      (s.globalM ≠ none → g ≠ none) ∧ (s.localM ≠ none → m ≠ none) ∧
      (s.laser ≠ none → l = s.laser ∧ g = s.globalM ∧ m = s.localM) ∧
      ((laserSetup p msg mount s).2 = true → s.laser = none → l ≠ none ∧ g ≠ none ∧ m ≠ none) ∧
      ((laserSetup p msg mount s).2 = true → l ≠ none) ∧ (l ≠ none → s.laser ≠ none ∨ (g ≠ none ∧ m ≠ none)) := by
  cases hl : s.laser with
  | some l =>
    refine ⟨Laser.latchRangeMax s.rangeMax msg, s.laser, s.globalM, s.localM, ?_, fun h => h, fun h => h,
      fun _ => ⟨hl, rfl, rfl⟩, fun _ h => by simp at h, fun _ => by rw [hl]; simp, fun _ => Or.inl (by simp)⟩
    simp [laserSetup, hl]
  | none =>
    cases mount with
    | none =>
      refine ⟨Laser.latchRangeMax s.rangeMax msg, s.laser, s.globalM, s.localM, ?_, fun h => h, fun h => h,
        fun h => absurd rfl h, fun h => ?_, fun h => ?_, fun h => absurd hl h⟩
      · simp [laserSetup, hl]
      · simp [laserSetup, hl] at h
      · simp [laserSetup, hl] at h
    | some m =>
      refine ⟨Laser.latchRangeMax s.rangeMax msg, some m, some (if p.useFilter || !s.enable then s.scans else []), some [],
        ?_, fun _ => by simp, fun _ => by simp, fun h => absurd rfl h, fun _ _ => by simp, fun _ => by simp,
        fun _ => Or.inr (by simp)⟩
      simp [laserSetup, hl, Sys.scans]

theorem laser_trans (p : Params) (s s' : Sys) (msg : LaserMsg) (mount : Option (Pose2d × Bool))
    (odom odomEnd : Option Pose2d) (hi : s.spin = .idle) (h : laserCallback p msg mount odom odomEnd s = .ok s') :
    Trans p s (.laser msg mount odom odomEnd) s' := by
  obtain ⟨e1, e2, e3, e4, e5⟩ := setup_scans p msg mount s
  unfold laserCallback at h
  simp only at h
  split at h
  · cases h; exact .laserIgnored _ _ _ _ hi
  rename_i hgo
  split at h
  · cases h; exact .laserIgnored _ _ _ _ hi
  rename_i hinit
  split at h
  · cases h; exact .laserIgnored _ _ _ _ hi
  split at h
  · cases h; exact .laserIgnored _ _ _ _ hi
  rename_i odom ht
  split at h
  · cases h; exact .laserIgnored _ _ _ _ hi
  rename_i odomEnd
  split at h
  · cases h; exact .laserIgnored _ _ _ _ hi
  obtain ⟨fp, _, h⟩ := bind_ok h
  obtain ⟨points, _, h⟩ := bind_ok h
  have ht' : s.scans = [] ∨ ¬ tooLittle p s odom := by
    by_cases hs : s.scans = []
    · exact Or.inl hs
    · right
      intro htl
      apply ht
      rw [e1]
      refine ⟨hs, ?_⟩
      unfold tooLittle at *
      rw [e4]
      exact htl
  have key := Trans.laserScan (p := p) (s := s) msg mount odom odomEnd points hi (by simpa using hgo)
    (by rw [e2] at hinit; simpa using hinit) ht'
  injection h with h
  rw [← h]
  convert key using 2
  rw [e1, e3, e4, e5]
  rfl

theorem pose_trans (p : Params) (s s' : Sys) (m : PoseMsg) (odom : Option Pose2d) (visit : List ℕ) (hi : s.spin = .idle)
    (hv : Visits visit s.scans.length) (h : poseCallback p m odom visit s = .ok s') :
    Trans p s (.pose m odom visit) s' := by
  unfold poseCallback at h
  split at h
  · cases h; exact .stutter _
  rename_i hb
  split at h
  · cases h; exact .stutter _
  split at h
  · cases h; exact .stutter _
  rename_i odom
  split at h
  · rename_i hf
    cases h; exact .poseKept _ _ _ hi (Or.inr hf)
  rename_i hf
  split at h
  · rename_i he
    obtain ⟨nearest, hfind, h⟩ := bind_ok h
    split at h
    · cases h; exact .stutter _
    rename_i i rest
    split at h
    · cases h
    rename_i near hnear
    cases h
    refine .poseScan _ _ _ near i rest hi he ?_ (by simpa using hf) hnear hv hfind
    rw [he] at hb
    simpa using hb
  · rename_i he
    cases h; exact .poseKept _ _ _ hi (Or.inl (by simpa using he))

/-- Every step is one of the list. -/
theorem step_trans {p : Params} {s s' : Sys} {e : Event} (h : step p s e = .ok s') : Trans p s e s' := by
  cases e with
  | laser msg mount odom odomEnd =>
    unfold step at h
    simp only at h
    split at h
    · rename_i hi; exact laser_trans p s s' msg mount odom odomEnd hi h
    · cases h; exact .stutter _
  | filtered mean =>
    unfold step at h
    simp only at h
    split at h
    · rename_i hi
      split at h
      · cases h
      · cases h; exact .filtered _ _ _ hi
    · cases h; exact .stutter _
  | addWindow =>
    unfold step at h
    simp only at h
    split at h
    · rename_i scan odom hi
      have h' := h
      unfold addWindow at h'
      split at h'
      · cases h'
      rename_i hl
      split at h'
      · cases h'; exact .addWindow _ _ _ hi hl h
      split at h'
      · cases h'
      · cases h'; exact .addWindow _ _ _ hi hl h
    · cases h; exact .stutter _
  | localMatched score correction cov =>
    unfold step at h
    simp only at h
    split at h
    · rename_i scan odom hi
      unfold localMatched at h
      split at h
      · cases h
      · rename_i hb
        cases h; exact .localMatched _ _ _ _ _ _ hi hb
    · cases h; exact .stutter _
  | pushConstraint =>
    unfold step at h
    simp only at h
    split at h
    · rename_i hi
      cases h; exact .pushConstraint _ _ _ hi
    · cases h; exact .stutter _
  | pushScan =>
    unfold step at h
    simp only at h
    split at h
    · rename_i hi
      cases h; exact .pushScan _ _ hi
    · cases h; exact .stutter _
  | globalMatched correction =>
    unfold step at h
    simp only at h
    split at h
    · rename_i hi
      split at h
      · cases h
      · cases h; exact .globalMatched _ _ _ hi
    · cases h; exact .stutter _
  | finishScan =>
    unfold step at h
    simp only at h
    split at h
    · rename_i hi
      cases h; exact .finishScan _ _ hi
    · rename_i hi
      split at h
      · cases h
      · rename_i hs
        cases h; exact .announce _ _ _ hi hs
    · cases h; exact .stutter _
  | pose msg odom visit =>
    unfold step at h
    simp only at h
    split at h
    · rename_i hi
      split at h
      · rename_i hv; exact pose_trans p s s' msg odom visit hi hv h
      · cases h; exact .stutter _
    · cases h; exact .stutter _
  | setRobot =>
    unfold step at h
    simp only at h
    split at h
    · rename_i hi
      cases h; exact .setRobot _ _ hi
    · cases h; exact .stutter _
  | setOdom =>
    unfold step at h
    simp only at h
    split at h
    · rename_i hi
      cases h; exact .setOdom _ hi
    · cases h; exact .stutter _
  | configure action bag =>
    unfold step at h
    simp only at h
    split at h
    · rename_i hi
      unfold configure configureFile at h
      split at h
      · rename_i hl
        obtain ⟨g, hg, h⟩ := bind_ok h
        have e : (configureMapping action s).epoch = s.epoch ∧ (configureMapping action s).heap = s.heap := by
          unfold configureMapping; split_ifs <;> exact ⟨rfl, rfl⟩
        rw [e.1, e.2] at h
        cases h; exact .load _ _ _ hi hl hg
      · rename_i hl
        cases h; exact .configureFlags _ _ hi (by simpa using hl)
    · cases h; exact .stutter _
  | loopWake =>
    unfold step at h
    simp only at h
    split at h
    · rename_i hi
      by_cases he : s.enable = true
      · rw [if_pos he] at h
        cases h; exact .loopWake hi he
      · rw [if_neg he] at h
        cases h; exact .stutter _
    · cases h; exact .stutter _
  | loopCount =>
    unfold step at h
    simp only at h
    split at h
    · rename_i hi
      unfold loopCount at h
      split at h
      · rename_i hn; cases h; exact .loopShort hi hn
      · rename_i hn; cases h; exact .loopCount hi (by omega)
    · cases h; exact .stutter _
  | loopPick visit =>
    unfold step at h
    simp only at h
    split at h
    · rename_i r hi
      by_cases hn : s.processed < r.n
      · by_cases hv : Visits visit
              (if 0 < wrapI32 (s.processed - p.rollingDepth : ℕ) then (wrapI32 (s.processed - p.rollingDepth : ℕ)).toNat
                else s.scans.length)
        · rw [if_neg (fun h => h.2 hv)] at h
          unfold loopPick at h
          rw [if_pos hn] at h
          simp only at h
          cases hs : s.scans[s.processed]? with
          | none => rw [hs] at h; injection h
          | some scan =>
            rw [hs] at h
            obtain ⟨near, hf, h⟩ := bind_ok h
            injection h with h
            rw [← h]
            exact .loopPick visit r scan near hi hn hs hv hf
        · rw [if_pos ⟨hn, hv⟩] at h
          injection h with h
          rw [← h]; exact .stutter _
      · rw [if_neg (fun h => hn h.1)] at h
        unfold loopPick at h
        rw [if_neg hn] at h
        injection h with h
        rw [← h]; exact .loopLeave visit r hi (by omega)
    · injection h with h; rw [← h]; exact .stutter _
  | loopCandidate =>
    unfold step at h
    simp only at h
    split at h
    · rename_i q hi
      unfold loopCandidate at h
      cases hr : q.rest with
      | nil =>
        rw [hr] at h
        injection h with h
        rw [← h]; exact .loopNext q hi hr
      | cons i rest =>
        rw [hr] at h
        simp only at h
        cases hc : s.scans[i]? with
        | none => rw [hc] at h; injection h
        | some cand =>
          rw [hc] at h
          simp only at h
          by_cases hp : cand.getPoints = []
          · rw [if_pos hp] at h
            injection h with h
            rw [← h]; exact .loopSkip q i rest cand hi hr hc hp
          · rw [if_neg hp] at h
            by_cases hit : s.scans.length < (if i < q.rolling then i + 1 else i) ∨
                (if i < q.rolling then i + 1 else i) < (if 0 < i then i - 1 else i)
            · rw [if_pos hit] at h; injection h
            · rw [if_neg hit] at h
              cases hg : s.globalM with
              | none => rw [hg] at h; injection h
              | some w =>
                rw [hg] at h
                injection h with h
                rw [← h]; exact .loopCandidate q i rest cand hi hr hc (by rw [hg]; simp)
    · injection h with h; rw [← h]; exact .stutter _
  | loopMatched score correction cov =>
    unfold step at h
    simp only at h
    split at h
    · rename_i q cand hi
      unfold loopMatched at h
      by_cases hs : score.isFinite ∧ score < s.typical
      · rw [if_pos hs] at h
        split at h
        · rename_i scan candidate h1 h2
          injection h with h
          rw [← h]
          exact .loopAccept score correction cov q cand scan candidate hi hs.1 hs.2 h1 h2
        · injection h
      · rw [if_neg hs] at h
        injection h with h
        rw [← h]; exact .loopReject score correction cov q cand hi hs
    · injection h with h; rw [← h]; exact .stutter _
  | loopPush =>
    unfold step at h
    simp only at h
    split at h
    · rename_i hi
      injection h with h
      rw [← h]; exact .loopPush _ _ hi
    · injection h with h; rw [← h]; exact .stutter _
  | loopDecide =>
    unfold step at h
    simp only at h
    split at h
    · rename_i hi
      cases h; exact .loopDecide _ hi
    · cases h; exact .stutter _
  | loopOptimise ceres =>
    unfold step at h
    simp only at h
    split at h
    · rename_i hi
      unfold loopOptimise at h
      obtain ⟨⟨b, solver, scans⟩, ho, h⟩ := bind_ok h
      cases h; exact .loopOptimise _ b _ _ hi ho
    · cases h; exact .stutter _
  | pubCheck =>
    unfold step at h
    simp only at h
    split at h
    · rename_i hi
      cases h; exact .pubCheck hi
    · cases h; exact .stutter _
  | pubClear =>
    unfold step at h
    simp only at h
    split at h
    · rename_i hi
      cases h; exact .pubClear hi
    · cases h; exact .stutter _
  | pubGrid =>
    unfold step at h
    simp only at h
    split at h
    · rename_i hi
      unfold pubGrid at h
      obtain ⟨⟨grid, msg⟩, hg, h⟩ := bind_ok h
      cases h; exact .pubGrid _ _ hi hg
    · cases h; exact .stutter _
  | pubGraph =>
    unfold step at h
    simp only at h
    split at h
    · rename_i hi
      unfold pubGraph at h
      obtain ⟨msg, hg, h⟩ := bind_ok h
      cases h; exact .pubGraph _ hi hg
    · cases h; exact .stutter _
  | pubTf =>
    unfold step at h
    simp only at h
    split at h
    · rename_i hi
      cases h; exact .pubTf hi
    · cases h; exact .stutter _

end Mapper

end

end Ndt
