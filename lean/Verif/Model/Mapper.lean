import Verif.Model.Graph
import Verif.Model.Solver
import Verif.Model.OccupancyGrid
import Verif.Model.Laser
import Verif.Model.Angles

/-!
# The mapper node (include/ndt_2d/ndt_mapper.hpp, src/ndt_mapper.cpp)

Three threads share the state: the executor ("spin", which runs the callbacks one at a time), the loop closure thread
and the publishing thread. `step` performs one atomic piece of work of one thread: every critical section of a mutex is
one piece, and the code between two critical sections is cut wherever another thread could observe or change something
that matters. Memory is taken to be sequentially consistent (the code has data races, see DESIGN.md). What comes from
outside is part of the event: messages, results of transform lookups, results of the scan matcher plugin, the mean of
the particle filter, what Ceres proposes, and the order in which nanoflann visits points. An event of a thread that is
not at the matching place leaves the state alone.
-/

namespace Ndt

noncomputable section

/-- src/ndt_mapper.cpp:59-104 the parameters. `size_t` members are natural numbers. -/
structure Params where
  resolution : ℝ
  occThresh : ℝ
  minDist : ℝ
  minRot : ℝ
  rollingDepth : ℕ
  useBarycenter : Bool
  searchSize : ℝ
  searchLimit : ℕ
  nodeLimit : ℕ
  useFilter : Bool
  rangeMax : Fl

/-- A `ScanPtr`: which graph (every loaded file makes a new one) and which element (include/ndt_2d/scan.hpp:90). -/
structure Ptr where
  epoch : ℕ
  idx : ℕ

/-- Where the executor thread is (src/ndt_mapper.cpp:155-564). -/
inductive Spin where
  /-- between callbacks -/
  | idle
  /-- laserCallback at line 457 (particle filter) -/
  | filter (scan : Scan) (odom : Pose2d)
  /-- laserCallback at line 503 (mapping, the graph is not empty) -/
  | window (scan : Scan) (odom : Pose2d)
  /-- laserCallback at line 511, the rolling window is in the local matcher -/
  | matching (scan : Scan) (odom : Pose2d)
  /-- laserCallback at line 528, about to append the constraint -/
  | constraint (c : Constraint) (scan : Scan) (odom : Pose2d)
  /-- laserCallback at line 535, about to append the scan -/
  | append (scan : Scan) (odom : Pose2d)
  /-- laserCallback at line 549 (localisation) -/
  | localise (scan : Scan) (odom : Pose2d)
  /-- laserCallback at line 491 or 563: about to update the previous poses -/
  | finish (robot odom : Pose2d)
  /-- laserCallback at line 542: the scan is in the graph (other threads may move it); about to update the previous poses
  and to announce -/
  | announce (scan : Ptr) (odom : Pose2d)
  /-- poseCallback at line 259 -/
  | poseRobot (robot odom : Pose2d)
  /-- poseCallback at line 260 -/
  | poseOdom (odom : Pose2d)

/-- The local variables of an iteration of the loop closure thread: `num_scans` and `new_matches`
(src/ndt_mapper.cpp:571-685). -/
structure Round where
  n : ℕ
  newMatches : Bool

/-- The local variables while one scan is processed: `rolling`, `scan`, what is left of `scans`, and
`num_scans_to_check` (src/ndt_mapper.cpp:604-672). -/
structure Search where
  round : Round
  rolling : ℕ
  scan : Ptr
  rest : List ℕ
  left : ℕ

/-- Where the loop closure thread is (src/ndt_mapper.cpp:567-687). -/
inductive Loop where
  /-- line 573, or 576 -/
  | asleep
  /-- line 582 -/
  | counting
  /-- line 604 -/
  | picking (r : Round)
  /-- line 620 -/
  | candidates (q : Search)
  /-- line 640 -/
  | matching (q : Search) (cand : Ptr)
  /-- line 660 -/
  | pushing (q : Search) (c : Constraint)
  /-- line 676 -/
  | deciding (r : Round)
  /-- line 679 -/
  | optimising

/-- Where the publishing thread is (src/ndt_mapper.cpp:689-745). -/
inductive Pub where
  /-- line 691 -/
  | check
  /-- line 693 -/
  | clear
  /-- line 702 -/
  | grid
  /-- line 710 -/
  | graph
  /-- line 717 -/
  | tf

/-- include/ndt_2d/ndt_mapper.hpp:69-134 the members, the places of the threads and the last things published.
`graph_` is `heap epoch` (its scans, also reachable by pointers) and `constraints`. A scan matcher is null or the scans
added since its last reset. `laser` is `laser_transform_` and `laser_inverted_` once `laser_frame_` is set. The particle
filter has its own model and is an oracle here. -/
structure Sys where
  epoch : ℕ
  heap : ℕ → List Scan
  constraints : List Constraint
  enable : Bool
  initialized : Bool
  update : Bool
  prevOdom : Pose2d
  prevRobot : Pose2d
  typical : Fl
  rangeMax : Fl
  laser : Option (Pose2d × Bool)
  globalM : Option (List Scan)
  localM : Option (List Scan)
  processed : ℕ
  optLast : ℕ
  solver : Solver
  grid : OccGrid
  spin : Spin
  loop : Loop
  pub : Pub
  lastGrid : Option GridMsg
  lastMarkers : Option (List Graph.Marker)
  lastTf : Option Iso

/-- `graph_->scans` (include/ndt_2d/graph.hpp:79-82). -/
def Sys.scans (s : Sys) : List Scan := s.heap s.epoch

/-- `*graph_` (include/ndt_2d/graph.hpp:79-82). -/
def Sys.graph (p : Params) (s : Sys) : Graph := ⟨p.useBarycenter, s.scans, s.constraints⟩

/-- geometry_msgs PoseWithCovarianceStamped: whether the frame is "map", the pose (as `fromMsg` returns it), and the
covariance entries 0, 7 and 35 (src/ndt_mapper.cpp:188-256). -/
structure PoseMsg where
  inMap : Bool
  pose : Pose2d
  covX : ℝ
  covY : ℝ
  covTheta : ℝ

/-- What can happen next (src/ndt_mapper.cpp:155-745). -/
inductive Event where
  | laser (msg : LaserMsg) (mount : Option (Pose2d × Bool)) (odom odomEnd : Option Pose2d)
  | filtered (mean : Pose2d)
  | addWindow
  | localMatched (score : Fl) (correction : Pose2d) (cov : Mat3)
  | pushConstraint
  | pushScan
  | globalMatched (correction : Pose2d)
  | finishScan
  | pose (msg : PoseMsg) (odom : Option Pose2d) (visit : List ℕ)
  | setRobot
  | setOdom
  | configure (action : BitVec 32) (bag : List BagMsg)
  | loopWake
  | loopCount
  | loopPick (visit : List ℕ)
  | loopCandidate
  | loopMatched (score : Fl) (correction : Pose2d) (cov : Mat3)
  | loopPush
  | loopDecide
  | loopOptimise (ceres : Solver → Solver.Outcome)
  | pubCheck
  | pubClear
  | pubGrid
  | pubGraph
  | pubTf

namespace Mapper

/-- src/ndt_mapper.cpp:48-143 constructor: the state with the given graph, `loaded` from a file or not. -/
def startWith (p : Params) (enable loaded : Bool) (g : Graph) : Sys :=
  ⟨0, fun e => if e = 0 then g.scans else [], g.constraints, enable, !loaded, loaded, Pose2d.zero, Pose2d.zero, .fin (-0.5),
    p.rangeMax, none, none, none, 0, 0, Solver.new, OccGrid.new p.resolution p.occThresh, .idle, .asleep, .check, none, none,
    none⟩

/-- src/ndt_mapper.cpp:106-116 `file` is the content of `map_file` if that is given. -/
def start (p : Params) (enable : Bool) (file : Option (List BagMsg)) : Res Sys :=
  match file with
  | none => .ok (startWith p enable false (Graph.new p.useBarycenter))
  | some bag => do
      let g ← Graph.load p.useBarycenter bag
      .ok (startWith p enable true g)

/-- src/ndt_mapper.cpp:159-170: the first half of `configure`. -/
def configureMapping (action : BitVec 32) (s : Sys) : Sys :=
  if action &&& 1#32 ≠ 0#32 then { s with enable := true }
  else if action &&& 2#32 ≠ 0#32 then { s with enable := false, initialized := false }
  else s

/-- src/ndt_mapper.cpp:172-185: the second half. Saving writes a file and changes nothing here. -/
def configureFile (p : Params) (action : BitVec 32) (bag : List BagMsg) (s : Sys) : Res Sys :=
  if action &&& 4#32 ≠ 0#32 then do
    let g ← Graph.load p.useBarycenter bag
    .ok { s with epoch := s.epoch + 1, heap := fun e => if e = s.epoch + 1 then g.scans else s.heap e,
                 constraints := g.constraints, update := true, initialized := false }
  else .ok s

/-- src/ndt_mapper.cpp:155-186 `configure`. -/
def configure (p : Params) (action : BitVec 32) (bag : List BagMsg) (s : Sys) : Res Sys :=
  configureFile p action bag (configureMapping action s)

/-- src/ndt_mapper.cpp:250-253: the covariance of a given pose. -/
def poseCovariance (m : PoseMsg) : Mat3 := fun i j =>
  if i = j then .fin (![m.covX, m.covY, m.covTheta] i) else .fin 0

/-- src/ndt_mapper.cpp:188-256 `poseCallback` up to the update of the poses. -/
def poseCallback (p : Params) (m : PoseMsg) (odom : Option Pose2d) (visit : List ℕ) (s : Sys) : Res Sys :=
  if s.enable && s.initialized then .ok s
  else if !m.inMap then .ok s
  else match odom with
    | none => .ok s
    | some odom =>
        if p.useFilter then .ok { s with spin := .poseRobot m.pose odom }
        else if s.enable then do
          let scan := (Scan.new s.scans.length).setPose m.pose
          let nearest ← (s.graph p).findNearest visit scan 10 (-1)
          match nearest with
          | [] => .ok s
          | i :: _ => match s.scans[i]? with
            | none => .error .outOfBounds
            | some near =>
                .ok { s with heap := fun e => if e = s.epoch then s.scans ++ [scan] else s.heap e,
                             constraints := s.constraints ++ [makeConstraint near scan (poseCovariance m)],
                             spin := .poseRobot m.pose odom }
        else .ok { s with spin := .poseRobot m.pose odom }

/-- src/ndt_mapper.cpp:270-313: the first part of `laserCallback`; false if it returns at line 291. -/
def laserSetup (p : Params) (msg : LaserMsg) (mount : Option (Pose2d × Bool)) (s : Sys) : Sys × Bool :=
  let r := Laser.latchRangeMax s.rangeMax msg
  match s.laser with
  | some _ => ({ s with rangeMax := r }, true)
  | none => match mount with
    | none => ({ s with rangeMax := r }, false)
    | some m =>
        ({ s with rangeMax := r, laser := some m,
                  globalM := some (if p.useFilter || !s.enable then s.scans else []), localM := some [] }, true)

/-- src/ndt_mapper.cpp:347-352: whether the robot has moved too little. -/
def tooLittle (p : Params) (s : Sys) (odom : Pose2d) : Prop :=
  let dx := odom.x - s.prevOdom.x
  let dy := odom.y - s.prevOdom.y
  dx * dx + dy * dy < p.minDist * p.minDist ∧ |shortestAngularDistance s.prevOdom.theta odom.theta| < p.minRot

instance (p : Params) (s : Sys) (odom : Pose2d) : Decidable (tooLittle p s odom) := Classical.propDecidable _

/-- src/ndt_mapper.cpp:347-349, 357-363: the pose predicted by odometry. -/
def predict (prevOdom prevRobot odom : Pose2d) : Pose2d :=
  let dx := odom.x - prevOdom.x
  let dy := odom.y - prevOdom.y
  let dth := shortestAngularDistance prevOdom.theta odom.theta
  let heading := shortestAngularDistance prevOdom.theta prevRobot.theta
  ⟨prevRobot.x + dx * Real.cos heading - dy * Real.sin heading,
   prevRobot.y + dx * Real.sin heading + dy * Real.cos heading,
   normalizeAngle (prevRobot.theta + dth)⟩

/-- Points whose coordinates are numbers; others are outside of this model (see Model/Laser for the conversion itself)
(src/ndt_mapper.cpp:453). -/
def finitePoints : List FPoint → Res (List Point)
  | [] => .ok []
  | (.fin x, .fin y) :: ps => do
      let ps ← finitePoints ps
      .ok (⟨x, y⟩ :: ps)
  | _ => .error .unmodelled

/-- src/ndt_mapper.cpp:267-455 `laserCallback` up to the three branches. -/
def laserCallback (p : Params) (msg : LaserMsg) (mount : Option (Pose2d × Bool)) (odom odomEnd : Option Pose2d)
    (s : Sys) : Res Sys :=
  let r := laserSetup p msg mount s
  let s := r.1
  if !r.2 then .ok s
  else if !s.initialized then .ok s
  else match odom with
    | none => .ok s
    | some odom =>
        if s.scans ≠ [] ∧ tooLittle p s odom then .ok s
        else match odomEnd with
          | none => .ok s
          | some odomEnd => match s.laser with
            | none => .ok s
            | some (transform, inverted) => do
              let points ← Laser.points msg s.rangeMax inverted transform odom odomEnd
              let points ← finitePoints points
              let pose := if s.scans = [] then Pose2d.zero else predict s.prevOdom s.prevRobot odom
              let scan := ((Scan.new s.scans.length).setPose pose).setPoints points
              .ok { s with spin :=
                if p.useFilter then .filter scan odom
                else if s.enable then (if s.scans = [] then .append scan odom else .window scan odom)
                else .localise scan odom }

/-- src/ndt_mapper.cpp:503-509: fill the local matcher with the rolling window. The constant 10 is the code's;
`size() - 10` may wrap, and the iterator then leaves the vector. -/
def addWindow (p : Params) (scan : Scan) (odom : Pose2d) (s : Sys) : Res Sys :=
  if s.localM = none then .error .nullPointer
  else if s.scans.length ≤ p.rollingDepth then .ok { s with localM := some s.scans, spin := .matching scan odom }
  else if s.scans.length < 10 then .error .iterator
  else .ok { s with localM := some (s.scans.drop (s.scans.length - 10)), spin := .matching scan odom }

/-- src/ndt_mapper.cpp:521-524, 558-561, 652-655: the corrected pose. -/
def addCorrection (correction pose : Pose2d) : Pose2d :=
  ⟨correction.x + pose.x, correction.y + pose.y, correction.theta + pose.theta⟩

/-- src/ndt_mapper.cpp:518 the typical response. -/
def typicalResponse (typical score : Fl) : Fl := .fin 0.95 * typical + .fin 0.05 * score

/-- src/ndt_mapper.cpp:511-527: local match, with the results of the matcher. -/
def localMatched (score : Fl) (correction : Pose2d) (cov : Mat3) (scan : Scan) (odom : Pose2d) (s : Sys) : Res Sys :=
  match s.scans.getLast? with
  | none => .error .outOfBounds
  | some back =>
      let scan := scan.setPose (addCorrection correction scan.getPose)
      .ok { s with typical := typicalResponse s.typical score, spin := .constraint (makeConstraint back scan cov) scan odom }

/-- src/ndt_mapper.cpp:581-598. -/
def loopCount (p : Params) (s : Sys) : Sys :=
  if s.scans.length ≤ p.rollingDepth then { s with loop := .asleep }
  else { s with processed := if s.processed ≤ p.rollingDepth then p.rollingDepth + 1 else s.processed,
                loop := .picking ⟨s.scans.length, false⟩ }

/-- src/ndt_mapper.cpp:601-619: take the next scan and its neighbours, or leave the loop. The limit is converted from
`size_t` to `int`. -/
def loopPick (p : Params) (visit : List ℕ) (r : Round) (s : Sys) : Res Sys :=
  if s.processed < r.n then
    let rolling := s.processed - p.rollingDepth
    match s.scans[s.processed]? with
    | none => .error .outOfBounds
    | some scan => do
        let near ← (s.graph p).findNearest visit scan p.searchSize (wrapI32 rolling)
        .ok { s with loop := .candidates ⟨r, rolling, ⟨s.epoch, s.processed⟩, near, p.searchLimit⟩ }
  else .ok { s with loop := .deciding r }

/-- The round of the loop at line 604 ends (src/ndt_mapper.cpp:604-672). -/
def nextScan (r : Round) (s : Sys) : Sys := { s with processed := s.processed + 1, loop := .picking r }

/-- src/ndt_mapper.cpp:670: `if (--num_scans_to_check == 0) break;`, wrapping around below zero. -/
def afterAttempt (q : Search) (s : Sys) : Sys :=
  if (q.left + (2 ^ 64 - 1)) % 2 ^ 64 = 0 then nextScan q.round s
  else { s with loop := .candidates { q with left := (q.left + (2 ^ 64 - 1)) % 2 ^ 64 } }

/-- src/ndt_mapper.cpp:620-638: look at the next candidate and build its map. -/
def loopCandidate (q : Search) (s : Sys) : Res Sys :=
  match q.rest with
  | [] => .ok (nextScan q.round s)
  | i :: rest =>
      match s.scans[i]? with
      | none => .error .outOfBounds
      | some cand =>
          if cand.getPoints = [] then .ok { s with loop := .candidates { q with rest := rest } }
          else
            let begin_ := if 0 < i then i - 1 else i
            let end_ := if i < q.rolling then i + 1 else i
            if s.scans.length < end_ ∨ end_ < begin_ then .error .iterator
            else match s.globalM with
              | none => .error .nullPointer
              | some _ =>
                  .ok { s with globalM := some ((s.scans.take end_).drop begin_),
                               loop := .matching { q with rest := rest } ⟨s.epoch, i⟩ }

/-- `scan->setPose` through a pointer (src/ndt_mapper.cpp:655). -/
def setPoseAt (heap : ℕ → List Scan) (a : Ptr) (pose : Pose2d) : ℕ → List Scan := fun e =>
  if e = a.epoch then (heap e).modify a.idx fun s => s.setPose pose else heap e

/-- src/ndt_mapper.cpp:640-668: match, and correct the scan and make a constraint if accepted. -/
def loopMatched (score : Fl) (correction : Pose2d) (cov : Mat3) (q : Search) (cand : Ptr) (s : Sys) : Res Sys :=
  if score.isFinite ∧ score < s.typical then
    match (s.heap q.scan.epoch)[q.scan.idx]?, (s.heap cand.epoch)[cand.idx]? with
    | some scan, some candidate =>
        let pose := addCorrection correction scan.getPose
        .ok { s with heap := setPoseAt s.heap q.scan pose,
                     loop := .pushing { q with round := { q.round with newMatches := true } }
                       { makeConstraint candidate (scan.setPose pose) cov with switchable := true } }
    | _, _ => .error .nullPointer
  else .ok (afterAttempt q s)

/-- src/ndt_mapper.cpp:676: whether to optimise; the subtraction is one of `size_t`. -/
def shouldOptimise (p : Params) (r : Round) (s : Sys) : Prop :=
  r.newMatches ∧ p.nodeLimit < (((r.n : ℤ) - s.optLast) % 2 ^ 64).toNat

instance (p : Params) (r : Round) (s : Sys) : Decidable (shouldOptimise p r s) := Classical.propDecidable _

/-- src/ndt_mapper.cpp:679-682. -/
def loopOptimise (ceres : Solver → Solver.Outcome) (s : Sys) : Res Sys := do
  let (_, solver, scans) ← s.solver.optimize ceres s.constraints s.scans
  .ok { s with solver := solver, heap := fun e => if e = s.epoch then scans else s.heap e, optLast := scans.length,
               update := true, loop := .asleep }

/-- src/ndt_mapper.cpp:696-705. -/
def pubGrid (s : Sys) : Res Sys := do
  let (grid, msg) ← s.grid.getMsg s.scans
  .ok { s with grid := grid, lastGrid := some msg, pub := .graph }

/-- src/ndt_mapper.cpp:708-713. -/
def pubGraph (p : Params) (s : Sys) : Res Sys := do
  let msg ← (s.graph p).getMsg []
  .ok { s with lastMarkers := some msg, pub := .tf }

/-- src/ndt_mapper.cpp:722-732: the transform from map to odometry. -/
def mapToOdom (prevRobot prevOdom : Pose2d) : Iso := (toEigen prevRobot).mul (toEigen prevOdom).inverse

/-- src/ndt_mapper.cpp:716-742. -/
def pubTf (s : Sys) : Sys :=
  if s.scans = [] then { s with pub := .check }
  else { s with lastTf := some (mapToOdom s.prevRobot s.prevOdom), pub := .check }

/-- Whether the order of visiting points is one of all points below the limit (src/graph.cpp:167-189). -/
def Visits (visit : List ℕ) (n : ℕ) : Prop := visit.Perm (List.range n)

instance (visit : List ℕ) (n : ℕ) : Decidable (Visits visit n) := Classical.propDecidable _

/-- One atomic piece of work (src/ndt_mapper.cpp:155-745). -/
def step (p : Params) (s : Sys) : Event → Res Sys
  | .laser msg mount odom odomEnd => match s.spin with
      | .idle => laserCallback p msg mount odom odomEnd s
      | _ => .ok s
  | .filtered mean => match s.spin with
      -- src/ndt_mapper.cpp:457-489; the matcher the filter uses was made at line 299
      | .filter _ odom => if s.globalM = none then .error .nullPointer else .ok { s with spin := .finish mean odom }
      | _ => .ok s
  | .addWindow => match s.spin with
      | .window scan odom => addWindow p scan odom s
      | _ => .ok s
  | .localMatched score correction cov => match s.spin with
      | .matching scan odom => localMatched score correction cov scan odom s
      | _ => .ok s
  | .pushConstraint => match s.spin with
      -- src/ndt_mapper.cpp:528-529
      | .constraint c scan odom => .ok { s with constraints := s.constraints ++ [c], spin := .append scan odom }
      | _ => .ok s
  | .pushScan => match s.spin with
      -- src/ndt_mapper.cpp:536-539
      | .append scan odom => .ok { s with heap := fun e => if e = s.epoch then s.scans ++ [scan] else s.heap e,
                                          spin := .announce ⟨s.epoch, s.scans.length⟩ odom }
      | _ => .ok s
  | .globalMatched correction => match s.spin with
      -- src/ndt_mapper.cpp:549-561
      | .localise scan odom =>
          if s.globalM = none then .error .nullPointer
          else .ok { s with spin := .finish (addCorrection correction scan.getPose) odom }
      | _ => .ok s
  | .finishScan => match s.spin with
      -- src/ndt_mapper.cpp:491-493, 542-545, 563-565
      | .finish robot odom => .ok { s with prevOdom := odom, prevRobot := robot, spin := .idle }
      | .announce a odom => match (s.heap a.epoch)[a.idx]? with
          | none => .error .nullPointer
          | some scan => .ok { s with prevOdom := odom, prevRobot := scan.getPose, update := true, spin := .idle }
      | _ => .ok s
  | .pose msg odom visit => match s.spin with
      | .idle => if Visits visit s.scans.length then poseCallback p msg odom visit s else .ok s
      | _ => .ok s
  | .setRobot => match s.spin with
      -- src/ndt_mapper.cpp:259, no lock
      | .poseRobot robot odom => .ok { s with prevRobot := robot, spin := .poseOdom odom }
      | _ => .ok s
  | .setOdom => match s.spin with
      -- src/ndt_mapper.cpp:260-261, no lock
      | .poseOdom odom => .ok { s with prevOdom := odom, initialized := true, spin := .idle }
      | _ => .ok s
  | .configure action bag => match s.spin with
      | .idle => configure p action bag s
      | _ => .ok s
  | .loopWake => match s.loop with
      -- src/ndt_mapper.cpp:573-579
      | .asleep => .ok (if s.enable then { s with loop := .counting } else s)
      | _ => .ok s
  | .loopCount => match s.loop with
      | .counting => .ok (loopCount p s)
      | _ => .ok s
  | .loopPick visit => match s.loop with
      | .picking r =>
          if s.processed < r.n ∧ ¬ Visits visit
              (if 0 < wrapI32 (s.processed - p.rollingDepth : ℕ) then (wrapI32 (s.processed - p.rollingDepth : ℕ)).toNat
                else s.scans.length) then .ok s
          else loopPick p visit r s
      | _ => .ok s
  | .loopCandidate => match s.loop with
      | .candidates q => loopCandidate q s
      | _ => .ok s
  | .loopMatched score correction cov => match s.loop with
      | .matching q cand => loopMatched score correction cov q cand s
      | _ => .ok s
  | .loopPush => match s.loop with
      -- src/ndt_mapper.cpp:660-662, 670
      | .pushing q c => .ok (afterAttempt q { s with constraints := s.constraints ++ [c], update := true })
      | _ => .ok s
  | .loopDecide => match s.loop with
      | .deciding r => .ok { s with loop := if shouldOptimise p r s then .optimising else .asleep }
      | _ => .ok s
  | .loopOptimise ceres => match s.loop with
      | .optimising => loopOptimise ceres s
      | _ => .ok s
  | .pubCheck => match s.pub with
      -- src/ndt_mapper.cpp:691
      | .check => .ok { s with pub := if s.update then .clear else .tf }
      | _ => .ok s
  | .pubClear => match s.pub with
      -- src/ndt_mapper.cpp:693
      | .clear => .ok { s with update := false, pub := .grid }
      | _ => .ok s
  | .pubGrid => match s.pub with
      | .grid => pubGrid s
      | _ => .ok s
  | .pubGraph => match s.pub with
      | .graph => pubGraph p s
      | _ => .ok s
  | .pubTf => match s.pub with
      | .tf => .ok (pubTf s)
      | _ => .ok s

/-- A sequence of events (src/ndt_mapper.cpp:155-745). -/
def run (p : Params) (s : Sys) (es : List Event) : Res Sys := es.foldlM (step p) s

end Mapper

end

end Ndt
