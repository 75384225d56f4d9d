import Verif.Model.Mapper
import Verif.Model.Matcher
import Verif.Model.Filter

/-!
# The node with its parts (src/ndt_mapper.cpp with src/scan_matcher_ndt.cpp and src/particle_filter.cpp)

`Model/Mapper` takes the results of the scan matcher plugin and of the particle filter from outside. Here they are
computed: the plugin is `ndt_2d::ScanMatcherNDT`, the default of `scan_matcher_type` (src/ndt_mapper.cpp:91-92). What is left
outside are messages, transforms, random draws, Ceres, the order in which nanoflann visits points, the scheduler, and the
content of the uninitialised `covariance` variables.
-/

namespace Ndt

noncomputable section

/-- src/ndt_mapper.cpp:59-104, src/scan_matcher_ndt.cpp:37-44: all parameters. Of `localCfg` and `globalCfg` only the
parameters count; range and map are set when the matcher is made. -/
structure NodeParams where
  map : Params
  localCfg : Matcher
  globalCfg : Matcher
  motion : MotionModel
  minP : ℕ
  maxP : ℕ
  kldErr : ℝ
  kldZ : ℝ

/-- The mapper, `global_scan_matcher_`, `local_scan_matcher_` and `filter_` (include/ndt_2d/ndt_mapper.hpp:69-134). -/
structure Node where
  sys : Sys
  globalN : Option Matcher
  localN : Option Matcher
  filter : Option Filter

/-- What can happen next. `junk` is what the uninitialised `covariance` holds, `nrm` and `draw` are random draws
(src/ndt_mapper.cpp:155-745). -/
inductive Input where
  /-- what does not concern the matchers' results nor the filter -/
  | plain (e : Event)
  | localMatch (junk : Mat3F)
  | globalMatch (junk : Mat3F)
  | loopMatch (junk : Mat3F)
  | filterScan (nrm : MotionModel.Draws) (draw : ℕ → ℕ)
  | pose (msg : PoseMsg) (odom : Option Pose2d) (visit : List ℕ) (nrm : MotionModel.Draws)

namespace Node

/-- src/ndt_mapper.cpp:48-143 constructor. -/
def start (np : NodeParams) (enable : Bool) (file : Option (List BagMsg)) : Res Node := do
  let s ← Mapper.start np.map enable file
  if np.map.useFilter then do
    let f ← Filter.new np.motion np.minP np.maxP
    .ok ⟨s, none, none, some f⟩
  else .ok ⟨s, none, none, none⟩

/-- src/scan_matcher_ndt.cpp:35-47 `initialize` with a range that is a number (others are outside of this model). -/
def initMatcher (cfg : Matcher) (range : Fl) : Res Matcher :=
  match range with
  | .fin r => .ok { cfg with rangeMax := r, ndt := none }
  | _ => .error .unmodelled

/-- src/ndt_mapper.cpp:296-313: whether a laser message is the first whose frame could be looked up. -/
def makesMatchers (n : Node) (mount : Option (Pose2d × Bool)) : Prop :=
  n.sys.spin = .idle ∧ n.sys.laser = none ∧ mount ≠ none

instance (n : Node) (mount : Option (Pose2d × Bool)) : Decidable (n.makesMatchers mount) := Classical.propDecidable _

/-- src/ndt_mapper.cpp:296-313 the matchers are made; when localising, all scans go into the global one. -/
def makeMatchers (np : NodeParams) (n : Node) (msg : LaserMsg) : Res Node := do
  let range := Laser.latchRangeMax n.sys.rangeMax msg
  let g ← initMatcher np.globalCfg range
  let g ← (if np.map.useFilter || !n.sys.enable then g.addScans n.sys.scans else .ok g : Res Matcher)
  let l ← initMatcher np.localCfg range
  .ok { n with globalN := some g, localN := some l }

/-- src/ndt_mapper.cpp:457-468: the motion since the last scan, in the frame of the robot. -/
def control (prevRobot pose : Pose2d) : Pose2d :=
  let dx := pose.x - prevRobot.x
  let dy := pose.y - prevRobot.y
  ⟨Real.cos prevRobot.theta * dx + Real.sin prevRobot.theta * dy,
   -Real.sin prevRobot.theta * dx + Real.cos prevRobot.theta * dy,
   shortestAngularDistance prevRobot.theta pose.theta⟩

/-- src/ndt_mapper.cpp:477-478: the mean of the filter as a pose; one that is not a number is outside of this model. -/
def meanPose (f : Filter) : Res Pose2d :=
  match f.getMean 0, f.getMean 1, f.getMean 2 with
  | .fin x, .fin y, .fin t => .ok ⟨x, y, t⟩
  | _, _, _ => .error .unmodelled

/-- src/ndt_mapper.cpp:190-215: whether a pose message gets as far as the filter. -/
def initsFilter (np : NodeParams) (n : Node) (m : PoseMsg) (odom : Option Pose2d) (visit : List ℕ) : Prop :=
  n.sys.spin = .idle ∧ Mapper.Visits visit n.sys.scans.length ∧ (n.sys.enable && n.sys.initialized) = false ∧
    m.inMap = true ∧ odom ≠ none ∧ np.map.useFilter = true

instance (np : NodeParams) (n : Node) (m : PoseMsg) (odom : Option Pose2d) (visit : List ℕ) :
    Decidable (initsFilter np n m odom visit) := Classical.propDecidable _

/-- A step of the mapper itself (src/ndt_mapper.cpp:155-745). -/
def mapper (np : NodeParams) (n : Node) (e : Event) : Res Node := do
  let s ← Mapper.step np.map n.sys e
  .ok { n with sys := s }

/-- One atomic piece of work (src/ndt_mapper.cpp:155-745). -/
def step (np : NodeParams) (n : Node) : Input → Res Node
  | .plain e => match e with
      | .laser msg mount odom odomEnd =>
          if n.makesMatchers mount then do
            let n' ← makeMatchers np n msg
            n'.mapper np (.laser msg mount odom odomEnd)
          else n.mapper np (.laser msg mount odom odomEnd)
      | .addWindow => match n.sys.spin with
          -- src/ndt_mapper.cpp:503-509
          | .window .. => do
              let s ← Mapper.step np.map n.sys .addWindow
              match n.localN, s.localM with
              | some l, some w => do
                  let l ← l.reset.addScans w
                  .ok { n with sys := s, localN := some l }
              | _, _ => .error .nullPointer
          | _ => .ok n
      | .loopCandidate => do
          -- src/ndt_mapper.cpp:620-638
          let s ← Mapper.step np.map n.sys .loopCandidate
          match n.sys.loop, s.loop with
          | .candidates _, .matching .. => match n.globalN, s.globalM with
              | some g, some w => do
                  let g ← g.reset.addScans w
                  .ok { n with sys := s, globalN := some g }
              | _, _ => .error .nullPointer
          | _, _ => .ok { n with sys := s }
      | .localMatched .. | .globalMatched .. | .loopMatched .. | .filtered .. | .pose .. => .ok n
      | e => n.mapper np e
  | .localMatch junk => match n.sys.spin with
      -- src/ndt_mapper.cpp:511-515
      | .matching scan _ => match n.localN with
          | some l => do
              let _ ← l.scoreScan scan
              let r ← l.matchScan scan Pose2d.zero junk
              n.mapper np (.localMatched r.score r.pose r.covariance)
          | none => .error .nullPointer
      | _ => .ok n
  | .globalMatch junk => match n.sys.spin with
      -- src/ndt_mapper.cpp:549-553
      | .localise scan _ => match n.globalN with
          | some g => do
              let _ ← g.scoreScan scan
              let r ← g.matchScan scan Pose2d.zero junk
              n.mapper np (.globalMatched r.pose)
          | none => .error .nullPointer
      | _ => .ok n
  | .loopMatch junk => match n.sys.loop with
      -- src/ndt_mapper.cpp:640-643
      | .matching q _ => match n.globalN, (n.sys.heap q.scan.epoch)[q.scan.idx]? with
          | some g, some scan => do
              let r ← g.matchScan scan Pose2d.zero junk
              n.mapper np (.loopMatched r.score r.pose r.covariance)
          | _, _ => .error .nullPointer
      | _ => .ok n
  | .filterScan nrm draw => match n.sys.spin with
      -- src/ndt_mapper.cpp:457-479
      | .filter scan _ => match n.filter, n.globalN with
          | some f, some g =>
            let d := control n.sys.prevRobot scan.getPose
            -- noise with a negative variance is not modelled here (see `FilterF` and C105)
            if f.motion.NegativeNoise d then .error .unmodelled else do
              let f ← f.update nrm d.x d.y d.theta
              let f ← f.measure fun p => g.scorePoints scan.getPoints p
              let f ← f.resample np.kldErr np.kldZ draw
              let mean ← meanPose f
              let n' ← n.mapper np (.filtered mean)
              .ok { n' with filter := some f }
          | _, _ => .error .nullPointer
      | _ => .ok n
  | .pose msg odom visit nrm =>
      -- src/ndt_mapper.cpp:188-256; negative variances are not modelled here (see `FilterF` and C105)
      if initsFilter np n msg odom visit then
        match n.filter with
        | some f =>
          if msg.covX < 0 ∨ msg.covY < 0 ∨ msg.covTheta < 0 then .error .unmodelled else do
            let f ← f.init nrm msg.pose.x msg.pose.y msg.pose.theta (Real.sqrt msg.covX) (Real.sqrt msg.covY)
              (Real.sqrt msg.covTheta)
            let n' ← n.mapper np (.pose msg odom visit)
            .ok { n' with filter := some f }
        | none => .error .nullPointer
      else n.mapper np (.pose msg odom visit)

/-- A sequence of inputs (src/ndt_mapper.cpp:155-745). -/
def run (np : NodeParams) (n : Node) (is : List Input) : Res Node := is.foldlM (step np) n

end Node

end

end Ndt
