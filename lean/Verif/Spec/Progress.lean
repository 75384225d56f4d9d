import Verif.Spec.Node
import Verif.Spec.Filter

/-! # Ordinary operation: a robot that maps or localises within bounds -/

namespace Ndt.Spec

noncomputable section

/-- Bounds on a run: how far from the origin scans are, how far from the robot measured points are, and the range the
matchers are given. -/
structure Bounds where
  place : ℝ
  reach : ℝ
  range : ℝ

/-- The scan is within the bounds. -/
def ScanIn (b : Bounds) (s : Scan) : Prop :=
  |s.pose.x| ≤ b.place ∧ |s.pose.y| ≤ b.place ∧ s.points.length < 2 ^ 64 ∧ ∀ q ∈ s.points, q.x ^ 2 + q.y ^ 2 ≤ b.reach ^ 2

/-- The scan the executor is working on with a matcher. -/
def WorksOn : Spin → Scan → Prop
  | .window s _, t | .matching s _, t | .localise s _, t | .filter s _, t => s = t
  | _, _ => False

/-- The node is within the bounds. -/
structure InBounds (b : Bounds) (n : Node) : Prop where
  scans : ∀ s ∈ n.sys.scans, ScanIn b s
  current : ∀ s, WorksOn n.sys.spin s → ScanIn b s
  range : ∀ m, n.globalN = some m ∨ n.localN = some m → 0 ≤ m.rangeMax ∧ m.rangeMax ≤ b.range
  fewScans : n.sys.scans.length < 2 ^ 31
  fewConstraints : n.sys.constraints.length < 2 ^ 31

/-- With these parameters a matcher's searches end, and its maps have at most 2^31 cells. -/
structure Fits (b : Bounds) (cfg : Matcher) : Prop where
  res : 0 < cfg.resolution
  linear : 0 < cfg.linearRes
  angular : 0 < cfg.angularRes
  cells : (2 * (b.place + b.range) / cfg.resolution + 1) ^ 2 ≤ 2 ^ 31
  near : 2 * b.place + b.range + b.reach + |cfg.linearSize| < 2 ^ 32 * cfg.resolution

/-- Parameters for mapping within the bounds: no particle filter, and a rolling window of at least the ten scans the code
takes. -/
structure Suits (b : Bounds) (np : NodeParams) : Prop where
  place : 1 ≤ b.place
  reach : 0 ≤ b.reach
  glob : Fits b np.globalCfg
  loc : Fits b np.localCfg
  depth : 10 ≤ np.map.rollingDepth
  noFilter : np.map.useFilter = false

/-- The executor is between adding a constraint and adding its scan. -/
def Between (s : Spin) : Prop := ∃ scan odom, s = .append scan odom

/-- A laser message that can be read: ranges are not minus infinity, the limit of the range is a number, and an upside-down
laser has measured something. -/
def Readable (n : Node) (msg : LaserMsg) (mount : Option (Pose2d × Bool)) : Prop :=
  (∀ r ∈ msg.ranges, r ≠ .ninf) ∧ (∃ r, Laser.latchRangeMax n.sys.rangeMax msg = .fin r) ∧
  ((∃ pose, n.sys.laser = some (pose, true) ∨ mount = some (pose, true)) → msg.ranges ≠ [])

/-- Inputs of ordinary operation: no map is loaded, laser messages can be read and the first comes while mapping is enabled,
the grid that is published can be drawn, and what goes through all constraints is not done between adding a constraint and
adding its scan. -/
def Ordinary (n : Node) : Input → Prop
  | .plain (.laser msg mount _ _) => Readable n msg mount ∧ (n.sys.laser = none → n.sys.enable = true)
  | .plain (.configure action _) => action &&& 4#32 = 0#32
  | .plain .pubGrid => ∃ out, n.sys.grid.getMsg n.sys.scans = .ok out
  | .plain .pubGraph => ¬ Between n.sys.spin
  | .plain (.loopOptimise _) => ¬ Between n.sys.spin
  | _ => True

/-- The node was started without a map, and had only ordinary inputs, within the bounds, up to now. -/
def Maps (np : NodeParams) (b : Bounds) (n : Node) : Prop :=
  ∃ enable n0 is, Node.start np enable none = .ok n0 ∧ NodeExec np (fun n i => InBounds b n ∧ Ordinary n i) n0 is n

/-- Parameters for localising within the bounds: for the particle filter, coefficients of the noise that
are not negative, and an error and a quantile for which the sizes of the sample are numbers of 64 bits. -/
structure SuitsLocal (b : Bounds) (np : NodeParams) : Prop where
  place : 1 ≤ b.place
  placeEnd : b.place < 2 ^ 28
  reach : 0 ≤ b.reach
  glob : Fits b np.globalCfg
  noise : np.map.useFilter = true → 0 ≤ np.motion.a1 ∧ 0 ≤ np.motion.a2 ∧ 0 ≤ np.motion.a3 ∧ 0 ≤ np.motion.a4
  filter : np.map.useFilter = true → 0 < np.kldErr ∧ 0 ≤ np.kldZ ∧
    ∀ k, 1 < k → k ≤ max 1 np.maxP → kldBound np.kldErr np.kldZ k < 2 ^ 64

/-- The particles, once moved, are within the bounds, the distribution draws existing ones, and their mean is a number. -/
def Tracks (np : NodeParams) (b : Bounds) (n : Node) (nrm : MotionModel.Draws) (draw : ℕ → ℕ) : Prop :=
  ∀ scan odom f g moved, n.sys.spin = .filter scan odom → n.filter = some f → n.globalN = some g →
    f.update nrm (Node.control n.sys.prevRobot scan.pose).x (Node.control n.sys.prevRobot scan.pose).y
      (Node.control n.sys.prevRobot scan.pose).theta = .ok moved →
    (∀ p ∈ moved.particles, |p.x| ≤ b.place ∧ |p.y| ≤ b.place ∧ |p.theta| ≤ b.place) ∧
    (∀ k, draw k < moved.particles.length) ∧
    ∀ weighted f', moved.measure (fun p => g.scorePoints scan.points p) = .ok weighted →
      weighted.resample np.kldErr np.kldZ draw = .ok f' → ∃ mean, Node.meanPose f' = .ok mean

/-- Inputs of ordinary localisation: no map is loaded and mapping not enabled, laser messages can be read and have a limit of
the range within the bounds, the grid that is published can be drawn, initial poses have no negative variance, and the particle filter keeps track. -/
def OrdinaryLocal (np : NodeParams) (b : Bounds) (n : Node) : Input → Prop
  | .plain (.laser msg mount _ _) => Readable n msg mount ∧
      ∃ r, Laser.latchRangeMax n.sys.rangeMax msg = .fin r ∧ 0 ≤ r ∧ r ≤ b.range
  | .plain (.configure action _) => action &&& 4#32 = 0#32 ∧ action &&& 1#32 = 0#32
  | .plain .pubGrid => ∃ out, n.sys.grid.getMsg n.sys.scans = .ok out
  | .filterScan nrm draw => Tracks np b n nrm draw
  | .pose msg _ _ _ => 0 ≤ msg.covX ∧ 0 ≤ msg.covY ∧ 0 ≤ msg.covTheta
  | _ => True

/-- The node was started with mapping disabled and a map of at least one scan whose constraints join scans of the map, and had
only ordinary inputs, within the bounds, up to now. -/
def Localises (np : NodeParams) (b : Bounds) (n : Node) : Prop :=
  ∃ bag g n0 is, Graph.load np.map.useBarycenter bag = .ok g ∧ g.scans ≠ [] ∧
    (∀ c ∈ g.constraints, c.begin_ < g.scans.length ∧ c.end_ < g.scans.length) ∧
    Node.start np false (some bag) = .ok n0 ∧ NodeExec np (fun n i => InBounds b n ∧ OrdinaryLocal np b n i) n0 is n

end

end Ndt.Spec
