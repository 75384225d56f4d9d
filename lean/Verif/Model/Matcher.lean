import Verif.Model.NdtGrid

/-! # NDT scan matcher (include/ndt_2d/scan_matcher_ndt.hpp, src/scan_matcher_ndt.cpp) -/

namespace Ndt

noncomputable section

/-- include/ndt_2d/scan_matcher_ndt.hpp:92-104, the data of a `ScanMatcherNDT`. -/
structure Matcher where
  resolution : ℝ
  angularRes : ℝ
  angularSize : ℝ
  linearRes : ℝ
  linearSize : ℝ
  laserMaxBeams : ℕ
  rangeMax : ℝ
  ndt : Option NdtGrid

/-- A `3x3` matrix and a vector of doubles (src/scan_matcher_ndt.cpp:85-90). -/
abbrev Mat3F := Fin 3 → Fin 3 → Fl

/-- `std::numeric_limits<double>::max()` (src/scan_matcher_ndt.cpp:53-56). -/
def dblMax : ℝ := (2 - 2⁻¹ ^ 52) * 2 ^ 1023

/-- `std::numeric_limits<double>::min()`: the smallest *positive* normal number (src/scan_matcher_ndt.cpp:53-56). -/
def dblMin : ℝ := 2⁻¹ ^ 1022

/-- The four local variables `min_x_, max_x_, min_y_, max_y_` of `addScans` (src/scan_matcher_ndt.cpp:53-56). -/
structure BBox where
  minX : ℝ
  maxX : ℝ
  minY : ℝ
  maxY : ℝ

namespace Matcher

/-- src/scan_matcher_ndt.cpp:35-47 `initialize`: the parameters become members; `laser_max_beams` is an `int`
parameter stored in a `size_t` (a negative value wraps). Until then there is no map. -/
def initialise (resolution angularRes angularSize linearRes linearSize : ℝ) (laserMaxBeams : ℤ)
    (rangeMax : ℝ) : Matcher :=
  { resolution, angularRes, angularSize, linearRes, linearSize,
    laserMaxBeams := (laserMaxBeams % 2 ^ 64).toNat, rangeMax, ndt := none }

/-- src/scan_matcher_ndt.cpp:53-64: the bounding box loop. -/
def bbox (rangeMax : ℝ) (scans : List Scan) : BBox :=
  scans.foldl (fun b s =>
    { minX := min (s.getPose.x - rangeMax) b.minX
      maxX := max (s.getPose.x + rangeMax) b.maxX
      minY := min (s.getPose.y - rangeMax) b.minY
      maxY := max (s.getPose.y + rangeMax) b.maxY })
    { minX := dblMax, maxX := dblMin, minY := dblMax, maxY := dblMin }

/-- src/scan_matcher_ndt.cpp:49-74 `addScans` on the scans of the iterator range. -/
def addScans (m : Matcher) (scans : List Scan) : Res Matcher := do
  let b := bbox m.rangeMax scans
  let g ← NdtGrid.new m.resolution (b.maxX - b.minX) (b.maxY - b.minY) b.minX b.minY
  let g ← scans.foldlM NdtGrid.addScan g
  pure { m with ndt := some g.compute }

/-- src/scan_matcher_ndt.cpp:96,110 (and 166,171): `static_cast<size_t>(i * scan_step)`. -/
def beamIndex (n m i : ℕ) : Res ℕ := toU64F (.fin i * (.fin n / .fin m))

/-- `points[scan_idx]` (src/scan_matcher_ndt.cpp:106-115). -/
def beam (points : List Point) (m i : ℕ) : Res Point := do
  let idx ← beamIndex points.length m i
  match points[idx]? with
  | some p => pure p
  | none => .error .outOfBounds

/-- src/scan_matcher_ndt.cpp:106-115: the subsampled points rotated and shifted to the scan pose. -/
def outerPoints (points : List Point) (m : ℕ) (pose : Pose2d) (dth : ℝ) : Res (List Point) :=
  (List.range m).mapM fun i => do
    let p ← beam points m i
    pure ⟨p.x * Real.cos (pose.theta + dth) - p.y * Real.sin (pose.theta + dth) + pose.x,
          p.x * Real.sin (pose.theta + dth) + p.y * Real.cos (pose.theta + dth) + pose.y⟩

/-- `for (double d = from; d < size; d += res)` with a bound on the number of iterations
(src/scan_matcher_ndt.cpp:103-143). -/
def loopFrom (size res : ℝ) : ℕ → ℝ → List ℝ
  | 0, _ => []
  | fuel + 1, d => if d < size then d :: loopFrom size res fuel (d + res) else []

/-- src/scan_matcher_ndt.cpp:103,117,119: the values a search variable takes. For a positive resolution the
bound is never what ends the loop (`loopFrom_complete` in Verif/Proof/Matcher.lean); for a resolution that is
not positive and a positive size the code does not terminate, see `Endless`. -/
def searchVals (size res : ℝ) : List ℝ := loopFrom size res ⌈2 * size / res⌉₊ (-size)

/-- A loop of the search does not end: `d += res` never takes `d` to `size` (src/scan_matcher_ndt.cpp:103,117,119). The inner
loops are entered if the outer one is. -/
def Endless (mt : Matcher) : Prop :=
  0 < mt.angularSize ∧ (mt.angularRes ≤ 0 ∨ 0 < mt.linearSize ∧ mt.linearRes ≤ 0)

instance (mt : Matcher) : Decidable mt.Endless := Classical.propDecidable _

/-- The variables updated by the search loops (src/scan_matcher_ndt.cpp:80-101). -/
structure SearchAcc where
  best : Fl
  pose : Pose2d
  k : Mat3F
  u : Fin 3 → Fl
  s : Fl

/-- src/scan_matcher_ndt.cpp:121-140: the innermost loop body. -/
def searchBody (g : NdtGrid) (outer : List Point) (dth dx dy : ℝ) (a : SearchAcc) : Res SearchAcc := do
  let inner := outer.map fun p => ({ x := p.x + dx, y := p.y + dy } : Point)
  let score := -(← g.likelihoodPoints inner)
  let x : Fin 3 → ℝ := ![dx, dy, dth]
  pure
    { best := if score < a.best then score else a.best
      pose := if score < a.best then ⟨dx, dy, dth⟩ else a.pose
      k := fun i j => a.k i j + Fl.fin (x i * x j) * score
      u := fun i => a.u i + Fl.fin (x i) * score
      s := a.s + score }

/-- src/scan_matcher_ndt.cpp:103-143: the three nested loops. -/
def search (mt : Matcher) (g : NdtGrid) (points : List Point) (m : ℕ) (scanPose : Pose2d) (a : SearchAcc) :
    Res SearchAcc :=
  (searchVals mt.angularSize mt.angularRes).foldlM (fun a dth => do
    let outer ← outerPoints points m scanPose dth
    (searchVals mt.linearSize mt.linearRes).foldlM (fun a dx =>
      (searchVals mt.linearSize mt.linearRes).foldlM (fun a dy => searchBody g outer dth dx dy a) a) a) a

/-- What `matchScan` returns and writes to its reference arguments (include/ndt_2d/scan_matcher_ndt.hpp:62-72). -/
structure MatchResult where
  score : Fl
  pose : Pose2d
  covariance : Mat3F

/-- src/scan_matcher_ndt.cpp:76-149 `matchScan`; `pose` and `covariance` are the caller's variables. -/
def matchScan (mt : Matcher) (scan : Scan) (pose : Pose2d) (covariance : Mat3F) : Res MatchResult :=
  match mt.ndt with
  | none => .ok { score := .fin 0, pose, covariance }
  | some g => if mt.Endless then .error .hang else do
    let points := scan.getPoints
    let m := min mt.laserMaxBeams points.length
    let a ← mt.search g points m scan.getPose
      { best := .fin 0, pose, k := fun _ _ => .fin 0, u := fun _ => .fin 0, s := .fin 0 }
    pure { score := a.best / .fin m
           pose := a.pose
           covariance := fun i j =>
             .fin 1 / a.s * a.k i j + .fin 1 / (a.s * a.s) * a.u i * a.u j }

/-- src/scan_matcher_ndt.cpp:156-178 `scorePoints`. -/
def scorePoints (mt : Matcher) (points : List Point) (pose : Pose2d) : Res Fl :=
  match mt.ndt with
  | none => .ok (.fin 0)
  | some g => do
    let m := min mt.laserMaxBeams points.length
    let score ← (List.range m).foldlM (fun score i => do
      let p ← beam points m i
      pure (score + -(← g.likelihood ((toEigen pose).apply p)))) (Fl.fin 0)
    pure (score / .fin m)

/-- src/scan_matcher_ndt.cpp:151-154 `scoreScan`. -/
def scoreScan (mt : Matcher) (scan : Scan) : Res Fl := mt.scorePoints scan.getPoints scan.getPose

/-- src/scan_matcher_ndt.cpp:180-183 `reset`. -/
def reset (mt : Matcher) : Matcher := { mt with ndt := none }

end Matcher

/-- The mutating public calls of the matcher (include/ndt_2d/scan_matcher_ndt.hpp:44-90). -/
inductive MatcherOp where
  | addScans (scans : List Scan)
  | reset

/-- One call (include/ndt_2d/scan_matcher_ndt.hpp:44-90). -/
def Matcher.step (mt : Matcher) : MatcherOp → Res Matcher
  | .addScans s => mt.addScans s
  | .reset => .ok mt.reset

/-- A sequence of calls (include/ndt_2d/scan_matcher_ndt.hpp:44-90). -/
def Matcher.run (mt : Matcher) (ops : List MatcherOp) : Res Matcher := ops.foldlM Matcher.step mt

end

end Ndt
