import Verif.Model.Rounded

/-!
# The occupancy grid in double precision

src/occupancy_grid.cpp once more, with every operation on doubles rounded. What is integer arithmetic in the code (tracing
the rays, counting) is that of `Verif.Model.OccupancyGrid`.
-/

namespace Ndt.Rounded

noncomputable section

variable (rd : ℝ → ℝ) (co si : ℝ → ℝ)

/-- src/occupancy_grid.cpp:162-177: widen the bounds by the points of a scan; the coordinates are computed as in
src/ndt_model.cpp:141-143. -/
def widenScan (g : OccGrid) (s : Scan) : OccGrid :=
  s.getPoints.foldl (fun g p => g.widen (mapPoint rd co si s.getPose p)) g

/-- src/occupancy_grid.cpp:154-185 `updateBounds`. -/
def updateBounds (g : OccGrid) (scans : List Scan) : OccGrid :=
  let g' := (scans.drop g.numScans).foldl (widenScan rd co si) { g with numScans := scans.length }
  { g' with minX := floorTo rd g'.resolution g'.minX, maxX := ceilTo rd g'.resolution g'.maxX,
            minY := floorTo rd g'.resolution g'.minY, maxY := ceilTo rd g'.resolution g'.maxY }

/-- src/occupancy_grid.cpp:86-87: a point of a scan in the map frame; the position is added last. -/
def endPoint (pose : Pose2d) (p : Point) : Point :=
  ⟨rd (turnX rd co si pose.theta p + pose.x), rd (turnY rd co si pose.theta p + pose.y)⟩

/-- src/occupancy_grid.cpp:81-82, 89-90: the cell of a map point. -/
def squareOf (g : OccGrid) (originX originY : ℝ) (p : Point) : Res GCell := do
  let x ← gridCell rd g.resolution originX p.x
  let y ← gridCell rd g.resolution originY p.y
  .ok (x, y)

/-- src/occupancy_grid.cpp:73-133: render one scan. -/
def renderScan (g : OccGrid) (originX originY : ℝ) (size width : ℕ) (cnt : OccGrid.Counts) (s : Scan) :
    Res OccGrid.Counts := do
  let start ← squareOf rd g originX originY ⟨s.getPose.x, s.getPose.y⟩
  s.getPoints.foldlM (fun cnt p => do
    let e ← squareOf rd g originX originY (endPoint rd co si s.getPose p)
    OccGrid.renderRay size width cnt ⟨start.1, start.2, e.1, e.2⟩) cnt

/-- src/occupancy_grid.cpp:138-150: the value of a cell. The counts themselves are exact. -/
def cellValue (occThresh : ℝ) (hit empty : ℕ) : ℤ :=
  let touches : ℝ := ((hit + empty : ℕ) : ℝ)
  if touches > 0.5 then (if rd ((hit : ℝ) / touches) > occThresh then 100 else 0) else -1

/-- src/occupancy_grid.cpp:56-151: everything after the bounds have been updated, for a resolution that is not zero. The
resolution in the message is given here as the double it is before it becomes a float (`published`). -/
def render (g : OccGrid) (scans : List Scan) : Res GridMsg := do
  let width ← gridSize rd g.resolution g.minX g.maxX
  let height ← gridSize rd g.resolution g.minY g.maxY
  let originX := gridOrigin rd g.resolution g.minX
  let originY := gridOrigin rd g.resolution g.minY
  let size := (width * height) % 2 ^ 32
  let cnt ← scans.foldlM (renderScan rd co si g originX originY size width) ⟨fun _ => 0, fun _ => 0⟩
  .ok ⟨g.resolution, width, height, originX, originY,
    (List.range size).map fun i => cellValue rd g.occThresh (cnt.hit i) (cnt.empty i)⟩

/-- src/occupancy_grid.cpp:60: the resolution in the message is a `float` (nav_msgs/MapMetaData); everything else in it is a `double` or
an integer. -/
def published (rf : ℝ → ℝ) (m : GridMsg) : GridMsg := { m with resolution := rf m.resolution }

/-- src/occupancy_grid.cpp:47-152 `getMsg`. -/
def getMsg (g : OccGrid) (scans : List Scan) : Res (OccGrid × GridMsg) := do
  let g := if scans.length ≠ g.numScans then updateBounds rd co si g scans else g
  let m ← render rd co si g scans
  .ok (g, m)

end

end Ndt.Rounded
