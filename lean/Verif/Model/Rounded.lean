import Verif.Base.Double
import Verif.Model.Matcher
import Verif.Model.OccupancyGrid

/-!
# Indices and bounds in double precision

The rest of the model computes with exact reals. Here the computations that end in an index, in the size of an array or in
the number of rounds of a loop are modelled once more, with every operation on doubles followed by a rounding `rd`.
Theorems are about every rounding to nearest; `rnd` is the one of IEEE-754. Cosine and sine are arbitrary functions `co` and
`si`, since the accuracy of the C library is not specified. Overflow to infinity is not modelled (the numbers involved
are bounded in the theorems), nor is contraction of two operations into one.
-/

namespace Ndt.Rounded

noncomputable section

variable (rd : ℝ → ℝ)

/-- src/scan_matcher_ndt.cpp:95-96, 110 and 165-166, 171: `static_cast<size_t>(i * scan_step)`. -/
def beamIndex (n m i : ℕ) : Res ℕ :=
  toU64F (.fin (rd (rd i * rd (rd n / rd m))))

/-- src/scan_matcher_ndt.cpp:103, 117, 119: the value of a search variable before round `n`, as long as the loop runs. -/
def searchVal (size res : ℝ) : ℕ → ℝ
  | 0 => -size
  | n + 1 => rd (searchVal size res n + res)

/-- The loop reaches round `n` (src/scan_matcher_ndt.cpp:103, 117, 119). -/
def Visits (size res : ℝ) (n : ℕ) : Prop := ∀ i ≤ n, searchVal rd size res i < size

/-- src/ndt_model.cpp:118-126 constructor of `NDT`. -/
def newGrid (cellSize sizeX sizeY originX originY : ℝ) : Res NdtGrid := do
  let sx ← toU64F (Fl.rounded rd (Fl.rounded rd (.fin sizeX / .fin cellSize) + .fin 1))
  let sy ← toU64F (Fl.rounded rd (Fl.rounded rd (.fin sizeY / .fin cellSize) + .fin 1))
  pure { cellSize := cellSize, sizeX := sx, sizeY := sy, originX := originX, originY := originY,
         cells := List.replicate (sx * sy % 2 ^ 64) Cell.new }

/-- src/ndt_model.cpp:203-218 `getIndex`. -/
def getIndex (g : NdtGrid) (x y : ℝ) : Res ℤ :=
  if x < g.originX ∨ y < g.originY then .ok (-1)
  else do
    let gx ← toU32F (Fl.rounded rd (.fin (rd (x - g.originX)) / .fin g.cellSize))
    let gy ← toU32F (Fl.rounded rd (.fin (rd (y - g.originY)) / .fin g.cellSize))
    if gx ≥ g.sizeX ∨ gy ≥ g.sizeY then pure (-1)
    else pure (wrapI32 ((gy * g.sizeX + gx) % 2 ^ 64))

/-- src/scan_matcher_ndt.cpp:53-64: the bounding box loop. -/
def bbox (rangeMax : ℝ) (scans : List Scan) : BBox :=
  scans.foldl (fun b s =>
    { minX := min (rd (s.getPose.x - rangeMax)) b.minX
      maxX := max (rd (s.getPose.x + rangeMax)) b.maxX
      minY := min (rd (s.getPose.y - rangeMax)) b.minY
      maxY := max (rd (s.getPose.y + rangeMax)) b.maxY })
    { minX := dblMax, maxX := dblMin, minY := dblMax, maxY := dblMin }

/-- src/scan_matcher_ndt.cpp:66-67: the grid `addScans` makes. -/
def mapGrid (resolution rangeMax : ℝ) (scans : List Scan) : Res NdtGrid :=
  let b := bbox rd rangeMax scans
  newGrid rd resolution (rd (b.maxX - b.minX)) (rd (b.maxY - b.minY)) b.minX b.minY

/-- src/ndt_model.cpp:142-143: how far a point of a scan is from the scan's position, in x. -/
def turnX (co si : ℝ → ℝ) (theta : ℝ) (p : Point) : ℝ := rd (rd (p.x * co theta) - rd (p.y * si theta))

/-- src/ndt_model.cpp:142-143: how far a point of a scan is from the scan's position, in y. -/
def turnY (co si : ℝ → ℝ) (theta : ℝ) (p : Point) : ℝ := rd (rd (p.x * si theta) + rd (p.y * co theta))

/-- src/ndt_model.cpp:141-143: a scan point moved by the scan's pose. -/
def mapPoint (co si : ℝ → ℝ) (pose : Pose2d) (p : Point) : Point :=
  ⟨rd (pose.x + turnX rd co si pose.theta p), rd (pose.y + turnY rd co si pose.theta p)⟩

/-- src/occupancy_grid.cpp:181, 183: a lower bound made a multiple of the resolution. -/
def floorTo (res x : ℝ) : ℝ := rd (⌊rd (x / res)⌋ * res)

/-- src/occupancy_grid.cpp:182, 184: an upper bound made a multiple of the resolution. -/
def ceilTo (res x : ℝ) : ℝ := rd (⌈rd (x / res)⌉ * res)

/-- src/occupancy_grid.cpp:154-185 `updateBounds` along one axis: `xs` are the coordinates of the points of the new scans. -/
def updateAxis (res : ℝ) (b : ℝ × ℝ) (xs : List ℝ) : ℝ × ℝ :=
  (floorTo rd res (xs.foldl (fun lo x => min x lo) b.1), ceilTo rd res (xs.foldl (fun hi x => max x hi) b.2))

/-- src/occupancy_grid.cpp:36-45, 154-185: the bounds after a number of updates. -/
def axisAfter (res : ℝ) (xss : List (List ℝ)) : ℝ × ℝ := xss.foldl (updateAxis rd res) (0, 0)

/-- src/occupancy_grid.cpp:57: the padding. -/
def pad (res : ℝ) : ℝ := rd (5 * res)

/-- src/occupancy_grid.cpp:61-62: width or height for the bounds `lo` and `hi`. -/
def gridSize (res lo hi : ℝ) : Res ℕ := toU32F (.fin (rd (rd (rd (hi - lo) + rd (2 * pad rd res)) / res)))

/-- src/occupancy_grid.cpp:63-64: the position of the corner. -/
def gridOrigin (res lo : ℝ) : ℝ := rd (lo - pad rd res)

/-- src/occupancy_grid.cpp:81-82, 89-90: the column or row of a coordinate. -/
def gridCell (res origin x : ℝ) : Res ℤ := toI32F (.fin (rd (rd (x - origin) / res)))

end

end Ndt.Rounded
