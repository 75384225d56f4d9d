import Verif.Model.Cell
import Verif.Model.Scan

/-! # NDT grid (include/ndt_2d/ndt_model.hpp:67-132, src/ndt_model.cpp:118-218) -/

namespace Ndt

noncomputable section

/-- include/ndt_2d/ndt_model.hpp:127-131, the data of an `NDT`. -/
@[ext] structure NdtGrid where
  cellSize : ℝ
  sizeX : ℕ
  sizeY : ℕ
  originX : ℝ
  originY : ℝ
  cells : List Cell

namespace NdtGrid

/-- src/ndt_model.cpp:118-126 constructor. `size_x_ * size_y_` is a `size_t` product (modulo 2^64). Running out
of memory in `resize` is not modelled. -/
def new (cellSize sizeX sizeY originX originY : ℝ) : Res NdtGrid := do
  let sx ← toU64F (Fl.fin sizeX / Fl.fin cellSize + Fl.fin 1)
  let sy ← toU64F (Fl.fin sizeY / Fl.fin cellSize + Fl.fin 1)
  pure { cellSize := cellSize, sizeX := sx, sizeY := sy, originX := originX, originY := originY,
         cells := List.replicate (sx * sy % 2 ^ 64) Cell.new }

/-- src/ndt_model.cpp:203-218 `getIndex`, for coordinates that may be NaN or infinite. The `size_t` expression
`grid_y * size_x_ + grid_x` is returned as `int`. -/
def getIndexF (g : NdtGrid) (x y : Fl) : Res ℤ :=
  if x < .fin g.originX ∨ y < .fin g.originY then .ok (-1)
  else do
    let gx ← toU32F ((x - .fin g.originX) / .fin g.cellSize)
    let gy ← toU32F ((y - .fin g.originY) / .fin g.cellSize)
    if gx ≥ g.sizeX ∨ gy ≥ g.sizeY then pure (-1)
    else pure (wrapI32 ((gy * g.sizeX + gx) % 2 ^ 64))

/-- src/ndt_model.cpp:203-218 `getIndex` on a point. -/
def getIndex (g : NdtGrid) (p : Point) : Res ℤ := g.getIndexF (.fin p.x) (.fin p.y)

/-- src/ndt_model.cpp:145-150: find the cell of a map-frame point and add the point. -/
def addMapPoint (g : NdtGrid) (p : Point) : Res NdtGrid := do
  let index ← g.getIndex p
  if 0 ≤ index then
    if index.toNat < g.cells.length then
      pure { g with cells := g.cells.modify index.toNat (·.addPoint p) }
    else .error .outOfBounds
  else pure g

/-- src/ndt_model.cpp:141-143: a scan point moved by the scan's pose. -/
def mapPoint (pose : Pose2d) (p : Point) : Point :=
  ⟨pose.x + (p.x * Real.cos pose.theta - p.y * Real.sin pose.theta),
   pose.y + (p.x * Real.sin pose.theta + p.y * Real.cos pose.theta)⟩

/-- src/ndt_model.cpp:132-152 `addScan`. -/
def addScan (g : NdtGrid) (s : Scan) : Res NdtGrid :=
  s.getPoints.foldlM (fun g p => g.addMapPoint (mapPoint s.getPose p)) g

/-- src/ndt_model.cpp:154-160 `compute`. -/
def compute (g : NdtGrid) : NdtGrid := { g with cells := g.cells.map Cell.compute }

/-- src/ndt_model.cpp:162-170 `likelihood(Vector2d)`; src/ndt_model.cpp:172-176 `likelihood(Vector3d)` is the same
call with the z coordinate dropped. -/
def likelihood (g : NdtGrid) (p : Point) : Res Fl := do
  let index ← g.getIndex p
  if 0 ≤ index then
    match g.cells[index.toNat]? with
    | some c => pure (c.score p)
    | none => .error .outOfBounds
  else pure (.fin 0)

/-- src/ndt_model.cpp:178-187 `likelihood(vector<Point>)`. -/
def likelihoodPoints (g : NdtGrid) (ps : List Point) : Res Fl :=
  ps.foldlM (fun score p => do pure (score + (← g.likelihood p))) (.fin 0)

/-- src/ndt_model.cpp:189-201 `likelihood(ScanPtr)`. -/
def likelihoodScan (g : NdtGrid) (s : Scan) : Res Fl :=
  s.getPoints.foldlM (fun score p => do
    pure (score + (← g.likelihood ((toEigen s.getPose).apply p)))) (.fin 0)

end NdtGrid

/-- The mutating public calls of `NDT` (include/ndt_2d/ndt_model.hpp:69-125). -/
inductive NdtOp where
  | addScan (s : Scan)
  | compute

/-- One call (include/ndt_2d/ndt_model.hpp:69-125). -/
def NdtGrid.step (g : NdtGrid) : NdtOp → Res NdtGrid
  | .addScan s => g.addScan s
  | .compute => .ok g.compute

/-- A sequence of calls (include/ndt_2d/ndt_model.hpp:69-125). -/
def NdtGrid.run (g : NdtGrid) (ops : List NdtOp) : Res NdtGrid := ops.foldlM NdtGrid.step g

end

end Ndt
