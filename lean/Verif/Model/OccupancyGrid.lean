import Verif.Model.Scan
import Verif.Base.Fl

/-! # Occupancy grid (include/ndt_2d/occupancy_grid.hpp, src/occupancy_grid.cpp) -/

namespace Ndt

noncomputable section

/-- include/ndt_2d/occupancy_grid.hpp:61-65 `OccupancyGrid`. A resolution of zero is dealt with in `render`. -/
structure OccGrid where
  resolution : ℝ
  occThresh : ℝ
  minX : ℝ
  maxX : ℝ
  minY : ℝ
  maxY : ℝ
  numScans : ℕ

/-- nav_msgs OccupancyGrid, the fields that are filled in (src/occupancy_grid.cpp:56-70). -/
structure GridMsg where
  resolution : ℝ
  width : ℕ
  height : ℕ
  originX : ℝ
  originY : ℝ
  data : List ℤ

/-- A cell: column and row (src/occupancy_grid.cpp:81-90). -/
abbrev GCell := ℤ × ℤ

namespace OccGrid

/-- src/occupancy_grid.cpp:36-45 constructor. -/
def new (resolution occThresh : ℝ) : OccGrid := ⟨resolution, occThresh, 0, 0, 0, 0, 0⟩

/-- src/occupancy_grid.cpp:86-87 and 170-172: a point of a scan in the map frame. -/
def worldPoint (pose : Pose2d) (p : Point) : Point :=
  ⟨p.x * Real.cos pose.theta - p.y * Real.sin pose.theta + pose.x,
   p.x * Real.sin pose.theta + p.y * Real.cos pose.theta + pose.y⟩

/-- src/occupancy_grid.cpp:173-176: widen the bounds by a point. -/
def widen (g : OccGrid) (p : Point) : OccGrid :=
  { g with minX := min p.x g.minX, maxX := max p.x g.maxX, minY := min p.y g.minY, maxY := max p.y g.maxY }

/-- src/occupancy_grid.cpp:162-177: widen the bounds by the points of a scan. -/
def widenScan (g : OccGrid) (s : Scan) : OccGrid :=
  s.getPoints.foldl (fun g p => g.widen (worldPoint s.getPose p)) g

/-- src/occupancy_grid.cpp:154-185 `updateBounds`: only scans from the last known count on are looked at. -/
def updateBounds (g : OccGrid) (scans : List Scan) : OccGrid :=
  let g' := (scans.drop g.numScans).foldl widenScan { g with numScans := scans.length }
  { g' with minX := ⌊g'.minX / g'.resolution⌋ * g'.resolution, maxX := ⌈g'.maxX / g'.resolution⌉ * g'.resolution,
            minY := ⌊g'.minY / g'.resolution⌋ * g'.resolution, maxY := ⌈g'.maxY / g'.resolution⌉ * g'.resolution }

/-- The constants of a ray: src/occupancy_grid.cpp:89-96. -/
structure Ray where
  startX : ℤ
  startY : ℤ
  endX : ℤ
  endY : ℤ

/-- src/occupancy_grid.cpp:93. -/
def Ray.dx (r : Ray) : ℤ := |r.endX - r.startX|
/-- src/occupancy_grid.cpp:94. -/
def Ray.sx (r : Ray) : ℤ := if r.startX < r.endX then 1 else -1
/-- src/occupancy_grid.cpp:95. -/
def Ray.dy (r : Ray) : ℤ := -|r.endY - r.startY|
/-- src/occupancy_grid.cpp:96. -/
def Ray.sy (r : Ray) : ℤ := if r.startY < r.endY then 1 else -1

/-- The variables of the loop: src/occupancy_grid.cpp:97-100. -/
structure RayState where
  x : ℤ
  y : ℤ
  error : ℤ

/-- src/occupancy_grid.cpp:97-100 before the loop. -/
def Ray.start (r : Ray) : RayState := ⟨r.startX, r.startY, r.dx + r.dy⟩

/-- src/occupancy_grid.cpp:111-130, the part of the loop body after the cell has been counted as empty: `none` if one of
the two inner `break`s is taken. Note that the second test sees the error already updated by the first. -/
def Ray.step (r : Ray) (s : RayState) : Option RayState := do
  let s ←
    if 2 * s.error ≥ r.dy then
      if s.x = r.endX then none else some { s with error := s.error + r.dy, x := s.x + r.sx }
    else some s
  if 2 * s.error ≤ r.dx then
    if s.y = r.endY then none else some { s with error := s.error + r.dx, y := s.y + r.sy }
  else some s

/-- src/occupancy_grid.cpp:102-131 the `while (true)` loop, cut off after a number of rounds: the cells counted as empty
in order and the cell counted as hit, or `none` if it is still running. -/
def Ray.loop (r : Ray) : ℕ → RayState → Option (List GCell × GCell)
  | 0, _ => none
  | n + 1, s =>
      if s.x = r.endX ∧ s.y = r.endY then some ([], (s.x, s.y))
      else match r.step s with
        | none => some ([(s.x, s.y)], (s.x, s.y))
        | some s' => (r.loop n s').map fun q => ((s.x, s.y) :: q.1, q.2)

/-- src/occupancy_grid.cpp:104: `int index = x + y * width` is computed modulo 2^32 (`width` is a uint32) and converted
to `int`. -/
def cellIndex (width : ℕ) (c : GCell) : ℤ := wrapI32 ((c.1 + c.2 * width) % 2 ^ 32).toNat

/-- `++hit[index]` or `++empty[index]`: undefined outside the array. The counters are unbounded here
(src/occupancy_grid.cpp:102-131). -/
def bump (size width : ℕ) (a : ℕ → ℕ) (c : GCell) : Res (ℕ → ℕ) :=
  let i := cellIndex width c
  if 0 ≤ i ∧ i < size then .ok (Function.update a i.toNat (a i.toNat + 1)) else .error .outOfBounds

/-- The working arrays: src/occupancy_grid.cpp:69-70. -/
structure Counts where
  hit : ℕ → ℕ
  empty : ℕ → ℕ

/-- src/occupancy_grid.cpp:92-131: trace one ray. Rays of 2^28 cells or more are counted as overflow of the `int`
arithmetic (the largest intermediate value is at most four times the longer side). The loop gets the number of rounds
that C43 shows to suffice. -/
def renderRay (size width : ℕ) (cnt : Counts) (r : Ray) : Res Counts :=
  if 2 ^ 28 ≤ r.dx ∨ 2 ^ 28 ≤ -r.dy then .error .overflow
  else match r.loop (r.dx.toNat + (-r.dy).toNat + 1) r.start with
    | none => .error .hang
    | some (es, h) => do
        let empty ← es.foldlM (bump size width) cnt.empty
        let hit ← bump size width cnt.hit h
        .ok ⟨hit, empty⟩

/-- src/occupancy_grid.cpp:81-82, 89-90: the cell of a map point, `double → int`. -/
def cellOf (g : OccGrid) (originX originY : ℝ) (p : Point) : Res GCell := do
  let x ← toI32 ((p.x - originX) / g.resolution)
  let y ← toI32 ((p.y - originY) / g.resolution)
  .ok (x, y)

/-- src/occupancy_grid.cpp:73-133: render one scan. -/
def renderScan (g : OccGrid) (originX originY : ℝ) (size width : ℕ) (cnt : Counts) (s : Scan) : Res Counts := do
  let start ← g.cellOf originX originY ⟨s.getPose.x, s.getPose.y⟩
  s.getPoints.foldlM (fun cnt p => do
    let e ← g.cellOf originX originY (worldPoint s.getPose p)
    renderRay size width cnt ⟨start.1, start.2, e.1, e.2⟩) cnt

/-- src/occupancy_grid.cpp:138-150: the value of a cell. -/
def cellValue (occThresh : ℝ) (hit empty : ℕ) : ℤ :=
  let touches : ℝ := ((hit + empty : ℕ) : ℝ)
  if touches > 0.5 then (if (hit : ℝ) / touches > occThresh then 100 else 0) else -1

/-- src/occupancy_grid.cpp:56-151: everything after the bounds have been updated. With a resolution of zero the padding is
zero and the bounds are zero or, after `updateBounds`, NaN, so that the width is the conversion of a NaN. -/
def render (g : OccGrid) (scans : List Scan) : Res GridMsg := if g.resolution = 0 then .error .conversion else do
  let pad := 5 * g.resolution
  let width ← toU32 ((g.maxX - g.minX + 2 * pad) / g.resolution)
  let height ← toU32 ((g.maxY - g.minY + 2 * pad) / g.resolution)
  let originX := g.minX - pad
  let originY := g.minY - pad
  let size := (width * height) % 2 ^ 32
  let cnt ← scans.foldlM (renderScan g originX originY size width) ⟨fun _ => 0, fun _ => 0⟩
  .ok ⟨g.resolution, width, height, originX, originY,
    (List.range size).map fun i => cellValue g.occThresh (cnt.hit i) (cnt.empty i)⟩

/-- src/occupancy_grid.cpp:47-152 `getMsg`. -/
def getMsg (g : OccGrid) (scans : List Scan) : Res (OccGrid × GridMsg) := do
  let g := if scans.length ≠ g.numScans then g.updateBounds scans else g
  let m ← g.render scans
  .ok (g, m)

end OccGrid

end

end Ndt
