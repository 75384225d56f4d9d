import Verif.Model.Constraint
import Mathlib.Data.List.Sort

/-! # The map graph (include/ndt_2d/graph.hpp, src/graph.cpp) -/

namespace Ndt

noncomputable section

/-- include/ndt_2d/graph.hpp:79-82,117 `Graph`. Shared pointers are modelled as values. -/
structure Graph where
  useBarycenter : Bool
  scans : List Scan
  constraints : List Constraint

/-- msg/Scan.msg, the fields the code reads or writes: id, pose.position.x/y, pose.orientation.w, points (x, y)
(src/graph.cpp:120-132). -/
structure ScanMsg where
  id : ℕ
  positionX : ℝ
  positionY : ℝ
  orientationW : ℝ
  points : List Point

/-- msg/Constraint.msg: int64 begin and end, transform.translation, information[9], switchable (src/graph.cpp:142-156). -/
structure ConstraintMsg where
  begin_ : ℤ
  end_ : ℤ
  translationX : ℝ
  translationY : ℝ
  translationZ : ℝ
  information : ℕ → Fl
  switchable : Bool

/-- The content of a bag message (src/graph.cpp:58-104). -/
inductive Payload where
  | scan (m : ScanMsg)
  | constraint (m : ConstraintMsg)

/-- A message of the bag: topic and content. Serialisation (CDR) is taken to be lossless, and deserialising a message of
the other type to throw (src/graph.cpp:58-104). -/
structure BagMsg where
  topic : String
  payload : Payload

/-- `size_t → int64_t`: two's complement (src/graph.cpp:142-156). -/
def toI64 (n : ℕ) : ℤ := if n % 2 ^ 64 < 2 ^ 63 then ((n % 2 ^ 64 : ℕ) : ℤ) else ((n % 2 ^ 64 : ℕ) : ℤ) - 2 ^ 64

/-- `int64_t → size_t`: modulo 2^64 (src/graph.cpp:84-101). -/
def ofI64 (z : ℤ) : ℕ := (z % 2 ^ 64).toNat

namespace Graph

/-- src/graph.cpp:40-43 constructor of an empty graph. -/
def new (useBarycenter : Bool) : Graph := ⟨useBarycenter, [], []⟩

/-- src/graph.cpp:120-132: a scan as a message. -/
def scanToMsg (s : Scan) : ScanMsg :=
  ⟨s.getId, s.getPose.x, s.getPose.y, s.getPose.theta, s.getPoints.map fun p => ⟨p.x, p.y⟩⟩

/-- src/graph.cpp:149-155: the two nested loops that fill `information[i * 3 + j]` (zero to begin with). -/
def packInformation (inf : Mat3) : ℕ → Fl :=
  (List.finRange 3).foldl (fun a i => (List.finRange 3).foldl
    (fun a j => Function.update a (i.val * 3 + j.val) (inf i j)) a) fun _ => .fin 0

/-- src/graph.cpp:142-156: a constraint as a message. -/
def constraintToMsg (c : Constraint) : ConstraintMsg :=
  ⟨toI64 c.begin_, toI64 c.end_, c.transform.x, c.transform.y, c.transform.theta, packInformation c.information,
    c.switchable⟩

/-- src/graph.cpp:107-165 `save`: the messages written, in order. -/
def save (g : Graph) : List BagMsg :=
  (g.scans.map fun s => ⟨"scans", .scan (scanToMsg s)⟩) ++
  (g.constraints.map fun c => ⟨"constraints", .constraint (constraintToMsg c)⟩)

/-- src/graph.cpp:65-79: a scan from its message. -/
def scanOfMsg (m : ScanMsg) : Scan :=
  ((Scan.new m.id).setPose ⟨m.positionX, m.positionY, m.orientationW⟩).setPoints (m.points.map fun p => ⟨p.x, p.y⟩)

/-- src/graph.cpp:84-101: a constraint from its message. -/
def constraintOfMsg (m : ConstraintMsg) : Constraint :=
  ⟨ofI64 m.begin_, ofI64 m.end_, ⟨m.translationX, m.translationY, m.translationZ⟩,
    fun i j => m.information (i.val * 3 + j.val), m.switchable⟩

/-- src/graph.cpp:58-104: one round of the reading loop. Everything that is not on "scans" is read as a constraint. -/
def loadMsg (g : Graph) (m : BagMsg) : Res Graph :=
  if m.topic = "scans" then
    match m.payload with
    | .scan s => .ok { g with scans := g.scans ++ [scanOfMsg s] }
    | .constraint _ => .error .exception
  else
    match m.payload with
    | .constraint c => .ok { g with constraints := g.constraints ++ [constraintOfMsg c] }
    | .scan _ => .error .exception

/-- src/graph.cpp:49-105 constructor from a file: `bag` is the sequence of messages the reader returns. -/
def load (useBarycenter : Bool) (bag : List BagMsg) : Res Graph := bag.foldlM loadMsg (new useBarycenter)

/-- src/graph.cpp:177 and include/ndt_2d/graph.hpp:100: the pose a scan is searched by. (The refresh of the scan's
cached barycenter is not kept: by C01 no later call can tell.) -/
def refPose (useBarycenter : Bool) (s : Scan) : Pose2d :=
  if useBarycenter then s.getBarycenterPose.2 else s.getPose

/-- nanoflann `L2_Simple_Adaptor`: the squared distance (include/ndt_2d/graph.hpp:114-115). -/
def sqDist (p q : Pose2d) : ℝ := (p.x - q.x) ^ 2 + (p.y - q.y) ^ 2

/-- src/graph.cpp:167-189 `findNearest`. nanoflann's `radiusSearch` is modelled by its result: the points whose *squared*
distance is less than the radius, in the order `visit` in which the tree is walked (a permutation of the point
indices), then sorted by distance. Building the tree reads every point, so a limit beyond the number of scans is
undefined. -/
def findNearest (g : Graph) (visit : List ℕ) (scan : Scan) (dist : ℝ) (limitScanIndex : ℤ) : Res (List ℕ) :=
  let limit := if 0 < limitScanIndex then limitScanIndex.toNat else g.scans.length
  if g.scans.length < limit then .error .outOfBounds
  else
    let pose := refPose g.useBarycenter scan
    let d : ℕ → ℝ := fun i => match g.scans[i]? with
      | some s => sqDist pose (refPose g.useBarycenter s)
      | none => 0
    .ok ((visit.filter fun i => decide (d i < dist)).mergeSort fun i j => decide (d i ≤ d j))

/-- visualization_msgs Marker, the fields src/graph.cpp sets per marker. `type` 2 is SPHERE, 4 is LINE_STRIP
(src/graph.cpp:191-256). -/
structure Marker where
  ns : String
  id : ℤ
  type : ℕ
  x : ℝ
  y : ℝ
  scale : ℝ
  color : Fin 3 → ℝ
  points : List Point

/-- src/graph.cpp:194-206 the marker that is reused. -/
def marker0 : Marker := ⟨"nodes", 0, 2, 0, 0, 0.08, ![1, 0, 0], []⟩

/-- src/graph.cpp:208-215 node markers; returns the reused marker too. `Marker::id` is an int32. -/
def nodeMarkers (m : Marker) (out : List Marker) : List Scan → Marker × List Marker
  | [] => (m, out)
  | s :: ss =>
      let m := { m with id := wrapI32 s.getId, x := s.getPose.x, y := s.getPose.y }
      nodeMarkers m (out ++ [m]) ss

/-- src/graph.cpp:230-255 edge markers: scans are indexed without a check, `++m.id` may overflow. -/
def edgeMarkers (scans : List Scan) (m : Marker) (out : List Marker) : List Constraint → Res (List Marker)
  | [] => .ok out
  | c :: cs =>
      match scans[c.begin_]?, scans[c.end_]? with
      | some b, some e => do
          let m := { m with points := [⟨b.getPose.x, b.getPose.y⟩, ⟨e.getPose.x, e.getPose.y⟩],
                            color := if c.switchable then ![0, 1, 0] else ![0, 0, 1] }
          let id ← int32 (m.id + 1)
          edgeMarkers scans { m with id := id } (out ++ [m]) cs
      | _, _ => .error .outOfBounds

/-- src/graph.cpp:191-256 `getMsg`: the markers appended. Frame id, stamp, action, alpha and the y/z scales are constant
and left out. -/
def getMsg (g : Graph) (out : List Marker) : Res (List Marker) :=
  let (m, out) := nodeMarkers marker0 out g.scans
  let m := { m with ns := "edges", id := 0, type := 4, x := 0, y := 0, scale := 0.04 }
  edgeMarkers g.scans m out g.constraints

end Graph

end

end Ndt
