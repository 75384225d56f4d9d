import Verif.Model.Graph
import Verif.Spec.Scan

/-! # Specification of the graph -/

namespace Ndt.Spec

noncomputable section

/-- A scan made by its constructor and any public calls. -/
def BuiltByCalls (s : Scan) : Prop := ∃ (id : ℕ) (ops : List ScanOp), s = ops.foldl (fun s op => (s.step op).1) (Scan.new id)

/-- The point a scan is searched by: its position, or the barycenter of its points. -/
def refPoint (useBarycenter : Bool) (s : Scan) : Point :=
  let p := if useBarycenter then barycenter s.pose s.points else s.pose
  ⟨p.x, p.y⟩

/-- Two scans carry the same data. -/
def SameScan (a b : Scan) : Prop := a.id = b.id ∧ a.pose = b.pose ∧ a.points = b.points

/-- A reading order of a bag that keeps the order of the messages of each topic. -/
def Interleaving (bag written : List BagMsg) : Prop :=
  (bag.filter fun m => m.topic = "scans") = (written.filter fun m => m.topic = "scans") ∧
  (bag.filter fun m => ¬ m.topic = "scans") = (written.filter fun m => ¬ m.topic = "scans")

/-- The marker of a scan: a sphere at its pose. -/
def IsNodeMarker (s : Scan) (m : Graph.Marker) : Prop :=
  m.ns = "nodes" ∧ m.id = wrapI32 s.id ∧ m.type = 2 ∧ m.x = s.pose.x ∧ m.y = s.pose.y

/-- The `i`-th edge marker: a line between the poses of the scans a constraint joins, green if switchable and blue
otherwise. -/
def IsEdgeMarker (scans : List Scan) (i : ℕ) (c : Constraint) (m : Graph.Marker) : Prop :=
  m.ns = "edges" ∧ m.id = i ∧ m.type = 4 ∧ m.x = 0 ∧ m.y = 0 ∧
  m.color = (if c.switchable then ![0, 1, 0] else ![0, 0, 1]) ∧
  ∃ a b, scans[c.begin_]? = some a ∧ scans[c.end_]? = some b ∧
    m.points = [⟨a.pose.x, a.pose.y⟩, ⟨b.pose.x, b.pose.y⟩]

end

end Ndt.Spec
