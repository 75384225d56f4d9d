import Verif.Spec.Mapper
import Verif.Spec.Graph

/-! # What it means that the published map is the map (C95) and that a robot is near the map (C96) -/

namespace Ndt.Spec

noncomputable section

/-- A thread is on its way to announce a change: the executor, between the constraint of a new scan and the end of its
callback, or the loop closure thread, between the correction of a scan and its constraint. -/
def Announcing (s : Sys) : Prop :=
  (∃ scan odom, s.spin = .append scan odom) ∨ (∃ a odom, s.spin = .announce a odom) ∨ ∃ q c, s.loop = .pushing q c

/-- The last published occupancy grid renders the scans of the graph as they are. -/
def GridShown (s : Sys) : Prop := ∃ (before : OccGrid) (msg : GridMsg), before.getMsg s.scans = .ok (s.grid, msg) ∧ s.lastGrid = some msg

/-- The last published markers are those of the graph as it is. -/
def MarkersShown (p : Params) (s : Sys) : Prop := ∃ msg, (s.graph p).getMsg [] = .ok msg ∧ s.lastMarkers = some msg

/-- There is no map. -/
def EmptyMap (s : Sys) : Prop := s.scans = [] ∧ s.constraints = []

/-- Nothing is under way: no update is announced or about to be, and the publishing thread is not publishing a map. -/
def AtRest (s : Sys) : Prop := s.update = false ∧ ¬ Announcing s ∧ (s.pub = .check ∨ s.pub = .tf)

/-- A pose is given to a mapping node (which adds a scan for it). -/
def PoseWhileMapping (p : Params) (s : Sys) (e : Event) : Prop :=
  (∃ m odom visit, e = .pose m odom visit) ∧ s.enable = true ∧ p.useFilter = false

/-- The request switches mapping off. -/
def Disables (e : Event) : Prop := ∃ action bag, e = .configure action bag ∧ action &&& 2#32 ≠ 0#32

/-- The pose is near enough to a scan: the square of the distance is below ten. -/
def NearMap (p : Params) (s : Sys) (pose : Pose2d) : Prop :=
  ∃ x ∈ s.scans, Spec.dist ⟨pose.x, pose.y⟩ (refPoint p.useBarycenter x) ^ 2 < 10

end

end Ndt.Spec
