import Verif.Model.Node

/-! # Specification of what the publishing thread may touch -/

namespace Ndt.Spec

noncomputable section

/-- All of a state but what belongs to publishing: whether there is something to publish, how far the thread is, its grid, and what was published last. -/
def unpublished (s : Sys) : Sys :=
  { s with update := false, pub := .check, grid := OccGrid.new 1 1, lastGrid := none, lastMarkers := none, lastTf := none }

/-- Two nodes that differ in nothing else. -/
def SameButPublished (n m : Node) : Prop :=
  unpublished n.sys = unpublished m.sys ∧ n.globalN = m.globalN ∧ n.localN = m.localN ∧ n.filter = m.filter

/-- The work of the publishing thread. -/
def IsPublishing : Input → Prop
  | .plain .pubCheck | .plain .pubClear | .plain .pubGrid | .plain .pubGraph | .plain .pubTf => True
  | _ => False

instance (i : Input) : Decidable (IsPublishing i) := Classical.propDecidable _

end

end Ndt.Spec
