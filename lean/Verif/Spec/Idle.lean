import Verif.Model.Node

/-! # Specification of a loop closure thread that has nothing to do -/

namespace Ndt.Spec

noncomputable section

/-- The work of the loop closure thread. -/
def IsLooping : Input → Prop
  | .plain .loopWake | .plain .loopCount | .plain (.loopPick _) | .plain .loopCandidate | .plain (.loopMatched ..) | .plain .loopPush |
    .plain .loopDecide | .plain (.loopOptimise _) | .loopMatch _ => True
  | _ => False

instance (i : Input) : Decidable (IsLooping i) := Classical.propDecidable _

/-- A request for mapping (srv/Configure.srv: bit 0 of the action). -/
def TurnsOn : Input → Prop
  | .plain (.configure action _) => action &&& 1#32 ≠ 0#32
  | _ => False

end

end Ndt.Spec
