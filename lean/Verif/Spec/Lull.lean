import Verif.Spec.Idle

/-! # Specification of what the loop closure thread may touch in a short map -/

namespace Ndt.Spec

noncomputable section

/-- All of a state but where the loop closure thread is. -/
def unlooped (s : Sys) : Sys := { s with loop := .asleep }

/-- A node with that left out. -/
def lull (n : Node) : Node := { n with sys := unlooped n.sys }

/-- How many scans an input can add to the map. -/
def adds : Input → ℕ
  | .plain .pushScan | .pose .. => 1
  | _ => 0

/-- A request to load a map (srv/Configure.srv: bit 2 of the action). -/
def LoadsMap : Input → Prop
  | .plain (.configure action _) => action &&& 4#32 ≠ 0#32
  | _ => False

end

end Ndt.Spec
