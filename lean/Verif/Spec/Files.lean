import Verif.Model.Files
import Verif.Spec.Mapper
import Verif.Spec.Graph

/-! # Specification of map files -/

namespace Ndt.Spec

noncomputable section

/-- An execution of the mapper with its files. -/
inductive StationExec (p : Params) (w : Station) : List Happening → Station → Prop
  | nil : StationExec p w [] w
  | snoc {hs : List Happening} {v v' : Station} {h : Happening} : StationExec p w hs v → Station.step p v h = .ok v' →
      StationExec p w (hs ++ [h]) v'

/-- The request asks for a map to be saved (and not for one to be loaded, which goes first). -/
def AsksToSave (action : BitVec 32) : Prop := action &&& 8#32 ≠ 0#32 ∧ action &&& 4#32 = 0#32

/-- Scans and constraints of a mapper carry the data of those of another. -/
def SameData (s t : Sys) : Prop := List.Forall₂ SameScan s.scans t.scans ∧ s.constraints = t.constraints

/-- The messages of the bag are of the type their topic says. -/
def TypedBag (bag : List BagMsg) : Prop :=
  ∀ m ∈ bag, (m.topic = "scans" → ∃ s, m.payload = .scan s) ∧ (m.topic ≠ "scans" → ∃ c, m.payload = .constraint c)

end

end Ndt.Spec
