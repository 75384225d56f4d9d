import Verif.Spec.Mapper

/-! # What each thread is for -/

namespace Ndt.Spec

noncomputable section

/-- What a scan is apart from where it is. -/
def content (x : Scan) : ℕ × List Point := (x.id, x.points)

/-- No graph has other scans than before, though they may be elsewhere. -/
def SameContents (s s' : Sys) : Prop := ∀ e, (s'.heap e).map content = (s.heap e).map content

/-- What belongs to the executor thread: where the robot is, the laser, and what it was told to do. -/
def SameRobot (s s' : Sys) : Prop :=
  s'.prevOdom = s.prevOdom ∧ s'.prevRobot = s.prevRobot ∧ s'.initialized = s.initialized ∧ s'.enable = s.enable ∧
  s'.laser = s.laser ∧ s'.rangeMax = s.rangeMax ∧ s'.localM = s.localM ∧ s'.typical = s.typical ∧ s'.epoch = s.epoch ∧
  s'.spin = s.spin

/-- What belongs to the loop closure thread. -/
def SameSearch (s s' : Sys) : Prop :=
  s'.processed = s.processed ∧ s'.optLast = s.optLast ∧ s'.solver = s.solver ∧ s'.loop = s.loop

/-- What belongs to the publishing thread. -/
def SamePublished (s s' : Sys) : Prop :=
  s'.grid = s.grid ∧ s'.lastGrid = s.lastGrid ∧ s'.lastMarkers = s.lastMarkers ∧ s'.lastTf = s.lastTf ∧ s'.pub = s.pub

end

end Ndt.Spec
