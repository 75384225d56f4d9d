import Verif.Model.Matcher
import Verif.Spec.NdtGrid

/-! # Specification of the matcher's search -/

namespace Ndt.Spec

noncomputable section

/-- `d` is one of the values `-size, -size + res, -size + 2 res, ...` below `size`. -/
def OnGrid (size res d : ℝ) : Prop := ∃ k : ℕ, d = -size + k * res ∧ d < size

/-- An offset (x, y, theta) inside the search window. -/
def InWindow (linSize linRes angSize angRes : ℝ) (o : Pose2d) : Prop :=
  OnGrid linSize linRes o.x ∧ OnGrid linSize linRes o.y ∧ OnGrid angSize angRes o.theta

/-- The pose `p` with the offset added component by component. -/
def offset (p o : Pose2d) : Pose2d := ⟨p.x + o.x, p.y + o.y, p.theta + o.theta⟩

/-- The values `-size, -size + res, ...` below `size`, in order. -/
def gridVals (size res : ℝ) : List ℝ := (List.range ⌈2 * size / res⌉₊).map fun k : ℕ => -size + k * res

/-- All offsets of the search window, in the order of the search. -/
def window (linSize linRes angSize angRes : ℝ) : List Pose2d :=
  (gridVals angSize angRes).flatMap fun dth => (gridVals linSize linRes).flatMap fun dx =>
    (gridVals linSize linRes).map fun dy => ⟨dx, dy, dth⟩

/-- Which of `n` points the `i`-th of `m` evenly spread samples is. -/
def sampleIdx (n m i : ℕ) : ℕ := i * n / m

/-- `m` evenly spread samples of a list. -/
def samples (ps : List Point) (m : ℕ) : List Point :=
  (List.range m).filterMap fun i => ps[sampleIdx ps.length m i]?

/-- The number of beams used. -/
def beamCount (maxBeams n : ℕ) : ℕ := min maxBeams n

end

end Ndt.Spec
