import Verif.Proof.Scan

/-! # C01: a scan's barycenter is never stale -/

namespace Ndt

noncomputable section

/-- **C01.** Every history of calls on a new scan returns exactly what the ideal scan returns. -/
theorem c01_scan_barycenter_never_stale (id : ℕ) (ops : List ScanOp) :
    (Scan.new id).run ops = Spec.scanRun id ⟨0, 0, 0⟩ [] ops :=
  Scan.run_eq _ (by intro h; simp [Scan.new] at h) ops

/-- Instance: reading twice around a pose change sees both barycenters. -/
example : (Scan.new 7).run [.setPoints [⟨2, 0⟩, ⟨4, 2⟩], .getBarycenterPose, .setPose ⟨1, 1, 0⟩,
      .getBarycenterPose, .getId] =
    [.unit, .pose ⟨3, 1, 0⟩, .unit, .pose ⟨4, 2, 0⟩, .id 7] := by
  rw [c01_scan_barycenter_never_stale]
  simp [Spec.scanRun, Spec.barycenter, Spec.move, Spec.centroid, Spec.sumX, Spec.sumY]
  norm_num

end

end Ndt
