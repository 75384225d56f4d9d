import Verif.Model.RoundedMatcher

/-! # What is said about matching in double precision -/

namespace Ndt.Spec

noncomputable section

open Rounded

/-- The loops of the search get to the offset whose angle has number `i` and whose shifts have the numbers `j` and `k`. -/
def Tried (rd : ℝ → ℝ) (mt : Matcher) (i j k : ℕ) : Prop :=
  Visits rd mt.angularSize mt.angularRes i ∧ Visits rd mt.linearSize mt.linearRes j ∧
    Visits rd mt.linearSize mt.linearRes k

/-- The offset with these numbers. -/
def offsetOf (rd : ℝ → ℝ) (mt : Matcher) (i j k : ℕ) : Pose2d :=
  ⟨searchVal rd mt.linearSize mt.linearRes j, searchVal rd mt.linearSize mt.linearRes k,
    searchVal rd mt.angularSize mt.angularRes i⟩

/-- The sum of the likelihoods of `m` beams of the scan, turned and moved by its pose and the offset `o`, as it is computed. -/
def likelihoodAt (rd co si : ℝ → ℝ) (g : NdtGrid) (points : List Point) (m : ℕ) (pose o : Pose2d) : Res Fl := do
  let outer ← outerPoints rd co si points m pose o.theta
  shiftedScore rd g outer o.x o.y

/-- The loops get to the offset numbered `i j k` before they get to `i' j' k'`. -/
def Before (t t' : ℕ × ℕ × ℕ) : Prop :=
  t.1 < t'.1 ∨ t.1 = t'.1 ∧ (t.2.1 < t'.2.1 ∨ t.2.1 = t'.2.1 ∧ t.2.2 < t'.2.2)

/-- The points of the scans that fall into the square with number `i`, in the order in which they are added. -/
def pointsIn (rd co si : ℝ → ℝ) (g : NdtGrid) (scans : List Scan) (i : ℕ) : List Point :=
  (scans.flatMap fun s => s.points.map (mapPoint rd co si s.pose)).filter
    fun p => decide (getIndex rd g p.x p.y = .ok (i : ℤ))

end

end Ndt.Spec
