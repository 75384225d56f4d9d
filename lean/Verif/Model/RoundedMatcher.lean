import Verif.Model.RoundedCell

/-!
# Scan matching in double precision (src/ndt_model.cpp:132-187, src/scan_matcher_ndt.cpp:49-149)

The map and the search of `Model/Matcher.lean` once more, with every operation on doubles followed by the rounding `rd`.
`co` and `si` are the functions of the C library, `es` is Eigen's eigenvalue solver. Overflow is modelled in `std::exp` only.
-/

namespace Ndt.Rounded

noncomputable section

variable (rd co si : ℝ → ℝ) (es : Mat2 ℝ → ℝ × ℝ)

/-- src/ndt_model.cpp:145-150: find the cell of a map-frame point and add the point. -/
def addMapPoint (g : NdtGrid) (p : Point) : Res NdtGrid := do
  let index ← getIndex rd g p.x p.y
  if 0 ≤ index then
    if index.toNat < g.cells.length then
      pure { g with cells := g.cells.modify index.toNat (addPoint rd · p) }
    else .error .outOfBounds
  else pure g

/-- src/ndt_model.cpp:132-152 `addScan`. -/
def addScan (g : NdtGrid) (s : Scan) : Res NdtGrid :=
  s.getPoints.foldlM (fun g p => addMapPoint rd g (mapPoint rd co si s.getPose p)) g

/-- src/ndt_model.cpp:154-160 `compute`. -/
def computeAll (g : NdtGrid) : NdtGrid := { g with cells := g.cells.map (compute rd es) }

/-- src/scan_matcher_ndt.cpp:49-74 `addScans`. -/
def addScans (mt : Matcher) (scans : List Scan) : Res Matcher := do
  let g ← mapGrid rd mt.resolution mt.rangeMax scans
  let g ← scans.foldlM (addScan rd co si) g
  pure { mt with ndt := some (computeAll rd es g) }

/-- src/ndt_model.cpp:162-170 `likelihood(Vector2d)`. -/
def likelihood (g : NdtGrid) (p : Point) : Res Fl := do
  let index ← getIndex rd g p.x p.y
  if 0 ≤ index then
    match g.cells[index.toNat]? with
    | some c => pure (score rd c p)
    | none => .error .outOfBounds
  else pure (.fin 0)

/-- src/ndt_model.cpp:178-187 `likelihood(vector<Point>)`. -/
def likelihoodPoints (g : NdtGrid) (ps : List Point) : Res Fl :=
  ps.foldlM (fun sum p => do pure (Fl.rounded rd (sum + (← likelihood rd g p)))) (.fin 0)

/-- `points[scan_idx]` (src/scan_matcher_ndt.cpp:106-115). -/
def beam (points : List Point) (m i : ℕ) : Res Point := do
  let idx ← beamIndex rd points.length m i
  match points[idx]? with
  | some p => pure p
  | none => .error .outOfBounds

/-- src/scan_matcher_ndt.cpp:106-115: the subsampled points rotated and shifted to the scan pose. -/
def outerPoints (points : List Point) (m : ℕ) (pose : Pose2d) (dth : ℝ) : Res (List Point) :=
  (List.range m).mapM fun i => do
    let p ← beam rd points m i
    pure ⟨rd (turnX rd co si (rd (pose.theta + dth)) p + pose.x), rd (turnY rd co si (rd (pose.theta + dth)) p + pose.y)⟩

open Classical in
/-- src/scan_matcher_ndt.cpp:103, 117, 119: the values a search variable takes, or a loop that does not end. -/
def searchVals (size res : ℝ) : Res (List ℝ) :=
  if h : ∃ n, ¬ Visits rd size res n then .ok ((List.range (Nat.find h)).map (searchVal rd size res)) else .error .hang

/-- src/scan_matcher_ndt.cpp:121-127: the score of the points shifted by `dx` and `dy`, before its sign is changed. -/
def shiftedScore (g : NdtGrid) (outer : List Point) (dx dy : ℝ) : Res Fl :=
  likelihoodPoints rd g (outer.map fun p => ⟨rd (p.x + dx), rd (p.y + dy)⟩)

/-- src/scan_matcher_ndt.cpp:128-140: what is done with the score of an offset. -/
def update (dth dx dy : ℝ) (score : Fl) (a : Matcher.SearchAcc) : Matcher.SearchAcc :=
  let x : Fin 3 → ℝ := ![dx, dy, dth]
  { best := if score < a.best then score else a.best
    pose := if score < a.best then ⟨dx, dy, dth⟩ else a.pose
    k := fun i j => Fl.rounded rd (a.k i j + Fl.rounded rd (.fin (rd (x i * x j)) * score))
    u := fun i => Fl.rounded rd (a.u i + Fl.rounded rd (.fin (x i) * score))
    s := Fl.rounded rd (a.s + score) }

/-- src/scan_matcher_ndt.cpp:103-143: the three nested loops. If a loop does not end, whatever else goes wrong in it is not
told apart. -/
def search (mt : Matcher) (g : NdtGrid) (points : List Point) (m : ℕ) (scanPose : Pose2d) (a : Matcher.SearchAcc) :
    Res Matcher.SearchAcc := do
  let dths ← searchVals rd mt.angularSize mt.angularRes
  dths.foldlM (fun a dth => do
    let outer ← outerPoints rd co si points m scanPose dth
    let ds ← searchVals rd mt.linearSize mt.linearRes
    ds.foldlM (fun a dx => ds.foldlM (fun a dy => do
      let v ← shiftedScore rd g outer dx dy
      pure (update rd dth dx dy (-v) a)) a) a) a

/-- src/scan_matcher_ndt.cpp:76-149 `matchScan`; `pose` and `covariance` are the caller's variables. -/
def matchScan (mt : Matcher) (scan : Scan) (pose : Pose2d) (covariance : Mat3F) : Res Matcher.MatchResult :=
  match mt.ndt with
  | none => .ok { score := .fin 0, pose, covariance }
  | some g => do
    let points := scan.getPoints
    let m := min mt.laserMaxBeams points.length
    let a ← search rd co si mt g points m scan.getPose
      { best := .fin 0, pose, k := fun _ _ => .fin 0, u := fun _ => .fin 0, s := .fin 0 }
    pure { score := Fl.rounded rd (a.best / .fin (rd m))
           pose := a.pose
           covariance := fun i j => Fl.rounded rd
             (Fl.rounded rd (Fl.rounded rd (.fin 1 / a.s) * a.k i j) +
              Fl.rounded rd (Fl.rounded rd (Fl.rounded rd (.fin 1 / Fl.rounded rd (a.s * a.s)) * a.u i) * a.u j)) }

end

end Ndt.Rounded
