import Verif.Model.Filter
import Verif.Model.Matcher
import Verif.Model.Solver

/-!
# The particle filter with particles that need not be numbers (src/particle_filter.cpp, src/motion_model.cpp)

`Model/Filter` has particles of real numbers. Here the coordinates of a particle may be NaN or infinite, so that a square
root of a negative number (src/ndt_mapper.cpp:221-223, src/motion_model.cpp:60-66) is what it is in C++. C105 relates
the two.
-/

namespace Ndt

noncomputable section

/-- A particle, `Eigen::Vector3d` (include/ndt_2d/particle_filter.hpp:47). -/
structure PoseF where
  x : Fl
  y : Fl
  theta : Fl

/-- A particle of numbers (include/ndt_2d/particle_filter.hpp:47). -/
def Pose2d.toF (p : Pose2d) : PoseF := ⟨.fin p.x, .fin p.y, .fin p.theta⟩

/-- `std::cos` (src/particle_filter.cpp:183, src/motion_model.cpp:79). -/
def Fl.cos : Fl → Fl
  | .fin a => .fin (Real.cos a)
  | _ => .nan

/-- `std::sin` (src/particle_filter.cpp:184, src/motion_model.cpp:80). -/
def Fl.sin : Fl → Fl
  | .fin a => .fin (Real.sin a)
  | _ => .nan

namespace MotionModel

/-- A draw of `std::normal_distribution` with a standard deviation that is the square root of a number: the draw times
NaN plus the mean is NaN (src/motion_model.cpp:69-77, src/particle_filter.cpp:56-65). -/
def drawF (nrm : Draws) (k : ℕ) (mean : ℝ) : Fl → Fl
  | .fin s => .fin (nrm k mean s)
  | _ => .nan

/-- src/motion_model.cpp:60-82: one pose; draws number `k`, `k+1`, `k+2`. -/
def sampleOneF (m : MotionModel) (nrm : Draws) (k : ℕ) (dx dy dth : ℝ) (pose : PoseF) : PoseF :=
  let r1 := drawF nrm k (rot1 dx dy) (Fl.sqrt (.fin (m.radRot1 dx dy dth)))
  let t := drawF nrm (k + 1) (trans dx dy) (Fl.sqrt (.fin (m.radTrans dx dy dth)))
  let r2 := drawF nrm (k + 2) (rot2 dx dy dth) (Fl.sqrt (.fin (m.radRot2 dx dy dth)))
  ⟨pose.x + t * (pose.theta + r1).cos, pose.y + t * (pose.theta + r1).sin, normalizeAngleF (pose.theta + r1 + r2)⟩

/-- src/motion_model.cpp:45-83 `MotionModel::sample`. -/
def sampleF (m : MotionModel) (nrm : Draws) (dx dy dth : ℝ) (poses : List PoseF) : List PoseF :=
  poses.mapIdx fun i p => m.sampleOneF nrm (3 * i) dx dy dth p

end MotionModel

/-- include/ndt_2d/kd_tree.hpp:99-102: the key of a pose. -/
def KdTree.keyOfF (t : KdTree) (p : PoseF) : Res Key := do
  let kx ← toI32F (p.x / .fin (t.cellSize 0))
  let ky ← toI32F (p.y / .fin (t.cellSize 1))
  let kt ← toI32F (p.theta / .fin (t.cellSize 2))
  pure ![kx, ky, kt]

/-- include/ndt_2d/kd_tree.hpp:97-118 `insert`. -/
def KdTree.insertF (t : KdTree) (p : PoseF) (w : Fl) : Res KdTree := do
  let k ← t.keyOfF p
  match t.root with
  | none => pure { t with root := some (.leaf k w), leafCount := t.leafCount + 1 }
  | some r => do
    let (r', n) ← r.insert k w
    pure { t with root := some r', leafCount := t.leafCount + n }

/-- src/ndt_model.cpp:162-170 `likelihood`. A square is found only for two numbers. -/
def NdtGrid.likelihoodF (g : NdtGrid) (x y : Fl) : Res Fl :=
  match x, y with
  | .fin a, .fin b => g.likelihood ⟨a, b⟩
  | x, y => do
    let index ← g.getIndexF x y
    if 0 ≤ index then .error .unmodelled else pure (.fin 0)

/-- src/scan_matcher_ndt.cpp:156-178 `scorePoints`. -/
def Matcher.scorePointsF (mt : Matcher) (points : List Point) (pose : PoseF) : Res Fl :=
  match mt.ndt with
  | none => .ok (.fin 0)
  | some g => do
    let m := min mt.laserMaxBeams points.length
    let score ← (List.range m).foldlM (fun score i => do
      let p ← beam points m i
      pure (score + -(← g.likelihoodF
        (pose.theta.cos * .fin p.x + -pose.theta.sin * .fin p.y + pose.x)
        (pose.theta.sin * .fin p.x + pose.theta.cos * .fin p.y + pose.y)))) (Fl.fin 0)
    pure (score / .fin m)

/-- include/ndt_2d/particle_filter.hpp:100-114, see `Filter`. -/
structure FilterF where
  motion : MotionModel
  minP : ℕ
  maxP : ℕ
  particles : List PoseF
  weights : List Fl
  mean : Fin 3 → Fl
  cov : Fin 3 → Fin 3 → Fl
  kd : KdTree

namespace FilterF

/-- A loop `acc += weights_[i] * f(particles_[i])` (src/particle_filter.cpp:182-186). -/
def accum (ws : List Fl) (ps : List PoseF) (f : PoseF → Fl) : Fl :=
  (ws.zip ps).foldl (fun acc wp => acc + wp.1 * f wp.2) (.fin 0)

/-- A loop `acc += weights_[i] * f(particles_[i]) * g(particles_[i])` starting at `a`
(src/particle_filter.cpp:188-194, 213-217). -/
def accum2 (a : Fl) (ws : List Fl) (ps : List PoseF) (f g : PoseF → Fl) : Fl :=
  (ws.zip ps).foldl (fun acc wp => acc + wp.1 * f wp.2 * g wp.2) a

/-- src/particle_filter.cpp:163-218 `updateStatistics`. -/
def updateStatistics (f : FilterF) : Res FilterF :=
  let sum := Filter.sumWeights f.weights
  let ws := f.weights.map (· / sum)
  if ws.length < f.particles.length then .error .outOfBounds else
  let ps := f.particles
  let mx := accum ws ps (·.x)
  let my := accum ws ps (·.y)
  let sumCos := accum ws ps fun p => p.theta.cos
  let sumSin := accum ws ps fun p => p.theta.sin
  let mth := atan2F sumSin sumCos
  let cxx := accum2 (.fin 0) ws ps (·.x) (·.x) - mx * mx
  let cxy := accum2 (.fin 0) ws ps (·.x) (·.y) - mx * my
  let cyy := accum2 (.fin 0) ws ps (·.y) (·.y) - my * my
  let d : PoseF → Fl := fun p => normalizeAngleF (mth - p.theta)
  let ctt := accum2 (f.cov 2 2) ws ps d d
  .ok { f with
    weights := ws
    mean := ![mx, my, mth]
    cov := ![![cxx, cxy, f.cov 0 2], ![cxy, cyy, f.cov 1 2], ![f.cov 2 0, f.cov 2 1, ctt]] }

/-- src/particle_filter.cpp:53-69 `init`. -/
def init (f : FilterF) (nrm : MotionModel.Draws) (x y theta : ℝ) (sx sy sth : Fl) : Res FilterF :=
  let ps := f.particles.mapIdx fun i _ =>
    (⟨MotionModel.drawF nrm (3 * i) x sx, MotionModel.drawF nrm (3 * i + 1) y sy,
      normalizeAngleF (MotionModel.drawF nrm (3 * i + 2) theta sth)⟩ : PoseF)
  updateStatistics { f with
    particles := ps
    weights := List.replicate ps.length (.fin 1 / .fin (ps.length : ℕ)) }

/-- src/ndt_mapper.cpp:218-223: the call of `init` for a message with the given variances. -/
def initMsg (f : FilterF) (nrm : MotionModel.Draws) (pose : Pose2d) (vx vy vth : ℝ) : Res FilterF :=
  f.init nrm pose.x pose.y pose.theta (Fl.sqrt (.fin vx)) (Fl.sqrt (.fin vy)) (Fl.sqrt (.fin vth))

/-- src/particle_filter.cpp:71-76 `update`. -/
def update (f : FilterF) (nrm : MotionModel.Draws) (dx dy dth : ℝ) : Res FilterF :=
  updateStatistics { f with particles := f.motion.sampleF nrm dx dy dth f.particles }

/-- src/particle_filter.cpp:78-89 `measure`. -/
def measure (f : FilterF) (score : PoseF → Res Fl) : Res FilterF := do
  let ws ← f.particles.mapM score
  if f.weights.length < f.particles.length then .error .outOfBounds
  else updateStatistics { f with weights := ws ++ f.weights.drop f.particles.length }

/-- src/particle_filter.cpp:108-131: the sampling loop, see `Filter.resampleLoop`. -/
def resampleLoop (f : FilterF) (err z : ℝ) (draw : ℕ → ℕ) (rs : List PoseF) (ws : List Fl) (kd : KdTree) (mx : ℕ) :
    Res (List PoseF × List Fl × KdTree) :=
  if rs.length < max f.minP mx then
    match f.particles[draw rs.length]?, f.weights[draw rs.length]? with
    | some x, some w =>
      match kd.insertF x w with
      | .error e => .error e
      | .ok kd' =>
        match (if 1 < kd'.getLeafCount then Filter.kldSize err z kd'.getLeafCount else .ok mx) with
        | .error e => .error e
        | .ok mx' =>
          if h : f.maxP ≤ rs.length + 1 then .ok (rs ++ [x], ws ++ [w], kd')
          else resampleLoop f err z draw (rs ++ [x]) (ws ++ [w]) kd' mx'
    | _, _ => .error .outOfBounds
  else .ok (rs, ws, kd)
termination_by f.maxP - rs.length
decreasing_by
  simp only [List.length_append, List.length_cons, List.length_nil]
  omega

/-- src/particle_filter.cpp:91-137 `resample`. -/
def resample (f : FilterF) (err z : ℝ) (draw : ℕ → ℕ) : Res FilterF :=
  match resampleLoop f err z draw [] [] f.kd.clear f.maxP with
  | .error e => .error e
  | .ok (rs, ws, kd) => updateStatistics { f with particles := rs, weights := ws, kd := kd }

/-- What can be asked of the filter by the node (src/ndt_mapper.cpp:218-223, 473-475). -/
inductive Op where
  | initMsg (nrm : MotionModel.Draws) (pose : Pose2d) (vx vy vth : ℝ)
  | update (nrm : MotionModel.Draws) (dx dy dth : ℝ)
  | measure (mt : Matcher) (points : List Point)
  | resample (err z : ℝ) (draw : ℕ → ℕ)

/-- One request (src/ndt_mapper.cpp:218-223, 473-475). -/
def step (f : FilterF) : Op → Res FilterF
  | .initMsg nrm pose vx vy vth => f.initMsg nrm pose vx vy vth
  | .update nrm dx dy dth => f.update nrm dx dy dth
  | .measure mt points => f.measure (mt.scorePointsF points)
  | .resample err z draw => f.resample err z draw

/-- A history of requests (src/ndt_mapper.cpp:218-223, 473-475). -/
def run (f : FilterF) (ops : List Op) : Res FilterF := ops.foldlM step f

/-- src/particle_filter.cpp:36-51: the constructor. -/
def new (m : MotionModel) (minP maxP : ℕ) : Res FilterF :=
  updateStatistics
    ⟨m, minP, maxP, List.replicate minP Pose2d.zero.toF, List.replicate minP (.fin 1 / .fin minP),
     fun _ => .fin 0, fun _ _ => .fin 0, KdTree.new 0.5 0.5 0.2671⟩

end FilterF

end

end Ndt
