import Verif.Model.KdTree
import Verif.Model.Motion

/-! # The particle filter (src/particle_filter.cpp) -/

namespace Ndt

noncomputable section

/-- include/ndt_2d/particle_filter.hpp:100-114. A particle is an `Eigen::Vector3d` (x, y, theta). The random engine
is not part of the state: draws are arguments of the operations that draw. Particles are real numbers, weights and
what is computed from them may be NaN or infinite. -/
structure Filter where
  motion : MotionModel
  minP : ℕ
  maxP : ℕ
  particles : List Pose2d
  weights : List Fl
  mean : Fin 3 → Fl
  cov : Fin 3 → Fin 3 → Fl
  kd : KdTree

namespace Filter

/-- src/particle_filter.cpp:166-170: sum of the weights from the left. -/
def sumWeights (ws : List Fl) : Fl := ws.foldl (· + ·) (.fin 0)

/-- A loop `acc += weights_[i] * f(particles_[i])` (src/particle_filter.cpp:182-186). -/
def accum (ws : List Fl) (ps : List Pose2d) (f : Pose2d → ℝ) : Fl :=
  (ws.zip ps).foldl (fun acc wp => acc + wp.1 * .fin (f wp.2)) (.fin 0)

/-- A loop `acc += weights_[i] * f(particles_[i]) * g(particles_[i])` starting at `a`
(src/particle_filter.cpp:188-194, 213-217). -/
def accum2 (a : Fl) (ws : List Fl) (ps : List Pose2d) (f g : Pose2d → Fl) : Fl :=
  (ws.zip ps).foldl (fun acc wp => acc + wp.1 * f wp.2 * g wp.2) a

/-- src/particle_filter.cpp:163-218 `updateStatistics`. Reading `weights_[i]` for a particle without a weight is out
of bounds. Entries of `cov_` that are not assigned keep their value; `cov_(2,2)` is added to (line 216). -/
def updateStatistics (f : Filter) : Res Filter :=
  let sum := sumWeights f.weights
  let ws := f.weights.map (· / sum)
  if ws.length < f.particles.length then .error .outOfBounds else
  let ps := f.particles
  let mx := accum ws ps (·.x)
  let my := accum ws ps (·.y)
  let sumCos := accum ws ps fun p => Real.cos p.theta
  let sumSin := accum ws ps fun p => Real.sin p.theta
  let mth := atan2F sumSin sumCos
  let cxx := accum2 (.fin 0) ws ps (fun p => .fin p.x) (fun p => .fin p.x) - mx * mx
  let cxy := accum2 (.fin 0) ws ps (fun p => .fin p.x) (fun p => .fin p.y) - mx * my
  let cyy := accum2 (.fin 0) ws ps (fun p => .fin p.y) (fun p => .fin p.y) - my * my
  let d : Pose2d → Fl := fun p => normalizeAngleF (mth - .fin p.theta)
  let ctt := accum2 (f.cov 2 2) ws ps d d
  .ok { f with
    weights := ws
    mean := ![mx, my, mth]
    cov := ![![cxx, cxy, f.cov 0 2], ![cxy, cyy, f.cov 1 2], ![f.cov 2 0, f.cov 2 1, ctt]] }

/-- src/particle_filter.cpp:36-51: the constructor. -/
def new (m : MotionModel) (minP maxP : ℕ) : Res Filter :=
  updateStatistics
    ⟨m, minP, maxP, List.replicate minP Pose2d.zero, List.replicate minP (.fin 1 / .fin minP),
     fun _ => .fin 0, fun _ _ => .fin 0, KdTree.new 0.5 0.5 0.2671⟩

/-- src/particle_filter.cpp:53-69 `init`; `nrm k mean sigma` is the k-th normal draw. -/
def init (f : Filter) (nrm : MotionModel.Draws) (x y theta sx sy sth : ℝ) : Res Filter :=
  let ps := f.particles.mapIdx fun i _ =>
    (⟨nrm (3 * i) x sx, nrm (3 * i + 1) y sy, normalizeAngle (nrm (3 * i + 2) theta sth)⟩ : Pose2d)
  updateStatistics { f with
    particles := ps
    weights := List.replicate ps.length (.fin 1 / .fin (ps.length : ℕ)) }

/-- src/particle_filter.cpp:71-76 `update`. -/
def update (f : Filter) (nrm : MotionModel.Draws) (dx dy dth : ℝ) : Res Filter :=
  updateStatistics { f with particles := f.motion.sample nrm dx dy dth f.particles }

/-- src/particle_filter.cpp:78-89 `measure`. `score` is `matcher->scorePoints(scan->getPoints(), ·)` of the scan
matcher plugin, which may meet undefined behaviour. Writing `weights_[i]` beyond the weights is out of bounds. -/
def measure (f : Filter) (score : Pose2d → Res Fl) : Res Filter := do
  let ws ← f.particles.mapM score
  if f.weights.length < f.particles.length then .error .outOfBounds
  else updateStatistics { f with weights := ws ++ f.weights.drop f.particles.length }

/-- src/particle_filter.cpp:120-123: the KLD bound for `k` bins, converted to `size_t`. -/
def kldSize (err z : ℝ) (k : ℕ) : Res ℕ :=
  let a : Fl := .fin ((k - 1 : ℕ) : ℝ) / .fin (2 * err)
  let b : ℝ := 2 / (9 * ((k - 1 : ℕ) : ℝ))
  let c : ℝ := 1 - b + Real.sqrt b * z
  toU64F (a * .fin c * .fin c * .fin c)

/-- src/particle_filter.cpp:108-131: the sampling loop, after `rs.length` draws. `draw n` is the n-th result of
the discrete distribution. That Lean accepts the recursion (`maxP - rs.length` decreases) is the proof that the loop
ends. -/
def resampleLoop (f : Filter) (err z : ℝ) (draw : ℕ → ℕ) (rs : List Pose2d) (ws : List Fl) (kd : KdTree) (mx : ℕ) :
    Res (List Pose2d × List Fl × KdTree) :=
  if rs.length < max f.minP mx then
    match f.particles[draw rs.length]?, f.weights[draw rs.length]? with
    | some x, some w =>
      match kd.insert x w with
      | .error e => .error e
      | .ok kd' =>
        match (if 1 < kd'.getLeafCount then kldSize err z kd'.getLeafCount else .ok mx) with
        | .error e => .error e
        | .ok mx' =>
          if h : f.maxP ≤ rs.length + 1 then .ok (rs ++ [x], ws ++ [w], kd')
          else resampleLoop f err z draw (rs ++ [x]) (ws ++ [w]) kd' mx'
    | _, _ => .error .outOfBounds
  else .ok (rs, ws, kd)
termination_by f.maxP - rs.length
decreasing_by
  simp only [List.length_append, List.length_cons, List.length_nil]
  omega

/-- src/particle_filter.cpp:91-137 `resample`. The drawn particles keep the weights they had (line 114). -/
def resample (f : Filter) (err z : ℝ) (draw : ℕ → ℕ) : Res Filter :=
  match resampleLoop f err z draw [] [] f.kd.clear f.maxP with
  | .error e => .error e
  | .ok (rs, ws, kd) => updateStatistics { f with particles := rs, weights := ws, kd := kd }

/-- src/particle_filter.cpp:139-142 `getMean`. -/
def getMean (f : Filter) : Fin 3 → Fl := f.mean

/-- src/particle_filter.cpp:144-147 `getCovariance`. -/
def getCovariance (f : Filter) : Fin 3 → Fin 3 → Fl := f.cov

/-- A `geometry_msgs::msg::Pose` in the plane: z, and x and y of the orientation, keep their default 0
(src/particle_filter.cpp:149-161). -/
structure PoseMsg where
  x : ℝ
  y : ℝ
  orientation : PlanarQuat

/-- src/particle_filter.cpp:149-161 `getMsg` appends to the message's poses. -/
def getMsg (f : Filter) (msg : List PoseMsg) : List PoseMsg :=
  msg ++ f.particles.map fun p => ⟨p.x, p.y, ⟨Real.sin (p.theta / 2), Real.cos (p.theta / 2)⟩⟩

/-- The public operations that change a filter (include/ndt_2d/particle_filter.hpp:49-95). -/
inductive Op where
  | init (nrm : MotionModel.Draws) (x y theta sx sy sth : ℝ)
  | update (nrm : MotionModel.Draws) (dx dy dth : ℝ)
  | measure (score : Pose2d → Res Fl)
  | resample (err z : ℝ) (draw : ℕ → ℕ)

/-- One operation (include/ndt_2d/particle_filter.hpp:49-95). -/
def step (f : Filter) : Op → Res Filter
  | .init nrm x y theta sx sy sth => f.init nrm x y theta sx sy sth
  | .update nrm dx dy dth => f.update nrm dx dy dth
  | .measure score => f.measure score
  | .resample err z draw => f.resample err z draw

/-- A history of operations (include/ndt_2d/particle_filter.hpp:49-95). -/
def run (f : Filter) (ops : List Op) : Res Filter := ops.foldlM step f

end Filter

end

end Ndt
