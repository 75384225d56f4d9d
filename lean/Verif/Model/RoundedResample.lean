import Verif.Model.Rounded
import Verif.Model.Solver
import Verif.Model.Filter

/-! # Resampling in double precision (src/particle_filter.cpp:91-137, include/ndt_2d/kd_tree.hpp)

Every operation on doubles is followed by the rounding `rd`. The sums of weights that the leaves of the tree keep are never read while
resampling and are left exact. The value of an inner node is the half of an `int`, which is exact in double precision. -/

namespace Ndt.Rounded

noncomputable section

/-- include/ndt_2d/kd_tree.hpp:99-102: the key of a pose. -/
def keyOf (rd : ℝ → ℝ) (t : KdTree) (p : Pose2d) : Res Key := do
  let kx ← toI32F (Fl.rounded rd (.fin p.x / .fin (t.cellSize 0)))
  let ky ← toI32F (Fl.rounded rd (.fin p.y / .fin (t.cellSize 1)))
  let kt ← toI32F (Fl.rounded rd (.fin p.theta / .fin (t.cellSize 2)))
  pure ![kx, ky, kt]

/-- include/ndt_2d/kd_tree.hpp:97-118 `insert`. -/
def kdInsert (rd : ℝ → ℝ) (t : KdTree) (p : Pose2d) (w : Fl) : Res KdTree := do
  let k ← keyOf rd t p
  match t.root with
  | none => pure { t with root := some (.leaf k w), leafCount := t.leafCount + 1 }
  | some r => do
    let (r', n) ← r.insert k w
    pure { t with root := some r', leafCount := t.leafCount + n }

/-- src/particle_filter.cpp:120-123: the bound for `k` bins, converted to `size_t`. The count `k - 1` is converted to `double`; the root is
correctly rounded. -/
def kldSize (rd : ℝ → ℝ) (err z : ℝ) (k : ℕ) : Res ℕ :=
  let n : Fl := .fin (rd ((k - 1 : ℕ) : ℝ))
  let a : Fl := Fl.rounded rd (n / Fl.rounded rd (.fin 2 * .fin err))
  let b : Fl := Fl.rounded rd (.fin 2 / Fl.rounded rd (.fin 9 * n))
  let c : Fl := Fl.rounded rd (Fl.rounded rd (.fin 1 - b) + Fl.rounded rd (Fl.rounded rd (Fl.sqrt b) * .fin z))
  toU64F (Fl.rounded rd (Fl.rounded rd (Fl.rounded rd (a * c) * c) * c))

/-- src/particle_filter.cpp:108-131: the sampling loop, see `Filter.resampleLoop`. -/
def resampleLoop (rd : ℝ → ℝ) (f : Filter) (err z : ℝ) (draw : ℕ → ℕ) (rs : List Pose2d) (ws : List Fl) (kd : KdTree) (mx : ℕ) :
    Res (List Pose2d × List Fl × KdTree) :=
  if rs.length < max f.minP mx then
    match f.particles[draw rs.length]?, f.weights[draw rs.length]? with
    | some x, some w =>
      match kdInsert rd kd x w with
      | .error e => .error e
      | .ok kd' =>
        match (if 1 < kd'.getLeafCount then kldSize rd err z kd'.getLeafCount else .ok mx) with
        | .error e => .error e
        | .ok mx' =>
          if h : f.maxP ≤ rs.length + 1 then .ok (rs ++ [x], ws ++ [w], kd')
          else resampleLoop rd f err z draw (rs ++ [x]) (ws ++ [w]) kd' mx'
    | _, _ => .error .outOfBounds
  else .ok (rs, ws, kd)
termination_by f.maxP - rs.length
decreasing_by
  simp only [List.length_append, List.length_cons, List.length_nil]
  omega

/-- src/particle_filter.cpp:91-134 `resample`, the particles and the weights that result; the statistics (line 136) are in
`Model/RoundedFilter`. -/
def resampled (rd : ℝ → ℝ) (f : Filter) (err z : ℝ) (draw : ℕ → ℕ) : Res (List Pose2d × List Fl) :=
  match resampleLoop rd f err z draw [] [] f.kd.clear f.maxP with
  | .error e => .error e
  | .ok (rs, ws, _) => .ok (rs, ws)

end

end Ndt.Rounded
