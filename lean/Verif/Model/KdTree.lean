import Verif.Base.Fl
import Verif.Model.Geometry
import Mathlib.Data.Fin.VecNotation

/-! # The unbalanced KD-tree used for KLD resampling (include/ndt_2d/kd_tree.hpp, instance `T = double`) -/

namespace Ndt

noncomputable section

/-- A discretised key (include/ndt_2d/kd_tree.hpp:66). -/
abbrev Key := Fin 3 → ℤ

/-- include/ndt_2d/kd_tree.hpp:50-73 `Node`. A node with `pivot = -1` is a leaf with a key and a value, otherwise
it has a pivot axis, a pivot value and two children. (The key an inner node keeps is never read again.) -/
inductive KdNode where
  | leaf (key : Key) (value : Fl)
  | inner (pivot : Fin 3) (value : ℝ) (left right : KdNode)

namespace KdNode

/-- include/ndt_2d/kd_tree.hpp:159: `abs(parent->key[i] - k[i])` on `int`; overflow of either operation is
undefined. -/
def variation (a b : ℤ) : Res ℤ := do
  let d ← int32 (a - b)
  int32 |d|

/-- include/ndt_2d/kd_tree.hpp:156-165: the axis of largest variation, the first one on ties. Starts with pivot -1;
`none` stands for it. -/
def pivotAxis (a b : Key) : Res (Option (Fin 3)) := do
  let (p, _) ← ([0, 1, 2] : List (Fin 3)).foldlM (fun (acc : Option (Fin 3) × ℤ) i => do
    let v ← variation (a i) (b i)
    (pure (if v > acc.2 then (some i, v) else acc) : Res _)) (none, 0)
  pure p

/-- include/ndt_2d/kd_tree.hpp:132-189 `_insert` with a null `node` (the only way it is called): descend, add to
an equal leaf, or split a leaf in two. Returns the tree and the number of leaves created. A split that found no axis
would index with -1. -/
def insert : KdNode → Key → Fl → Res (KdNode × ℕ)
  | inner p v l r, k, w =>
    if ((k p : ℤ) : ℝ) < v then do
      let (l', n) ← l.insert k w
      pure (inner p v l' r, n)
    else do
      let (r', n) ← r.insert k w
      pure (inner p v l r', n)
  | leaf k0 v0, k, w =>
    if k0 0 = k 0 ∧ k0 1 = k 1 ∧ k0 2 = k 2 then
      pure (leaf k0 (v0 + w), 0)
    else do
      match ← pivotAxis k0 k with
      | none => .error .outOfBounds
      | some p =>
        let s ← int32 (k0 p + k p)
        let pv : ℝ := (s : ℝ) / 2
        pure (if ((k p : ℤ) : ℝ) < pv then inner p pv (leaf k w) (leaf k0 v0)
              else inner p pv (leaf k0 v0) (leaf k w), 1)

end KdNode

/-- include/ndt_2d/kd_tree.hpp:191-195. `nodes_` is kept as its first element, the root; the other elements only
keep the nodes alive. -/
structure KdTree where
  cellSize : Fin 3 → ℝ
  leafCount : ℕ
  root : Option KdNode

namespace KdTree

/-- include/ndt_2d/kd_tree.hpp:87-92: the constructor. -/
def new (sx sy sth : ℝ) : KdTree := ⟨![sx, sy, sth], 0, none⟩

/-- include/ndt_2d/kd_tree.hpp:99-102: the key of a pose; conversion to `int` truncates toward zero. -/
def keyOf (t : KdTree) (p : Pose2d) : Res Key := do
  let kx ← toI32F (.fin p.x / .fin (t.cellSize 0))
  let ky ← toI32F (.fin p.y / .fin (t.cellSize 1))
  let kt ← toI32F (.fin p.theta / .fin (t.cellSize 2))
  pure ![kx, ky, kt]

/-- include/ndt_2d/kd_tree.hpp:97-118 `insert`. -/
def insert (t : KdTree) (p : Pose2d) (w : Fl) : Res KdTree := do
  let k ← t.keyOf p
  match t.root with
  | none => pure { t with root := some (.leaf k w), leafCount := t.leafCount + 1 }
  | some r => do
    let (r', n) ← r.insert k w
    pure { t with root := some r', leafCount := t.leafCount + n }

/-- include/ndt_2d/kd_tree.hpp:120-123 `getLeafCount`. -/
def getLeafCount (t : KdTree) : ℕ := t.leafCount

/-- include/ndt_2d/kd_tree.hpp:125-129 `clear`. -/
def clear (t : KdTree) : KdTree := { t with root := none, leafCount := 0 }

/-- The public calls that change a tree (include/ndt_2d/kd_tree.hpp:76-129). -/
inductive Op where
  | insert (p : Pose2d) (w : Fl)
  | clear

/-- One call (include/ndt_2d/kd_tree.hpp:76-129). -/
def step (t : KdTree) : Op → Res KdTree
  | .insert p w => t.insert p w
  | .clear => pure t.clear

/-- A history of calls (include/ndt_2d/kd_tree.hpp:76-129). -/
def run (t : KdTree) (ops : List Op) : Res KdTree := ops.foldlM step t

end KdTree

end

end Ndt
