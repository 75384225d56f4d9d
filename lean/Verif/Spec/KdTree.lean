import Verif.Model.KdTree

/-! # Specification of the KD-tree -/

namespace Ndt.Spec

noncomputable section

/-- The bin of a pose: every coordinate divided by the bin size and truncated toward zero. -/
def bin (size : Fin 3 → ℝ) (p : Pose2d) : Key :=
  ![truncZ (p.x / size 0), truncZ (p.y / size 1), truncZ (p.theta / size 2)]

/-- What was inserted since the last clear, in order. -/
def inserted : List KdTree.Op → List (Pose2d × Fl)
  | ops => ops.foldl (fun acc op => match op with
      | .insert p w => acc ++ [(p, w)]
      | .clear => []) []

/-- Sum of weights, added from the left. -/
def sumFl (ws : List Fl) : Fl := ws.foldl (· + ·) (.fin 0)

/-- The weights inserted under a bin, in order. -/
def weightsOf (size : Fin 3 → ℝ) (k : Key) (ins : List (Pose2d × Fl)) : List Fl :=
  (ins.filter fun x => bin size x.1 = k).map (·.2)

/-- The bins inserted into, each once. -/
def bins (size : Fin 3 → ℝ) (ins : List (Pose2d × Fl)) : Finset Key :=
  (ins.map fun x => bin size x.1).toFinset

/-- The leaves of a tree from left to right. -/
def leaves : KdNode → List (Key × Fl)
  | .leaf k v => [(k, v)]
  | .inner _ _ l r => leaves l ++ leaves r

/-- The leaves of a possibly empty tree. -/
def treeLeaves (t : KdTree) : List (Key × Fl) := (t.root.map leaves).getD []

/-- The bin of a pose is small enough for `int` arithmetic on differences and sums of bins. -/
def BinFits (size : Fin 3 → ℝ) (p : Pose2d) : Prop := ∀ i, |bin size p i| < 2 ^ 30

end

end Ndt.Spec
