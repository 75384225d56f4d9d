import Verif.Model.Node
import Verif.Spec.Mapper

/-! # Executions of the node -/

namespace Ndt.Spec

noncomputable section

/-- An execution of the node by allowed inputs (`A`), without running into undefined behaviour. -/
inductive NodeExec (np : NodeParams) (A : Node → Input → Prop) (n : Node) : List Input → Node → Prop
  | nil : NodeExec np A n [] n
  | snoc {is : List Input} {t t' : Node} {i : Input} : NodeExec np A n is t → A t i → t.step np i = .ok t' →
      NodeExec np A n (is ++ [i]) t'

/-- Nodes that can be reached when the map given at the start and all maps loaded later are good (`W`), by allowed
inputs. -/
def NodeReach (np : NodeParams) (W : Graph → Prop) (A : Node → Input → Prop) (n : Node) : Prop :=
  ∃ enable file n0 is, Node.start np enable file = .ok n0 ∧
    (∀ bag, file = some bag → ∀ g, Graph.load np.map.useBarycenter bag = .ok g → W g) ∧
    NodeExec np (fun n i => A n i ∧ ∀ action bag, i = .plain (.configure action bag) →
      ∀ g, Graph.load np.map.useBarycenter bag = .ok g → W g) n0 is n

/-- `m` is the motion from `a` to `b` as seen from `a`, its turn the shorter way round. -/
def IsMotion (a b m : Pose2d) : Prop := SamePose (compose a m) b ∧ -Real.pi < m.theta ∧ m.theta ≤ Real.pi

/-- The matcher has the parameters of `cfg`. -/
def HasParams (cfg m : Matcher) : Prop := ∃ r nd, m = { cfg with rangeMax := r, ndt := nd }

/-- The matcher has the parameters of `cfg`, and its map was built of the scans `w`. -/
def BuiltOf (cfg : Matcher) (w : List Scan) (m : Matcher) : Prop :=
  ∃ r, Matcher.addScans { cfg with rangeMax := r, ndt := none } w = .ok m

/-- Parameters a matcher cannot work with: squares without a side, or a step that never takes a search to its end. -/
def Unusable (cfg : Matcher) : Prop :=
  cfg.resolution = 0 ∨ 0 < cfg.angularSize ∧ (cfg.angularRes ≤ 0 ∨ 0 < cfg.linearSize ∧ cfg.linearRes ≤ 0)

end

end Ndt.Spec
