import Verif.Model.Node
import Verif.Model.FilterF

/-! # The normal distributions of the filter (src/motion_model.cpp:69-71, src/particle_filter.cpp:56-58)

The standard requires that the deviation given to `std::normal_distribution` is positive. libstdc++ checks it when assertions are enabled
(`_GLIBCXX_ASSERTIONS`); otherwise the draws are the mean, or NaN, which is what `Model/Motion` and `Model/FilterF` have. -/

namespace Ndt

noncomputable section

/-- src/motion_model.cpp:69-71: means and deviations of the three distributions. -/
def MotionModel.asked (m : MotionModel) (d : Pose2d) : List (ℝ × Fl) :=
  [(rot1 d.x d.y, Fl.sqrt (.fin (m.radRot1 d.x d.y d.theta))), (trans d.x d.y, Fl.sqrt (.fin (m.radTrans d.x d.y d.theta))),
   (rot2 d.x d.y d.theta, Fl.sqrt (.fin (m.radRot2 d.x d.y d.theta)))]

/-- src/ndt_mapper.cpp:218-223, src/particle_filter.cpp:56-58: means and deviations of the three distributions. -/
def PoseMsg.asked (msg : PoseMsg) : List (ℝ × Fl) :=
  [(msg.pose.x, Fl.sqrt (.fin msg.covX)), (msg.pose.y, Fl.sqrt (.fin msg.covY)), (msg.pose.theta, Fl.sqrt (.fin msg.covTheta))]

namespace Node

/-- The distributions that a piece of work makes (src/ndt_mapper.cpp:218-223 and 473). -/
def asked (np : NodeParams) (n : Node) : Input → List (ℝ × Fl)
  | .filterScan _ _ => match n.sys.spin, n.filter, n.globalN with
      | .filter scan _, some f, some _ => f.motion.asked (control n.sys.prevRobot scan.getPose)
      | _, _, _ => []
  | .pose msg odom visit _ => if initsFilter np n msg odom visit ∧ n.filter.isSome then msg.asked else []
  | _ => []

instance (l : List (ℝ × Fl)) : Decidable (∀ a ∈ l, Fl.fin 0 < a.2) := Classical.propDecidable _

/-- A piece of work of a node that was built with the library's assertions (src/motion_model.cpp:69-71, src/particle_filter.cpp:56-58). -/
def checkedStep (np : NodeParams) (n : Node) (i : Input) : Res Node :=
  if ∀ a ∈ n.asked np i, Fl.fin 0 < a.2 then n.step np i else .error .abort

/-- A sequence of inputs for such a node (src/ndt_mapper.cpp:155-745). -/
def checkedRun (np : NodeParams) (n : Node) (is : List Input) : Res Node := is.foldlM (checkedStep np) n

end Node

end

end Ndt
