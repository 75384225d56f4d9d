import Verif.Model.RoundedPose
import Verif.Model.Motion
import Verif.Model.Single
import Verif.Model.Rounded
import Verif.Model.Solver

/-! # The motion model in double precision (src/motion_model.cpp)

Every operation is followed by the rounding `rd`; `hyp`, `at2`, `co` and `si` are the functions of the C library. The normal draws are
numbers of type `float`, as in `Model/Single`. -/

namespace Ndt.Rounded

noncomputable section

/-- src/motion_model.cpp:50 `rot1`; `hyp dx dy` is `trans` (line 49). -/
def rot1 (rd : ℝ → ℝ) (hyp at2 : ℝ → ℝ → ℝ) (dx dy : ℝ) : ℝ := if hyp dx dy > rd 0.01 then at2 dy dx else 0

/-- src/motion_model.cpp:51 `rot2`. -/
def rot2 (rd : ℝ → ℝ) (hyp at2 : ℝ → ℝ → ℝ) (dx dy dth : ℝ) : ℝ := shortestAngularDistance rd (rot1 rd hyp at2 dx dy) dth

/-- src/motion_model.cpp:54-57 `rot1_`, `rot2_`. -/
def fold (rd : ℝ → ℝ) (r : ℝ) : ℝ := min |shortestAngularDistance rd r 0| |shortestAngularDistance rd r piD|

/-- `a * x * x` (src/motion_model.cpp:60-66). -/
def timesSquare (rd : ℝ → ℝ) (a x : ℝ) : ℝ := rd (rd (a * x) * x)

/-- src/motion_model.cpp:60-61 `sigma_rot1`, a correctly rounded square root. -/
def sigmaRot1 (rd : ℝ → ℝ) (hyp at2 : ℝ → ℝ → ℝ) (m : MotionModel) (dx dy _dth : ℝ) : Fl :=
  Fl.rounded rd (Fl.sqrt (.fin (rd (timesSquare rd m.a1 (fold rd (rot1 rd hyp at2 dx dy)) + timesSquare rd m.a2 (hyp dx dy)))))

/-- src/motion_model.cpp:62-64 `sigma_trans`. -/
def sigmaTrans (rd : ℝ → ℝ) (hyp at2 : ℝ → ℝ → ℝ) (m : MotionModel) (dx dy dth : ℝ) : Fl :=
  Fl.rounded rd (Fl.sqrt (.fin (rd (rd (timesSquare rd m.a3 (hyp dx dy) + timesSquare rd m.a4 (fold rd (rot1 rd hyp at2 dx dy))) +
    timesSquare rd m.a4 (fold rd (rot2 rd hyp at2 dx dy dth))))))

/-- src/motion_model.cpp:65-66 `sigma_rot2`. -/
def sigmaRot2 (rd : ℝ → ℝ) (hyp at2 : ℝ → ℝ → ℝ) (m : MotionModel) (dx dy dth : ℝ) : Fl :=
  Fl.rounded rd (Fl.sqrt (.fin (rd (timesSquare rd m.a1 (fold rd (rot2 rd hyp at2 dx dy dth)) + timesSquare rd m.a2 (hyp dx dy)))))

/-- src/motion_model.cpp:79-81: a pose moved by the draws `r1`, `t` and `r2`, which are converted to `double` without error. -/
def moved (rd co si : ℝ → ℝ) (r1 t r2 : ℝ) (p : Pose2d) : Pose2d :=
  ⟨rd (p.x + rd (t * co (rd (p.theta + r1)))), rd (p.y + rd (t * si (rd (p.theta + r1)))),
   normalizeAngle rd (rd (rd (p.theta + r1) + r2))⟩

/-- `std::normal_distribution<float>` (src/motion_model.cpp:69-77), as `MotionModel.floatDraws`, for a deviation that may be NaN: then the draw
is NaN. `z` is the standard normal number. -/
def floatDraw (rf : ℝ → ℝ) (z mean : ℝ) (sigma : Fl) : Fl := Fl.rounded rf (Fl.rounded rf (.fin z * Fl.rounded rf sigma) + .fin (rf mean))

/-- src/motion_model.cpp:45-83 `sample`, for one pose and the standard normal numbers `z`. The result is `none` if a draw is not a number
(`Model/FilterF` has what then happens to the pose). -/
def sampleOne (rd rf co si : ℝ → ℝ) (hyp at2 : ℝ → ℝ → ℝ) (m : MotionModel) (z : Fin 3 → ℝ) (dx dy dth : ℝ) (p : Pose2d) : Option Pose2d :=
  match floatDraw rf (z 0) (rot1 rd hyp at2 dx dy) (sigmaRot1 rd hyp at2 m dx dy dth),
    floatDraw rf (z 1) (hyp dx dy) (sigmaTrans rd hyp at2 m dx dy dth),
    floatDraw rf (z 2) (rot2 rd hyp at2 dx dy dth) (sigmaRot2 rd hyp at2 m dx dy dth) with
  | .fin r1, .fin t, .fin r2 => some (moved rd co si r1 t r2 p)
  | _, _, _ => none

end

end Ndt.Rounded
