import Verif.Model.Geometry
import Verif.Model.RoundedPose

/-! # Statistics of the particle filter in double precision (src/particle_filter.cpp:163-222)

Every operation is followed by the rounding `rd`. A particle comes with its weight. `co`, `si` and `at2` are the
functions of the C library. -/

namespace Ndt

noncomputable section

namespace Rounded

variable (rd : ℝ → ℝ)

/-- src/particle_filter.cpp:166-170: the sum of the weights. -/
def sumWeights (l : List (ℝ × Pose2d)) : ℝ := l.foldl (fun s a => rd (s + a.1)) 0

/-- src/particle_filter.cpp:171-174: every weight is divided by the sum. -/
def normalised (l : List (ℝ × Pose2d)) : List (ℝ × Pose2d) := l.map fun a => (rd (a.1 / sumWeights rd l), a.2)

/-- src/particle_filter.cpp:184: one coordinate of `mean += weights_[i] * particles_[i]`. -/
def accumMean (f : Pose2d → ℝ) (l : List (ℝ × Pose2d)) : ℝ := l.foldl (fun s a => rd (s + rd (a.1 * f a.2))) 0

/-- src/particle_filter.cpp:188-194: one entry of `corr(j, k) += weights_[i] * particles_[i](j) * particles_[i](k)`. -/
def accumCorr (f g : Pose2d → ℝ) (l : List (ℝ × Pose2d)) : ℝ :=
  l.foldl (fun s a => rd (s + rd (rd (a.1 * f a.2) * g a.2))) 0

/-- src/particle_filter.cpp:198-199: one coordinate of the mean, from the weights as they come. -/
def mean (f : Pose2d → ℝ) (l : List (ℝ × Pose2d)) : ℝ := accumMean rd f (normalised rd l)

/-- src/particle_filter.cpp:203-210: one entry of the covariance, from the weights as they come. -/
def covariance (f g : Pose2d → ℝ) (l : List (ℝ × Pose2d)) : ℝ :=
  rd (accumCorr rd f g (normalised rd l) - rd (mean rd f l * mean rd g l))

/-- src/particle_filter.cpp:185-186, 200: the mean heading, from the weights as they come. -/
def meanHeading (co si : ℝ → ℝ) (at2 : ℝ → ℝ → ℝ) (l : List (ℝ × Pose2d)) : ℝ :=
  at2 (mean rd (fun p => si p.theta) l) (mean rd (fun p => co p.theta) l)

/-- src/particle_filter.cpp:213-217: what the entry of the covariance for the heading becomes, `before` what it was (it is not reset), `m` the mean
heading. -/
def headingVariance (m before : ℝ) (l : List (ℝ × Pose2d)) : ℝ :=
  (normalised rd l).foldl (fun s a =>
    let d := shortestAngularDistance rd a.2.theta m
    rd (s + rd (rd (a.1 * d) * d))) before

end Rounded

end

end Ndt
