import Verif.Model.Filter
import Mathlib.Algebra.BigOperators.Ring.Finset
import Mathlib.Data.Fintype.Pi
import Mathlib.Data.Fintype.BigOperators

/-! # Specification of random draws -/

namespace Ndt.Spec

noncomputable section

/-- The chance of a sequence of independent draws, each with the chances `w`. -/
def chance {m n : ℕ} (w : Fin m → ℝ) (d : Fin n → Fin m) : ℝ := ∏ k, w (d k)

/-- The expected value over all sequences of `n` draws. -/
def expected {m n : ℕ} (w : Fin m → ℝ) (F : (Fin n → Fin m) → ℝ) : ℝ := ∑ d, chance w d * F d

/-- The draws as a stream; what comes after the `n`-th does not matter. -/
def stream {m n : ℕ} (d : Fin n → Fin m) (k : ℕ) : ℕ := if h : k < n then d ⟨k, h⟩ else 0

/-- A weight as a number. -/
def val : Fl → ℝ
  | .fin r => r
  | _ => 0

/-- The weight a filter gives to a pose: the sum over all particles there. -/
def weightAt (f : Filter) (q : Pose2d) : ℝ :=
  ((f.particles.zip f.weights).map fun pw => open Classical in if pw.1 = q then val pw.2 else 0).sum

/-- The number of particles of a filter at a pose. -/
def copies (f : Filter) (q : Pose2d) : ℝ := (f.particles.map fun p => open Classical in if p = q then (1 : ℝ) else 0).sum

/-- The filter holds the particles `P` with the weights `w`, which are positive and sum up to 1, at different poses. -/
structure Holds {m : ℕ} (f : Filter) (P : Fin m → Pose2d) (w : Fin m → ℝ) : Prop where
  particles : f.particles = List.ofFn P
  weights : f.weights = List.ofFn fun i => .fin (w i)
  positive : ∀ i, 0 < w i
  sum : ∑ i, w i = 1
  apart : Function.Injective P

end

end Ndt.Spec
