import Verif.Proof.Wall

/-! # Helper lemmas: maps of a straight wall of any direction -/

namespace Ndt

open Spec

noncomputable section

theorem avg_line {a b h : ℝ} {ps : List Point} (h0 : ps ≠ []) (hw : ∀ p ∈ ps, a * p.x + b * p.y = h) : a * avg (·.x) ps + b * avg (·.y) ps = h := by
  have hlen : (0 : ℝ) < ps.length := by exact_mod_cast List.length_pos_iff.mpr h0
  have key : ∀ l : List Point, (∀ p ∈ l, a * p.x + b * p.y = h) → a * (l.map (·.x)).sum + b * (l.map (·.y)).sum = l.length * h := by
    intro l
    induction l with
    | nil => simp
    | cons p l ih =>
      intro hl
      have h1 := hl p (by simp)
      have h2 := ih fun q hq => hl q (by simp [hq])
      simp only [List.map_cons, List.sum_cons, List.length_cons]
      push_cast
      linarith
  have := key ps hw
  unfold avg
  field_simp
  linarith

theorem sampleCov_line {a b h : ℝ} {ps : List Point} (h0 : ps ≠ []) (hw : ∀ p ∈ ps, a * p.x + b * p.y = h) (f : Point → ℝ) :
    a * sampleCov f (·.x) ps + b * sampleCov f (·.y) ps = 0 := by
  have ha := avg_line h0 hw
  generalize hmx : avg (·.x) ps = mx at ha
  generalize hmy : avg (·.y) ps = my at ha
  have key : ∀ l : List Point, (∀ p ∈ l, a * p.x + b * p.y = h) →
      a * (l.map fun p => (f p - avg f ps) * (p.x - mx)).sum + b * (l.map fun p => (f p - avg f ps) * (p.y - my)).sum = 0 := by
    intro l
    induction l with
    | nil => simp
    | cons p l ih =>
      intro hl
      have h1 := hl p (by simp)
      have h2 := ih fun q hq => hl q (by simp [hq])
      simp only [List.map_cons, List.sum_cons]
      linear_combination h2 + (f p - avg f ps) * (h1 - ha)
  have := key ps hw
  unfold sampleCov
  rw [hmx, hmy, mul_div_assoc', mul_div_assoc', ← add_div, this, zero_div]

/-- The Gaussian of points on a line is 1 on the line, all along it, and less off the line. -/
theorem gauss_line {a b h : ℝ} (hab : a ≠ 0 ∨ b ≠ 0) {ps : List Point} (h5 : 5 ≤ ps.length) (hs : ¬ AllSame ps) (hw : ∀ p ∈ ps, a * p.x + b * p.y = h)
    (p : Point) :
    let v := gauss ⟨avg (·.x) ps, avg (·.y) ps⟩ (sampleCov (·.x) (·.x) ps)
      (sampleCov (·.x) (·.y) ps) (sampleCov (·.y) (·.y) ps) p
    (a * p.x + b * p.y = h → v = 1) ∧ (a * p.x + b * p.y ≠ h → v < 1) := by
  intro v
  have hne : ps ≠ [] := by
    rintro rfl
    simp at h5
  have hn : 0 < a ^ 2 + b ^ 2 := by
    rcases hab with h | h <;> positivity
  have ha := avg_line hne hw
  have h1 := sampleCov_line hne hw (·.x)
  have h2 := sampleCov_line hne hw (·.y)
  have hsym : sampleCov (·.y) (·.x) ps = sampleCov (·.x) (·.y) ps := by
    unfold sampleCov
    simp only [mul_comm]
  rw [hsym] at h2
  have htr := trace_pos ps (by omega) hs
  have hdet := limitedDet_pos (b := sampleCov (·.x) (·.y) ps) htr
  have hv : v = gauss ⟨avg (·.x) ps, avg (·.y) ps⟩ (sampleCov (·.x) (·.x) ps) (sampleCov (·.x) (·.y) ps) (sampleCov (·.y) (·.y) ps) p := rfl
  unfold gauss at hv
  simp only at hv
  generalize avg (·.x) ps = mx at *
  generalize avg (·.y) ps = my at *
  generalize sampleCov (·.x) (·.x) ps = A at *
  generalize sampleCov (·.x) (·.y) ps = B at *
  generalize sampleCov (·.y) (·.y) ps = D at *
  have e : (p.x - mx) ^ 2 * D - 2 * (p.x - mx) * (p.y - my) * B + (p.y - my) ^ 2 * A = (A + D) * (a * p.x + b * p.y - h) ^ 2 / (a ^ 2 + b ^ 2) := by
    rw [eq_div_iff hn.ne', ← ha]
    have eA : A * (a ^ 2 + b ^ 2) = (A + D) * b ^ 2 := by linear_combination a * h1 - b * h2
    have eD : D * (a ^ 2 + b ^ 2) = (A + D) * a ^ 2 := by linear_combination b * h2 - a * h1
    have eB : B * (a ^ 2 + b ^ 2) = -(A + D) * (a * b) := by linear_combination b * h1 + a * h2
    linear_combination (p.x - mx) ^ 2 * eD - 2 * (p.x - mx) * (p.y - my) * eB + (p.y - my) ^ 2 * eA
  rw [e] at hv
  constructor
  · intro e
    rw [hv, e]
    simp
  · intro e
    rw [hv, Real.exp_lt_one_iff]
    have : 0 < (a * p.x + b * p.y - h) ^ 2 := by
      have : a * p.x + b * p.y - h ≠ 0 := sub_ne_zero.mpr e
      positivity
    have : 0 < (A + D) * (a * p.x + b * p.y - h) ^ 2 / (a ^ 2 + b ^ 2) / limitedDet A B D := by
      positivity
    linarith

end

end Ndt
