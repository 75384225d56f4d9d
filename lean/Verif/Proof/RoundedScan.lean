import Verif.Model.RoundedScan
import Verif.Proof.RoundedFilter
import Verif.Proof.RoundedPoints
import Verif.Spec.Scan

/-! # Helper lemmas: barycenters in double precision -/

namespace Ndt.Rounded

noncomputable section

open Real Spec

/-- Two products added: one coordinate of a turned point. -/
theorem turned_near {rd : ℝ → ℝ} (hrd : RoundsToNearest rd) {c s c' s' x y P : ℝ} (hc : |c| ≤ 1.01) (hs : |s| ≤ 1.01)
    (hc' : |c'| ≤ 1) (hs' : |s'| ≤ 1) (hcc : |c - c'| ≤ 2.3e-16) (hss : |s - s'| ≤ 2.3e-16) (hx : |x| ≤ P) (hy : |y| ≤ P) :
    |rd (rd (c * x) + rd (s * y)) - (c' * x + s' * y)| ≤ 1.3e-15 * P + 4e-30 := by
  have hP : 0 ≤ P := (abs_nonneg _).trans hx
  have h1 := prod_near (δ := 0) hrd hc' hc hcc (by rw [sub_self, abs_zero]) hx hP
  have h2 := prod_near (δ := 0) hrd hs' hs hss (by rw [sub_self, abs_zero]) hy hP
  have g : ∀ D c : ℝ, |D| ≤ P → |c| ≤ 1 → |c * D| ≤ P := by
    intro D c h1 h2
    rw [abs_mul]
    have := mul_le_mul h2 h1 (abs_nonneg _) zero_le_one
    linarith
  have g1 := g x c' hx hc'
  have g2 := g y s' hy hs'
  have h3 : |rd (c * x) + rd (s * y)| ≤ 2.01 * P + 1e-29 := by
    have e1 := abs_add_le (rd (c * x)) (rd (s * y))
    have e2 := abs_sub_abs_le_abs_sub (rd (c * x)) (c' * x)
    have e3 := abs_sub_abs_le_abs_sub (rd (s * y)) (s' * y)
    norm_num at h1 h2 ⊢
    linarith
  have h4 := rd_near hrd h3
  rw [show rd (rd (c * x) + rd (s * y)) - (c' * x + s' * y) =
    (rd (rd (c * x) + rd (s * y)) - (rd (c * x) + rd (s * y))) + (rd (c * x) - c' * x) + (rd (s * y) - s' * y) by ring]
  have d1 := abs_add_le (rd (rd (c * x) + rd (s * y)) - (rd (c * x) + rd (s * y)) + (rd (c * x) - c' * x)) (rd (s * y) - s' * y)
  have d2 := abs_add_le (rd (rd (c * x) + rd (s * y)) - (rd (c * x) + rd (s * y))) (rd (c * x) - c' * x)
  norm_num at h1 h2 h4 ⊢
  linarith

/-- The difference of two products: the other coordinate of a turned point. -/
theorem turned_sub_near {rd : ℝ → ℝ} (hrd : RoundsToNearest rd) {c s c' s' x y P : ℝ} (hc : |c| ≤ 1.01) (hs : |s| ≤ 1.01)
    (hc' : |c'| ≤ 1) (hs' : |s'| ≤ 1) (hcc : |c - c'| ≤ 2.3e-16) (hss : |s - s'| ≤ 2.3e-16) (hx : |x| ≤ P) (hy : |y| ≤ P) :
    |rd (rd (c * x) - rd (s * y)) - (c' * x - s' * y)| ≤ 1.3e-15 * P + 4e-30 := by
  have hP : 0 ≤ P := (abs_nonneg _).trans hx
  have h1 := prod_near (δ := 0) hrd hc' hc hcc (by rw [sub_self, abs_zero]) hx hP
  have h2 := prod_near (δ := 0) hrd hs' hs hss (by rw [sub_self, abs_zero]) hy hP
  have g : ∀ D c : ℝ, |D| ≤ P → |c| ≤ 1 → |c * D| ≤ P := by
    intro D c h1 h2
    rw [abs_mul]
    have := mul_le_mul h2 h1 (abs_nonneg _) zero_le_one
    linarith
  have g1 := g x c' hx hc'
  have g2 := g y s' hy hs'
  have h3 : |rd (c * x) - rd (s * y)| ≤ 2.01 * P + 1e-29 := by
    have e1 := abs_sub (rd (c * x)) (rd (s * y))
    have e2 := abs_sub_abs_le_abs_sub (rd (c * x)) (c' * x)
    have e3 := abs_sub_abs_le_abs_sub (rd (s * y)) (s' * y)
    norm_num at h1 h2 ⊢
    linarith
  have h4 := rd_near hrd h3
  rw [show rd (rd (c * x) - rd (s * y)) - (c' * x - s' * y) =
    (rd (rd (c * x) - rd (s * y)) - (rd (c * x) - rd (s * y))) + (rd (c * x) - c' * x) - (rd (s * y) - s' * y) by ring]
  have d1 := abs_sub (rd (rd (c * x) - rd (s * y)) - (rd (c * x) - rd (s * y)) + (rd (c * x) - c' * x)) (rd (s * y) - s' * y)
  have d2 := abs_add_le (rd (rd (c * x) - rd (s * y)) - (rd (c * x) - rd (s * y))) (rd (c * x) - c' * x)
  norm_num at h1 h2 h4 ⊢
  linarith

/-- One coordinate of the barycenter: the terms are added, the sum is divided by their number and the position is added. -/
theorem centre_near {rd : ℝ → ℝ} (hrd : RoundsToNearest rd) (points : List Point) (t g : Point → ℝ) {x P T : ℝ} (hP : 1e-9 ≤ P)
    (h0 : points ≠ []) (hn : points.length ≤ 2 ^ 40) (htg : ∀ p ∈ points, |t p - g p| ≤ 1.3e-15 * P + 4e-30) (hg : ∀ p ∈ points, |g p| ≤ 2 * P)
    (hx : |x| ≤ T) :
    |rd (x + rd (points.foldl (fun s p => rd (s + t p)) 0 / rd points.length)) - (x + (points.map g).sum / points.length)| ≤
      (5e-16 * points.length + 2.5e-15) * P + 1.3e-16 * T := by
  set n : ℝ := (points.length : ℝ) with hnd
  have hn1 : 1 ≤ n := by
    have := List.length_pos_iff.mpr h0
    rw [hnd]; exact_mod_cast this
  have hn40 : n ≤ 2 ^ 40 := by rw [hnd]; exact_mod_cast hn
  have hrn : rd n = n := hrd.exact (isDouble_nat (n := points.length) (by norm_num at hn ⊢; omega))
  -- as a list of pairs
  set l : List (ℝ × Pose2d) := points.map fun p => (0, ⟨p.x, p.y, 0⟩) with hl
  have hlen : l.length = points.length := by simp [hl]
  have hf : points.foldl (fun s p => rd (s + t p)) 0 = l.foldl (fun s a => rd (s + t ⟨a.2.x, a.2.y⟩)) 0 := by
    rw [hl, List.foldl_map]
  have hs : total (fun a => g ⟨a.2.x, a.2.y⟩) l = (points.map g).sum := by
    simp [total, hl, Function.comp_def]
  have mem : ∀ a ∈ l, (⟨a.2.x, a.2.y⟩ : Point) ∈ points := by
    intro a ha
    rw [hl, List.mem_map] at ha
    obtain ⟨p, hp, rfl⟩ := ha
    exact hp
  have ht : ∀ a ∈ l, |t ⟨a.2.x, a.2.y⟩| ≤ 2.001 * P := by
    intro a ha
    have e1 := htg _ (mem a ha)
    have e2 := hg _ (mem a ha)
    have e3 := abs_sub_abs_le_abs_sub (t ⟨a.2.x, a.2.y⟩) (g ⟨a.2.x, a.2.y⟩)
    norm_num at e1 hP ⊢
    linarith
  have hA : total (fun a => |t ⟨a.2.x, a.2.y⟩|) l ≤ n * (2.001 * P) := by
    have := total_le ht
    rwa [total_const, hlen] at this
  have hsum := sum_near' hrd (fun a => t ⟨a.2.x, a.2.y⟩) (A := n * (2.001 * P)) (l := l) (by
    have : (1 : ℝ) * (2.001 * 1e-9) ≤ n * (2.001 * P) := mul_le_mul hn1 (by linarith) (by norm_num) (by linarith)
    refine le_trans ?_ this
    norm_num) (by rw [hlen]; exact hn) hA
  have hnear := total_near (f := fun a => t ⟨a.2.x, a.2.y⟩) (g := fun a => g ⟨a.2.x, a.2.y⟩) (h := fun _ => 1.3e-15 * P + 4e-30) (l := l)
    (fun a ha => htg _ (mem a ha))
  rw [total_const, hs, hlen] at hnear
  rw [hlen, ← hf] at hsum
  rw [hrn]
  set S := points.foldl (fun s p => rd (s + t p)) 0
  set G := (points.map g).sum
  set M := total (fun a => t ⟨a.2.x, a.2.y⟩) l
  have npos : 0 < n := by linarith
  have hSG : |S / n - G / n| ≤ n * (4.5e-16 * P) + (1.3e-15 * P + 4e-30) := by
    rw [← sub_div, abs_div, abs_of_pos npos, div_le_iff₀ npos]
    have e := abs_sub_le S M G
    have e2 : n * (2⁻¹ ^ 52 * (n * (2.001 * P))) ≤ n * (4.5e-16 * P) * n := by
      have : 0 ≤ n * n * P := by positivity
      norm_num
      nlinarith
    rw [← hnd] at hsum hnear
    calc |S - G| ≤ |S - M| + |M - G| := e
      _ ≤ n * (4.5e-16 * P) * n + n * (1.3e-15 * P + 4e-30) := add_le_add (hsum.trans e2) hnear
      _ = _ := by ring
  have hnP : n * (4.5e-16 * P) ≤ 0.001 * P := by
    have : n * (4.5e-16 * P) ≤ 2 ^ 40 * (4.5e-16 * P) := mul_le_mul_of_nonneg_right hn40 (by positivity)
    refine this.trans ?_
    norm_num at hP ⊢
    linarith
  have hG : |G / n| ≤ 2 * P := by
    rw [abs_div, abs_of_pos npos, div_le_iff₀ npos]
    have := total_near (f := fun a => g ⟨a.2.x, a.2.y⟩) (g := fun _ => (0 : ℝ)) (h := fun _ => 2 * P) (l := l)
      (fun a ha => by simpa using hg _ (mem a ha))
    rw [total_const, total_const, hs, hlen, mul_zero, sub_zero, ← hnd] at this
    linarith
  have hS : |S / n| ≤ 2.002 * P := by
    have e := abs_sub_abs_le_abs_sub (S / n) (G / n)
    norm_num at hSG hnP hP ⊢
    linarith
  have hq := rd_near hrd hS
  have hb : |x + rd (S / n)| ≤ T + 2.003 * P := by
    have e1 := abs_add_le x (rd (S / n))
    have e2 := abs_sub_abs_le_abs_sub (rd (S / n)) (S / n)
    norm_num at hq hS hP ⊢
    linarith
  have hq2 := rd_near hrd hb
  rw [show rd (x + rd (S / n)) - (x + G / n) = (rd (x + rd (S / n)) - (x + rd (S / n))) + (rd (S / n) - S / n) + (S / n - G / n) by ring]
  have d1 := abs_add_le (rd (x + rd (S / n)) - (x + rd (S / n)) + (rd (S / n) - S / n)) (S / n - G / n)
  have d2 := abs_add_le (rd (x + rd (S / n)) - (x + rd (S / n))) (rd (S / n) - S / n)
  have hT : 0 ≤ T := (abs_nonneg _).trans hx
  have hnP0 : 0 ≤ n * P := by positivity
  norm_num at hq hq2 hSG hP ⊢
  nlinarith

theorem sumTurned_x (rd : ℝ → ℝ) (c s : ℝ) (points : List Point) :
    (sumTurned rd c s points).x = points.foldl (fun a p => rd (a + rd (rd (c * p.x) - rd (s * p.y)))) 0 ∧
    (sumTurned rd c s points).y = points.foldl (fun a p => rd (a + rd (rd (s * p.x) + rd (c * p.y)))) 0 := by
  unfold sumTurned
  have h : ∀ (ps : List Point) (q : Point),
      (ps.foldl (fun center p => (⟨rd (center.x + rd (rd (c * p.x) - rd (s * p.y))), rd (center.y + rd (rd (s * p.x) + rd (c * p.y)))⟩ : Point)) q).x =
        ps.foldl (fun a p => rd (a + rd (rd (c * p.x) - rd (s * p.y)))) q.x ∧
      (ps.foldl (fun center p => (⟨rd (center.x + rd (rd (c * p.x) - rd (s * p.y))), rd (center.y + rd (rd (s * p.x) + rd (c * p.y)))⟩ : Point)) q).y =
        ps.foldl (fun a p => rd (a + rd (rd (s * p.x) + rd (c * p.y)))) q.y := by
    intro ps
    induction ps with
    | nil => intro q; exact ⟨rfl, rfl⟩
    | cons p ps ih => intro q; exact ih _
  exact h points Point.zero

theorem sum_lin (a b : ℝ) (points : List Point) : (points.map fun p => a * p.x + b * p.y).sum = a * sumX points + b * sumY points := by
  induction points with
  | nil => simp [sumX, sumY]
  | cons p ps ih =>
    simp only [sumX, sumY, List.map_cons, List.sum_cons] at ih ⊢
    rw [ih]; ring

end

end Ndt.Rounded
