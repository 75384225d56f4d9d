import Verif.Spec.Cell
import Mathlib.Tactic.Ring
import Mathlib.Tactic.FieldSimp
import Mathlib.Tactic.Linarith
import Mathlib.Tactic.Positivity
import Mathlib.Algebra.BigOperators.Group.List.Basic
import Mathlib.Algebra.Order.BigOperators.Group.List

/-! # Lemmas for C02-C05, C10 -/

namespace Ndt

noncomputable section

open Spec

theorem avg_mul_length (f : Point → ℝ) (ps : List Point) : avg f ps * ps.length = (ps.map f).sum := by
  unfold avg
  rcases ps with _ | ⟨p, ps⟩
  · simp
  · field_simp

/-- The statistics part of a cell is the batch statistics of `ps`. -/
structure Cell.Stats (c : Cell) (ps : List Point) : Prop where
  n : c.n = ps.length
  mean : c.mean = ⟨avg (·.x) ps, avg (·.y) ps⟩
  corr : c.correlation = ⟨avg (fun p => p.x * p.x) ps, avg (fun p => p.x * p.y) ps, 0,
    avg (fun p => p.y * p.y) ps⟩

theorem avg_append_singleton (f : Point → ℝ) (ps : List Point) (p : Point) :
    (avg f ps * ps.length + f p) / (ps.length + 1) = avg f (ps ++ [p]) := by
  rw [avg_mul_length]; simp [avg]

theorem Cell.Stats.new : Cell.new.Stats [] := by
  constructor <;> simp [Cell.new, avg, Mat2.zero]

theorem Cell.Stats.addPoint {c : Cell} {ps : List Point} (h : c.Stats ps) (p : Point) :
    (c.addPoint p).Stats (ps ++ [p]) := by
  constructor
  · simp [Cell.addPoint, h.n]
  · simp only [Cell.addPoint, h.n, h.mean, avg_append_singleton (·.x), avg_append_singleton (·.y)]
  · simp only [Cell.addPoint, h.n, h.corr, avg_append_singleton (fun p => p.x * p.x),
      avg_append_singleton (fun p => p.x * p.y), avg_append_singleton (fun p => p.y * p.y)]

theorem Cell.Stats.foldl {c : Cell} {ps : List Point} (h : c.Stats ps) (qs : List Point) :
    (qs.foldl Cell.addPoint c).Stats (ps ++ qs) := by
  induction qs generalizing c ps with
  | nil => simpa using h
  | cons q qs ih => simpa using ih (h.addPoint q)

theorem avg_perm (f : Point → ℝ) {ps qs : List Point} (h : ps.Perm qs) : avg f ps = avg f qs := by
  unfold avg; rw [(h.map f).sum_eq, h.length_eq]

/-- Invariant tying the cached part of a cell to its statistics. -/
structure Cell.Inv (c : Cell) (ps : List Point) : Prop extends c.Stats ps where
  cached : c.valid = true → c.covariance = c.covarianceOf ∧
    c.information = informationOf (eigenvalues c.covarianceOf) c.covarianceOf ∧ 3 ≤ ps.length
  small : ps.length < 3 → c.covariance = Mat2.zero ∧ c.information = ⟨.fin 0, .fin 0, .fin 0, .fin 0⟩

theorem Cell.Inv.new : Cell.new.Inv [] :=
  { Cell.Stats.new with
    cached := by simp [Cell.new]
    small := by intro _; exact ⟨rfl, rfl⟩ }

theorem Cell.Inv.addPoint {c : Cell} {ps : List Point} (h : c.Inv ps) (p : Point) :
    (c.addPoint p).Inv (ps ++ [p]) :=
  { h.toStats.addPoint p with
    cached := by simp [Cell.addPoint]
    small := by
      intro hl
      exact h.small (by simp at hl; omega) }

theorem Cell.Inv.compute {c : Cell} {ps : List Point} (h : c.Inv ps) : c.compute.Inv ps := by
  unfold Cell.compute Cell.computeWith
  split
  · exact h
  · rename_i hc
    push Not at hc
    have h3 : 3 ≤ ps.length := by
      have := hc.2; rw [h.n] at this; exact_mod_cast this
    exact { n := h.n, mean := h.mean, corr := h.corr, cached := fun _ => ⟨rfl, rfl, h3⟩,
            small := fun hl => absurd hl (by omega) }

theorem Cell.Inv.run {c : Cell} {ps : List Point} (h : c.Inv ps) (ops : List CellOp) :
    (c.run ops).Inv (ps ++ pointsOf ops) := by
  induction ops generalizing c ps with
  | nil => simpa [pointsOf, Cell.run] using h
  | cons op ops ih =>
    cases op with
    | addPoint p => simpa [pointsOf, Cell.run, Cell.step] using ih (h.addPoint p)
    | compute => simpa [pointsOf, Cell.run, Cell.step] using ih h.compute

theorem Cell.Inv.run_new (ops : List CellOp) : (Cell.new.run ops).Inv (pointsOf ops) := by
  simpa using Cell.Inv.new.run ops

theorem covarianceOf_congr {c d : Cell} (hn : c.n = d.n) (hm : c.mean = d.mean)
    (hc : c.correlation = d.correlation) : c.covarianceOf = d.covarianceOf := by
  simp only [Cell.covarianceOf, hn, hm, hc]

/-- After `compute` the whole state is determined by the points. -/
theorem Cell.Inv.compute_eq {c d : Cell} {ps qs : List Point} (hc : c.Inv ps) (hd : d.Inv qs)
    (hpq : ps.Perm qs) : c.compute = d.compute := by
  have hn : c.n = d.n := by rw [hc.n, hd.n, hpq.length_eq]
  have hm : c.mean = d.mean := by rw [hc.mean, hd.mean, avg_perm _ hpq, avg_perm _ hpq]
  have hcr : c.correlation = d.correlation := by
    rw [hc.corr, hd.corr, avg_perm _ hpq, avg_perm _ hpq, avg_perm _ hpq]
  have hcv := covarianceOf_congr hn hm hcr
  by_cases h3 : ps.length < 3
  · have h3' : qs.length < 3 := by rw [← hpq.length_eq]; exact h3
    have e1 : c.compute = c := by
      simp only [Cell.compute, Cell.computeWith]
      rw [if_pos (Or.inr (by rw [hc.n]; exact_mod_cast h3))]
    have e2 : d.compute = d := by
      simp only [Cell.compute, Cell.computeWith]
      rw [if_pos (Or.inr (by rw [hd.n]; exact_mod_cast h3'))]
    have v1 : c.valid = false := by
      by_contra hv
      have := (hc.cached (by simpa using hv)).2.2
      omega
    have v2 : d.valid = false := by
      by_contra hv
      have := (hd.cached (by simpa using hv)).2.2
      omega
    rw [e1, e2]
    ext1
    · rw [v1, v2]
    · exact hn
    · exact hm
    · rw [(hc.small h3).1, (hd.small h3').1]
    · exact hcr
    · rw [(hc.small h3).2, (hd.small h3').2]
  · have key : ∀ (e : Cell) (rs : List Point), e.Inv rs → 3 ≤ rs.length →
        e.compute = { e with valid := true, covariance := e.covarianceOf,
                             information := informationOf (eigenvalues e.covarianceOf) e.covarianceOf } := by
      intro e rs he hr
      unfold Cell.compute Cell.computeWith
      split
      · rename_i hv
        have hv' : e.valid = true := by
          rcases hv with hv | hv
          · exact hv
          · rw [he.n] at hv
            have : rs.length < 3 := by exact_mod_cast hv
            omega
        obtain ⟨a, b, -⟩ := he.cached hv'
        ext1
        · exact hv'
        · rfl
        · rfl
        · exact a
        · rfl
        · exact b
      · rfl
    rw [key c ps hc (by omega), key d qs hd (by rw [← hpq.length_eq]; omega), hcv]
    ext1
    · rfl
    · exact hn
    · exact hm
    · rfl
    · exact hcr
    · rfl

theorem sum_map_cross (f g : Point → ℝ) (a b : ℝ) (ps : List Point) :
    (ps.map fun p => (f p - a) * (g p - b)).sum =
      (ps.map fun p => f p * g p).sum - b * (ps.map f).sum - a * (ps.map g).sum + ps.length * (a * b) := by
  induction ps with
  | nil => simp
  | cons p ps ih => simp only [List.map_cons, List.sum_cons, ih, List.length_cons]; push_cast; ring

theorem sampleCov_eq (f g : Point → ℝ) (ps : List Point) (h : 2 ≤ ps.length) :
    (avg (fun p => f p * g p) ps - avg f ps * avg g ps) * ((ps.length : ℝ) / ((ps.length : ℝ) - 1)) =
      sampleCov f g ps := by
  have h2 : (2 : ℝ) ≤ ps.length := by exact_mod_cast h
  have hn : (ps.length : ℝ) ≠ 0 := by positivity
  have hn1 : (ps.length : ℝ) - 1 ≠ 0 := by linarith
  unfold sampleCov
  rw [sum_map_cross, ← avg_mul_length f, ← avg_mul_length g, ← avg_mul_length (fun p => f p * g p)]
  field_simp
  ring

theorem Cell.Stats.covarianceOf {c : Cell} {ps : List Point} (h : c.Stats ps) (h2 : 2 ≤ ps.length) :
    c.covarianceOf = ⟨sampleCov (·.x) (·.x) ps, sampleCov (·.x) (·.y) ps,
      sampleCov (·.x) (·.y) ps, sampleCov (·.y) (·.y) ps⟩ := by
  simp only [Cell.covarianceOf, h.n, h.mean, h.corr]
  rw [← sampleCov_eq (·.x) (·.x) ps h2, ← sampleCov_eq (·.x) (·.y) ps h2,
    ← sampleCov_eq (·.y) (·.y) ps h2]

theorem sum_sq_nonneg (f : Point → ℝ) (ps : List Point) : 0 ≤ (ps.map fun p => f p ^ 2).sum := by
  apply List.sum_nonneg
  intro x hx
  simp only [List.mem_map] at hx
  obtain ⟨p, -, rfl⟩ := hx
  positivity

theorem sampleCov_psd (ps : List Point) (u v : ℝ) :
    u ^ 2 * sampleCov (·.x) (·.x) ps + 2 * u * v * sampleCov (·.x) (·.y) ps +
      v ^ 2 * sampleCov (·.y) (·.y) ps =
    (ps.map fun p => (u * (p.x - avg (·.x) ps) + v * (p.y - avg (·.y) ps)) ^ 2).sum / (ps.length - 1) := by
  unfold sampleCov
  generalize avg (fun x : Point => x.x) ps = a
  generalize avg (fun x : Point => x.y) ps = b
  have key : (ps.map fun p : Point => (u * (p.x - a) + v * (p.y - b)) ^ 2).sum =
      u ^ 2 * (ps.map fun p : Point => (p.x - a) * (p.x - a)).sum +
      2 * u * v * (ps.map fun p : Point => (p.x - a) * (p.y - b)).sum +
      v ^ 2 * (ps.map fun p : Point => (p.y - b) * (p.y - b)).sum := by
    induction ps with
    | nil => simp
    | cons p ps ih => simp only [List.map_cons, List.sum_cons, ih]; ring
  rw [key]; ring

theorem sampleCov_psd_nonneg (ps : List Point) (h2 : 2 ≤ ps.length) (u v : ℝ) :
    0 ≤ u ^ 2 * sampleCov (·.x) (·.x) ps + 2 * u * v * sampleCov (·.x) (·.y) ps +
      v ^ 2 * sampleCov (·.y) (·.y) ps := by
  rw [sampleCov_psd ps]
  have : (2 : ℝ) ≤ ps.length := by exact_mod_cast h2
  exact div_nonneg (sum_sq_nonneg _ _) (by linarith)

/-- The trace of the sample covariance vanishes only if all points are equal. -/
theorem sum_nonneg_eq_zero {α : Type} (f : α → ℝ) (ps : List α) (hf : ∀ p ∈ ps, 0 ≤ f p)
    (h : (ps.map f).sum = 0) : ∀ p ∈ ps, f p = 0 := by
  induction ps with
  | nil => simp
  | cons q qs ih =>
    simp only [List.map_cons, List.sum_cons] at h
    have h1 := hf q (by simp)
    have h2 : 0 ≤ (qs.map f).sum := by
      apply List.sum_nonneg
      intro x hx
      simp only [List.mem_map] at hx
      obtain ⟨p, hp, rfl⟩ := hx
      exact hf p (by simp [hp])
    have h3 : f q = 0 := by linarith
    have h4 : (qs.map f).sum = 0 := by linarith
    intro p hp
    rcases List.mem_cons.mp hp with rfl | hp
    · exact h3
    · exact ih (fun p hp => hf p (by simp [hp])) h4 p hp

theorem trace_pos (ps : List Point) (h2 : 2 ≤ ps.length) (h : ¬ AllSame ps) :
    0 < sampleCov (·.x) (·.x) ps + sampleCov (·.y) (·.y) ps := by
  have hx := sampleCov_psd_nonneg ps h2 1 0
  have hy := sampleCov_psd_nonneg ps h2 0 1
  simp only [one_pow, one_mul, mul_one, mul_zero, zero_mul, add_zero, ne_eq, OfNat.ofNat_ne_zero,
    not_false_eq_true, zero_pow, zero_add] at hx hy
  rcases lt_or_eq_of_le (add_nonneg hx hy) with h0 | h0
  · exact h0
  · exfalso
    apply h
    have ex : sampleCov (·.x) (·.x) ps = 0 := by linarith
    have ey : sampleCov (·.y) (·.y) ps = 0 := by linarith
    have hn : (2 : ℝ) ≤ ps.length := by exact_mod_cast h2
    have hn1 : (ps.length : ℝ) - 1 ≠ 0 := by linarith
    unfold sampleCov at ex ey
    rw [div_eq_zero_iff, or_iff_left hn1] at ex ey
    have px := sum_nonneg_eq_zero _ ps (fun p _ => mul_self_nonneg _) ex
    have py := sum_nonneg_eq_zero _ ps (fun p _ => mul_self_nonneg _) ey
    refine ⟨⟨avg (·.x) ps, avg (·.y) ps⟩, fun p hp => ?_⟩
    have a := mul_self_eq_zero.mp (px p hp)
    have b := mul_self_eq_zero.mp (py p hp)
    ext
    · show p.x = avg (·.x) ps; linarith
    · show p.y = avg (·.y) ps; linarith

theorem avg_allSame (f : Point → ℝ) (q : Point) (ps : List Point) (hn : ps ≠ [])
    (h : ∀ p ∈ ps, p = q) : avg f ps = f q := by
  have : ps = List.replicate ps.length q := List.eq_replicate_iff.mpr ⟨rfl, h⟩
  have hl : (ps.length : ℝ) ≠ 0 := by
    have := List.length_pos_iff.mpr hn
    positivity
  unfold avg
  rw [this]
  simp
  field_simp

theorem sampleCov_allSame (f g : Point → ℝ) (q : Point) (ps : List Point) (hn : ps ≠ [])
    (h : ∀ p ∈ ps, p = q) : sampleCov f g ps = 0 := by
  unfold sampleCov
  rw [avg_allSame f q ps hn h, avg_allSame g q ps hn h]
  have : (ps.map fun p => (f p - f q) * (g p - g q)) = ps.map fun _ => 0 := by
    apply List.map_congr_left
    intro p hp
    rw [h p hp]; simp
  rw [this]; simp

/-! ### Symmetric 2x2 matrices -/

/-- A quadratic form that is nonnegative everywhere. -/
def Psd (a b d : ℝ) : Prop := ∀ u v : ℝ, 0 ≤ u ^ 2 * a + 2 * u * v * b + v ^ 2 * d

theorem Psd.a_nonneg {a b d : ℝ} (h : Psd a b d) : 0 ≤ a := by have := h 1 0; simpa using this
theorem Psd.d_nonneg {a b d : ℝ} (h : Psd a b d) : 0 ≤ d := by have := h 0 1; simpa using this

theorem Psd.det_nonneg {a b d : ℝ} (h : Psd a b d) : 0 ≤ a * d - b * b := by
  have ha := h.a_nonneg
  rcases eq_or_lt_of_le ha with h0 | h0
  · have hb : b = 0 := by
      by_contra hb
      have := h (-(d + 1) / (2 * b)) 1
      rw [← h0] at this
      have e : 2 * (-(d + 1) / (2 * b)) * 1 * b = -(d + 1) := by field_simp
      rw [e] at this
      simp at this
      linarith
    rw [hb, ← h0]; simp
  · have := h b (-a)
    have e : b ^ 2 * a + 2 * b * (-a) * b + (-a) ^ 2 * d = a * (a * d - b * b) := by ring
    rw [e] at this
    exact nonneg_of_mul_nonneg_right this h0

theorem disc_eq (a b d : ℝ) : (a + d) ^ 2 - 4 * (a * d - b * b) = (a - d) ^ 2 + 4 * b ^ 2 := by ring

theorem eigenvalues_sym (a b d : ℝ) : eigenvalues ⟨a, b, b, d⟩ = (eigMin a b d, eigMax a b d) := by
  simp only [eigenvalues, eigMin, eigMax, disc_eq]

theorem eigMin_le_eigMax (a b d : ℝ) : eigMin a b d ≤ eigMax a b d := by
  unfold eigMin eigMax
  have := Real.sqrt_nonneg ((a - d) ^ 2 + 4 * b ^ 2)
  linarith

theorem eig_add (a b d : ℝ) : eigMin a b d + eigMax a b d = a + d := by
  unfold eigMin eigMax; ring

theorem eig_mul (a b d : ℝ) : eigMin a b d * eigMax a b d = a * d - b * b := by
  unfold eigMin eigMax
  have h : Real.sqrt ((a - d) ^ 2 + 4 * b ^ 2) ^ 2 = (a - d) ^ 2 + 4 * b ^ 2 :=
    Real.sq_sqrt (by positivity)
  nlinarith [h]

theorem eigMax_pos {a b d : ℝ} (h : 0 < a + d) : 0 < eigMax a b d := by
  have := eig_add a b d
  have := eigMin_le_eigMax a b d
  linarith

theorem limitedDet_pos {a b d : ℝ} (h : 0 < a + d) : 0 < limitedDet a b d := by
  have := eigMax_pos (b := b) h
  unfold limitedDet
  apply mul_pos _ this
  apply lt_of_lt_of_le _ (le_max_right _ _)
  positivity

theorem informationOf_sym (a b d : ℝ) (h : 0 < a + d) :
    informationOf (eigenvalues ⟨a, b, b, d⟩) ⟨a, b, b, d⟩ =
      ⟨.fin (d / limitedDet a b d), .fin (-b / limitedDet a b d),
       .fin (-b / limitedDet a b d), .fin (a / limitedDet a b d)⟩ := by
  have hle := eigMin_le_eigMax a b d
  have hpos := eigMax_pos (b := b) h
  rw [eigenvalues_sym]
  unfold informationOf
  simp only [gt_iff_lt, not_lt.mpr hle, if_false]
  split
  · rename_i hs
    have hd : (0.001 * eigMax a b d) * eigMax a b d ≠ 0 := by positivity
    have e : limitedDet a b d = (0.001 * eigMax a b d) * eigMax a b d := by
      unfold limitedDet
      rw [max_eq_right (by linarith)]; ring
    simp only [Fl.fin_div hd, e]
  · rename_i hs
    have e : limitedDet a b d = a * d - b * b := by
      unfold limitedDet
      rw [max_eq_left (by linarith), eig_mul]
    have hd : a * d - b * b ≠ 0 := by
      rw [← eig_mul]
      have : 0 < eigMin a b d := by nlinarith
      positivity
    simp only [inverse2, Fl.fin_div hd, Fl.fin_mul, e]
    congr 2 <;> ring

/-- The order in which the eigenvalue solver reports the two values does not matter. -/
theorem informationOf_swap (e1 e2 : ℝ) (m : Mat2 ℝ) :
    informationOf (e1, e2) m = informationOf (e2, e1) m := by
  unfold informationOf
  rcases lt_trichotomy e1 e2 with h | h | h
  · simp [h, not_lt.mpr h.le]
  · simp [h]
  · simp [h, not_lt.mpr h.le]

theorem informationOf_zero :
    informationOf (eigenvalues ⟨0, 0, 0, 0⟩) ⟨0, 0, 0, 0⟩ = ⟨.nan, .nan, .nan, .nan⟩ := by
  rw [eigenvalues_sym]
  have e1 : eigMin 0 0 0 = 0 := by simp [eigMin]
  have e2 : eigMax 0 0 0 = 0 := by simp [eigMax]
  have : (Fl.fin 1 / Fl.fin 0 : Fl) = .pinf := Fl.pos_div_zero one_pos
  simp [informationOf, e1, e2, inverse2, this]

end

end Ndt
