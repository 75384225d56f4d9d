import Verif.Proof.Cell
import Mathlib.Tactic.NormNum

/-! # C02, C03, C04, C05, C10: the NDT cell -/

namespace Ndt

noncomputable section

open Spec

/-- Five points that are not all the same, used as a concrete instance below. -/
def samplePts : List Point := [⟨0, 0⟩, ⟨1, 0⟩, ⟨0, 1⟩, ⟨1, 1⟩, ⟨3, 2⟩]

/-- **C02** After any calls on a new cell its count, mean and correlation (the lower triangle entry is never
written) are those of the points added. -/
theorem c02_cell_statistics_are_batch (ops : List CellOp) :
    let ps := pointsOf ops
    let c := Cell.new.run ops
    c.n = ps.length ∧
    c.mean = ⟨avg (·.x) ps, avg (·.y) ps⟩ ∧
    c.correlation = ⟨avg (fun p => p.x * p.x) ps, avg (fun p => p.x * p.y) ps, 0,
      avg (fun p => p.y * p.y) ps⟩ :=
  have h := Cell.Inv.run_new ops
  ⟨h.n, h.mean, h.corr⟩

/-- **C02** The order in which points are added makes no difference to any member of the cell. -/
theorem c02_cell_order_irrelevant (ps qs : List Point) (h : ps.Perm qs) :
    ps.foldl Cell.addPoint Cell.new = qs.foldl Cell.addPoint Cell.new := by
  have key : ∀ (rs : List Point) (c : Cell),
      (rs.foldl Cell.addPoint c).covariance = c.covariance ∧
      (rs.foldl Cell.addPoint c).information = c.information ∧
      (c.valid = false → (rs.foldl Cell.addPoint c).valid = false) := by
    intro rs
    induction rs with
    | nil => intro c; simp
    | cons r rs ih =>
      intro c
      obtain ⟨h1, h2, h3⟩ := ih (c.addPoint r)
      exact ⟨h1, h2, fun _ => h3 rfl⟩
  have hp := Cell.Stats.new.foldl ps
  have hq := Cell.Stats.new.foldl qs
  simp only [List.nil_append] at hp hq
  ext1
  · rw [(key ps _).2.2 rfl, (key qs _).2.2 rfl]
  · rw [hp.n, hq.n, h.length_eq]
  · rw [hp.mean, hq.mean, avg_perm _ h, avg_perm _ h]
  · rw [(key ps _).1, (key qs _).1]
  · rw [hp.corr, hq.corr, avg_perm _ h, avg_perm _ h, avg_perm _ h]
  · rw [(key ps _).2.1, (key qs _).2.1]

example : samplePts.Perm samplePts.reverse ∧
    (Cell.new.run (samplePts.map .addPoint)).mean = ⟨1, 4 / 5⟩ := by
  refine ⟨(List.reverse_perm _).symm, ?_⟩
  rw [(c02_cell_statistics_are_batch _).2.1]
  simp [samplePts, pointsOf, avg]; norm_num

/-- **C03** After any calls ending in `compute`, with at least three points, the covariance is the unbiased
sample covariance of all the points added. -/
theorem c03_cell_covariance_is_sample_covariance (ops : List CellOp) (h3 : 3 ≤ (pointsOf ops).length) :
    let ps := pointsOf ops
    (Cell.new.run (ops ++ [.compute])).covariance =
      ⟨sampleCov (·.x) (·.x) ps, sampleCov (·.x) (·.y) ps,
       sampleCov (·.x) (·.y) ps, sampleCov (·.y) (·.y) ps⟩ := by
  intro ps
  have h := Cell.Inv.run_new ops
  have hc := h.compute
  have e : Cell.new.run (ops ++ [.compute]) = (Cell.new.run ops).compute := by
    simp [Cell.run, Cell.step]
  rw [e]
  have hv : (Cell.new.run ops).compute.valid = true := by
    unfold Cell.compute Cell.computeWith
    split
    · rename_i hv
      rcases hv with hv | hv
      · exact hv
      · rw [h.n] at hv
        have : (pointsOf ops).length < 3 := by exact_mod_cast hv
        omega
    · rfl
  rw [(hc.cached hv).1, hc.toStats.covarianceOf (by omega)]

/-- **C03** ... which is positive semi-definite. -/
theorem c03_cell_covariance_psd (ops : List CellOp) (h3 : 3 ≤ (pointsOf ops).length) (u v : ℝ) :
    let m := (Cell.new.run (ops ++ [.compute])).covariance
    m.m01 = m.m10 ∧ 0 ≤ u * (m.m00 * u + m.m01 * v) + v * (m.m10 * u + m.m11 * v) := by
  intro m
  have e : m = _ := c03_cell_covariance_is_sample_covariance ops h3
  rw [e]
  refine ⟨rfl, ?_⟩
  have := sampleCov_psd_nonneg (pointsOf ops) (by omega) u v
  simp only
  linarith

/-- **C03** When `compute` was called in between makes no difference: the whole cell is the same as if all
points had been added first (in any order) and `compute` been called once. -/
theorem c03_cell_history_irrelevant (ops : List CellOp) (qs : List Point) (h : (pointsOf ops).Perm qs) :
    Cell.new.run (ops ++ [.compute]) = (qs.foldl Cell.addPoint Cell.new).compute := by
  have e : Cell.new.run (ops ++ [.compute]) = (Cell.new.run ops).compute := by
    simp [Cell.run, Cell.step]
  have hq : (qs.foldl Cell.addPoint Cell.new).Inv qs := by
    have : ∀ (rs : List Point) (c : Cell) (ss : List Point), c.Inv ss →
        (rs.foldl Cell.addPoint c).Inv (ss ++ rs) := by
      intro rs
      induction rs with
      | nil => intro c ss hc; simpa using hc
      | cons r rs ih => intro c ss hc; simpa using ih _ _ (hc.addPoint r)
    simpa using this qs _ _ Cell.Inv.new
  rw [e]
  exact (Cell.Inv.run_new ops).compute_eq hq h

/-- **C03** With fewer than three points covariance and information are zero. -/
theorem c03_cell_few_points (ops : List CellOp) (h3 : (pointsOf ops).length < 3) :
    (Cell.new.run ops).covariance = ⟨0, 0, 0, 0⟩ ∧
    (Cell.new.run ops).information = ⟨.fin 0, .fin 0, .fin 0, .fin 0⟩ :=
  (Cell.Inv.run_new ops).small h3

/-- **C03** `compute` is idempotent and gives the same cell whichever order the eigenvalue solver reports its
two values in. -/
theorem c03_cell_compute_idempotent (c : Cell) :
    c.compute.compute = c.compute ∧
    c.computeWith (fun m => ((eigenvalues m).2, (eigenvalues m).1)) = c.compute := by
  constructor
  · unfold Cell.compute Cell.computeWith
    by_cases h : c.valid = true ∨ c.n < 3
    · simp only [if_pos h]
    · simp only [if_neg h, true_or, if_true]
  · unfold Cell.compute Cell.computeWith
    split
    · rfl
    · simp only [informationOf_swap (eigenvalues _).2]

example : 3 ≤ (pointsOf ([.addPoint ⟨0, 0⟩, .addPoint ⟨2, 0⟩, .compute, .addPoint ⟨1, 3⟩, .compute,
    .compute])).length ∧
    (Cell.new.run ([.addPoint ⟨0, 0⟩, .addPoint ⟨2, 0⟩, .compute, .addPoint ⟨1, 3⟩, .compute] ++
      [.compute])).covariance = ⟨1, 0, 0, 3⟩ := by
  refine ⟨by simp [pointsOf], ?_⟩
  rw [c03_cell_covariance_is_sample_covariance _ (by simp [pointsOf])]
  simp [pointsOf, sampleCov, avg]; norm_num

/-- Information of a computed cell in terms of its sample covariance. -/
theorem computed_information (ops : List CellOp) (h3 : 3 ≤ (pointsOf ops).length)
    (hs : ¬ AllSame (pointsOf ops)) :
    let ps := pointsOf ops
    let a := sampleCov (·.x) (·.x) ps
    let b := sampleCov (·.x) (·.y) ps
    let d := sampleCov (·.y) (·.y) ps
    (Cell.new.run (ops ++ [.compute])).information =
      ⟨.fin (d / limitedDet a b d), .fin (-b / limitedDet a b d),
       .fin (-b / limitedDet a b d), .fin (a / limitedDet a b d)⟩ := by
  intro ps a b d
  have h := Cell.Inv.run_new ops
  have hc := h.compute
  have e : Cell.new.run (ops ++ [.compute]) = (Cell.new.run ops).compute := by
    simp [Cell.run, Cell.step]
  have hv : (Cell.new.run ops).compute.valid = true := by
    unfold Cell.compute Cell.computeWith
    split
    · rename_i hv
      rcases hv with hv | hv
      · exact hv
      · rw [h.n] at hv
        have : (pointsOf ops).length < 3 := by exact_mod_cast hv
        omega
    · rfl
  rw [e, (hc.cached hv).2.1, hc.toStats.covarianceOf (by omega)]
  exact informationOf_sym _ _ _ (trace_pos _ (by omega) hs)

theorem run_compute_n_mean (ops : List CellOp) :
    (Cell.new.run (ops ++ [.compute])).n = (pointsOf ops).length ∧
    (Cell.new.run (ops ++ [.compute])).mean = ⟨avg (·.x) (pointsOf ops), avg (·.y) (pointsOf ops)⟩ := by
  have h := (Cell.Inv.run_new (ops ++ [.compute]))
  have e : pointsOf (ops ++ [.compute]) = pointsOf ops := by
    clear h
    induction ops with
    | nil => rfl
    | cons op ops ih => cases op <;> simp [pointsOf, ih]
  rw [e] at h
  exact ⟨h.n, h.mean⟩

/-- **C04** The score of a computed cell with at least five points, not all the same, is the unnormalised
Gaussian of the batch mean and (eigenvalue-limited) sample covariance. -/
theorem c04_cell_score_is_gaussian (ops : List CellOp) (h5 : 5 ≤ (pointsOf ops).length)
    (hs : ¬ AllSame (pointsOf ops)) (p : Point) :
    let ps := pointsOf ops
    (Cell.new.run (ops ++ [.compute])).score p =
      .fin (gauss ⟨avg (·.x) ps, avg (·.y) ps⟩ (sampleCov (·.x) (·.x) ps) (sampleCov (·.x) (·.y) ps)
        (sampleCov (·.y) (·.y) ps) p) := by
  intro ps
  obtain ⟨hn, hm⟩ := run_compute_n_mean ops
  have hi := computed_information ops (by omega) hs
  have h2 : 2 ≤ ps.length := le_trans (by norm_num) h5
  have hpos := limitedDet_pos (b := sampleCov (·.x) (·.y) ps) (trace_pos ps h2 hs)
  unfold Cell.score
  have h5' : ¬ ((pointsOf ops).length : ℝ) < 5 := by
    rw [not_lt]; exact_mod_cast h5
  rw [hn, if_neg h5', hi, hm]
  simp only [Fl.fin_mul, Fl.fin_add, Fl.exp_fin, gauss]
  congr 2
  have hne := hpos.ne'
  change limitedDet (sampleCov (·.x) (·.x) (pointsOf ops)) (sampleCov (·.x) (·.y) (pointsOf ops))
    (sampleCov (·.y) (·.y) (pointsOf ops)) ≠ 0 at hne
  clear hi hpos
  simp only [ps]
  generalize pointsOf ops = ps at *
  generalize limitedDet _ _ _ = D at *
  generalize sampleCov (fun x : Point => x.x) (fun x => x.x) ps = a at *
  generalize sampleCov (fun x : Point => x.x) (fun x => x.y) ps = b at *
  generalize sampleCov (fun x : Point => x.y) (fun x => x.y) ps = d at *
  field_simp
  ring

/-- The Gaussian of a positive semi-definite non-zero covariance lies in (0, 1]. -/
theorem gauss_mem (mu : Point) (a b d : ℝ) (hp : Psd a b d) (ht : 0 < a + d) (p : Point) :
    0 < gauss mu a b d p ∧ gauss mu a b d p ≤ 1 := by
  refine ⟨Real.exp_pos _, ?_⟩
  unfold gauss
  rw [Real.exp_le_one_iff]
  have h := hp (p.y - mu.y) (-(p.x - mu.x))
  have hd := limitedDet_pos (b := b) ht
  have : 0 ≤ ((p.x - mu.x) ^ 2 * d - 2 * (p.x - mu.x) * (p.y - mu.y) * b + (p.y - mu.y) ^ 2 * a) /
      limitedDet a b d := by
    apply div_nonneg _ hd.le
    nlinarith [h]
  linarith

/-- **C04** That score is a real number in (0, 1], equals 1 at the mean and is symmetric about the mean. -/
theorem c04_cell_score_is_likelihood (ops : List CellOp) (h5 : 5 ≤ (pointsOf ops).length)
    (hs : ¬ AllSame (pointsOf ops)) :
    let c := Cell.new.run (ops ++ [.compute])
    (∀ p, ∃ s : ℝ, c.score p = .fin s ∧ 0 < s ∧ s ≤ 1) ∧
    c.score c.mean = .fin 1 ∧
    (∀ dx dy : ℝ, c.score ⟨c.mean.x + dx, c.mean.y + dy⟩ = c.score ⟨c.mean.x - dx, c.mean.y - dy⟩) := by
  intro c
  have hg := c04_cell_score_is_gaussian ops h5 hs
  have hm : c.mean = _ := (run_compute_n_mean ops).2
  refine ⟨fun p => ⟨_, hg p, gauss_mem _ _ _ _ (sampleCov_psd_nonneg _ (by omega))
    (trace_pos _ (by omega) hs) p⟩, ?_, ?_⟩
  · rw [hg c.mean, hm]; simp [gauss]
  · intro dx dy
    rw [hg, hg, hm]
    simp only [gauss]
    congr 3
    ring

/-- **C04** The score falls off strictly along every ray from the mean on which it is not flat:
moving away from the mean never raises the score. -/
theorem c04_cell_score_unimodal (ops : List CellOp) (h5 : 5 ≤ (pointsOf ops).length)
    (hs : ¬ AllSame (pointsOf ops)) (dx dy t : ℝ) (ht : 1 ≤ t) :
    let c := Cell.new.run (ops ++ [.compute])
    ∃ s s' : ℝ, c.score ⟨c.mean.x + dx, c.mean.y + dy⟩ = .fin s ∧
      c.score ⟨c.mean.x + t * dx, c.mean.y + t * dy⟩ = .fin s' ∧ s' ≤ s := by
  intro c
  have hg := c04_cell_score_is_gaussian ops h5 hs
  have hm : c.mean = _ := (run_compute_n_mean ops).2
  refine ⟨_, _, hg _, hg _, ?_⟩
  rw [hm]
  unfold gauss
  apply Real.exp_le_exp.mpr
  have hd := limitedDet_pos (b := sampleCov (·.x) (·.y) (pointsOf ops)) (trace_pos _ (by omega) hs)
  have h := sampleCov_psd_nonneg (pointsOf ops) (by omega) dy (-dx)
  generalize sampleCov (fun x : Point => x.x) (fun x => x.x) (pointsOf ops) = a at *
  generalize sampleCov (fun x : Point => x.x) (fun x => x.y) (pointsOf ops) = b at *
  generalize sampleCov (fun x : Point => x.y) (fun x => x.y) (pointsOf ops) = d at *
  have hq : 0 ≤ (dx ^ 2 * d - 2 * dx * dy * b + dy ^ 2 * a) / limitedDet a b d :=
    div_nonneg (by nlinarith [h]) hd.le
  have e1 : ∀ m0 m1 : ℝ, ((m0 + dx - m0) ^ 2 * d - 2 * (m0 + dx - m0) * (m1 + dy - m1) * b +
      (m1 + dy - m1) ^ 2 * a) / limitedDet a b d = (dx ^ 2 * d - 2 * dx * dy * b + dy ^ 2 * a) / limitedDet a b d := by
    intro m0 m1; congr 1; ring
  have e2 : ∀ m0 m1 : ℝ, ((m0 + t * dx - m0) ^ 2 * d - 2 * (m0 + t * dx - m0) * (m1 + t * dy - m1) * b +
      (m1 + t * dy - m1) ^ 2 * a) / limitedDet a b d =
      t ^ 2 * ((dx ^ 2 * d - 2 * dx * dy * b + dy ^ 2 * a) / limitedDet a b d) := by
    intro m0 m1; rw [mul_div_assoc']; congr 1; ring
  simp only [e1, e2]
  nlinarith [mul_nonneg (by nlinarith : (0 : ℝ) ≤ t ^ 2 - 1) hq]

/-- **C04** With fewer than five points the score is exactly 0, computed or not. -/
theorem c04_cell_score_few_points (ops : List CellOp) (h5 : (pointsOf ops).length < 5) (p : Point) :
    (Cell.new.run ops).score p = .fin 0 := by
  unfold Cell.score
  rw [if_pos]
  rw [(Cell.Inv.run_new ops).n]
  exact_mod_cast h5

theorem samplePts_not_allSame : ¬ AllSame samplePts := by
  rintro ⟨q, h⟩
  have h1 := h ⟨0, 0⟩ (by simp [samplePts])
  have h2 := h ⟨3, 2⟩ (by simp [samplePts])
  rw [← h1, Point.mk.injEq] at h2
  norm_num at h2

theorem pointsOf_map_add (ps : List Point) : pointsOf (ps.map .addPoint) = ps := by
  induction ps with
  | nil => rfl
  | cons p ps ih => simp [pointsOf, ih]

example : 5 ≤ (pointsOf (samplePts.map .addPoint)).length ∧
    ¬ AllSame (pointsOf (samplePts.map .addPoint)) := by
  rw [pointsOf_map_add]
  exact ⟨by simp [samplePts], samplePts_not_allSame⟩

/-- **C05** (refuted) The claim "the score of a computed cell with at least five points is a number" holds
exactly when the points are not all the same. With five or more copies of one point the covariance is zero,
it is inverted all the same, and the score of *every* query is NaN. -/
theorem c05_cell_score_nan_iff_all_same (ops : List CellOp) (h5 : 5 ≤ (pointsOf ops).length) (p : Point) :
    (Cell.new.run (ops ++ [.compute])).score p = .nan ↔ AllSame (pointsOf ops) := by
  constructor
  · intro h
    by_contra hs
    rw [c04_cell_score_is_gaussian ops h5 hs] at h
    cases h
  · rintro ⟨q, hq⟩
    have hne : pointsOf ops ≠ [] := by
      intro h0; rw [h0] at h5; simp at h5
    have h := Cell.Inv.run_new ops
    have hc := h.compute
    have e : Cell.new.run (ops ++ [.compute]) = (Cell.new.run ops).compute := by
      simp [Cell.run, Cell.step]
    have hv : (Cell.new.run ops).compute.valid = true := by
      unfold Cell.compute Cell.computeWith
      split
      · rename_i hv
        rcases hv with hv | hv
        · exact hv
        · rw [h.n] at hv
          have : (pointsOf ops).length < 3 := by exact_mod_cast hv
          omega
      · rfl
    have hcov := hc.toStats.covarianceOf (by omega)
    rw [sampleCov_allSame _ _ q _ hne hq, sampleCov_allSame _ _ q _ hne hq,
      sampleCov_allSame _ _ q _ hne hq] at hcov
    have hinfo := (hc.cached hv).2.1
    rw [hcov, informationOf_zero] at hinfo
    unfold Cell.score
    have h5' : ¬ ((pointsOf ops).length : ℝ) < 5 := by
      rw [not_lt]; exact_mod_cast h5
    rw [(run_compute_n_mean ops).1, if_neg h5', e, hinfo]
    simp

/-- **C05** (refuted) A concrete cell whose score is NaN. -/
theorem c05_cell_score_nan_witness :
    (Cell.new.run (List.replicate 5 (.addPoint ⟨1, 2⟩) ++ [.compute])).score ⟨0, 0⟩ = .nan := by
  rw [c05_cell_score_nan_iff_all_same]
  · refine ⟨⟨1, 2⟩, ?_⟩
    simp [List.replicate, pointsOf]
  · simp [List.replicate, pointsOf]

/-- **C05** The part that holds: unless the cell holds five or more copies of a single point, the score of a
computed cell is a number in [0, 1]. -/
theorem c05_cell_score_number_partial (ops : List CellOp)
    (h : (pointsOf ops).length < 5 ∨ ¬ AllSame (pointsOf ops)) (p : Point) :
    ∃ s : ℝ, (Cell.new.run (ops ++ [.compute])).score p = .fin s ∧ 0 ≤ s ∧ s ≤ 1 := by
  by_cases h5 : (pointsOf ops).length < 5
  · refine ⟨0, ?_, le_rfl, zero_le_one⟩
    apply c04_cell_score_few_points
    have : pointsOf (ops ++ [.compute]) = pointsOf ops := by
      clear h h5
      induction ops with
      | nil => rfl
      | cons op ops ih => cases op <;> simp [pointsOf, ih]
    rwa [this]
  · obtain ⟨s, hs, h0, h1⟩ := (c04_cell_score_is_likelihood ops (by omega)
      (h.resolve_left h5)).1 p
    exact ⟨s, hs, h0.le, h1⟩

/-- **C10** The information matrix of a computed cell with at least three points, not all the same: its
entries are real, it is symmetric and positive semi-definite; it is the inverse of the covariance if the
smaller eigenvalue is at least 0.001 of the larger, otherwise the inverse with the determinant replaced, whose
larger eigenvalue is 1000 / (larger covariance eigenvalue). -/
theorem c10_cell_information (ops : List CellOp) (h3 : 3 ≤ (pointsOf ops).length)
    (hs : ¬ AllSame (pointsOf ops)) :
    let ps := pointsOf ops
    let a := sampleCov (·.x) (·.x) ps
    let b := sampleCov (·.x) (·.y) ps
    let d := sampleCov (·.y) (·.y) ps
    ∃ i00 i01 i11 : ℝ,
      (Cell.new.run (ops ++ [.compute])).information = ⟨.fin i00, .fin i01, .fin i01, .fin i11⟩ ∧
      Psd i00 i01 i11 ∧
      (eigMax a b d / 1000 ≤ eigMin a b d →
        i00 * a + i01 * b = 1 ∧ i00 * b + i01 * d = 0 ∧ i01 * a + i11 * b = 0 ∧ i01 * b + i11 * d = 1) ∧
      (eigMin a b d < eigMax a b d / 1000 → eigMax i00 i01 i11 = 1000 / eigMax a b d) := by
  intro ps a b d
  have h3' : 3 ≤ ps.length := h3
  have ht : 0 < a + d := trace_pos ps (by omega) hs
  have hd := limitedDet_pos (b := b) ht
  have hpsd : Psd a b d := sampleCov_psd_nonneg ps (by omega)
  have hmax := eigMax_pos (b := b) ht
  refine ⟨_, _, _, computed_information ops h3 hs, ?_, ?_, ?_⟩
  · intro u v
    have h := hpsd v (-u)
    have e : u ^ 2 * (d / limitedDet a b d) + 2 * u * v * (-b / limitedDet a b d) +
        v ^ 2 * (a / limitedDet a b d) = (v ^ 2 * a + 2 * v * (-u) * b + (-u) ^ 2 * d) / limitedDet a b d := by
      ring
    show 0 ≤ u ^ 2 * (d / limitedDet a b d) + 2 * u * v * (-b / limitedDet a b d) +
        v ^ 2 * (a / limitedDet a b d)
    rw [e]
    exact div_nonneg h hd.le
  · intro hle
    have e : limitedDet a b d = a * d - b * b := by
      unfold limitedDet; rw [max_eq_left hle, eig_mul]
    have hne : a * d - b * b ≠ 0 := by rw [← e]; exact hd.ne'
    show d / limitedDet a b d * a + -b / limitedDet a b d * b = 1 ∧
      d / limitedDet a b d * b + -b / limitedDet a b d * d = 0 ∧
      -b / limitedDet a b d * a + a / limitedDet a b d * b = 0 ∧
      -b / limitedDet a b d * b + a / limitedDet a b d * d = 1
    rw [← e] at hne
    refine ⟨?_, ?_, ?_, ?_⟩ <;> field_simp
    · rw [e]; ring
    · ring
    · ring
    · rw [e]; ring
  · intro hlt
    have e : limitedDet a b d = eigMax a b d / 1000 * eigMax a b d := by
      unfold limitedDet; rw [max_eq_right hlt.le]
    show eigMax (d / limitedDet a b d) (-b / limitedDet a b d) (a / limitedDet a b d) = _
    have hscale : eigMax (d / limitedDet a b d) (-b / limitedDet a b d) (a / limitedDet a b d) =
        eigMax a b d / limitedDet a b d := by
      unfold eigMax
      have : (d / limitedDet a b d - a / limitedDet a b d) ^ 2 + 4 * (-b / limitedDet a b d) ^ 2 =
          ((a - d) ^ 2 + 4 * b ^ 2) / limitedDet a b d ^ 2 := by
        field_simp; ring
      rw [this, Real.sqrt_div (by positivity), Real.sqrt_sq hd.le]
      field_simp
      ring
    rw [hscale, e]
    field_simp

/-- Both cases of C10 occur: the points of `samplePts`, and points on a line. -/
example : let ps := samplePts
    eigMax (sampleCov (·.x) (·.x) ps) (sampleCov (·.x) (·.y) ps) (sampleCov (·.y) (·.y) ps) / 1000 ≤
    eigMin (sampleCov (·.x) (·.x) ps) (sampleCov (·.x) (·.y) ps) (sampleCov (·.y) (·.y) ps) := by
  have e1 : sampleCov (·.x) (·.x) samplePts = 3 / 2 := by
    simp [samplePts, sampleCov, avg]; norm_num
  have e2 : sampleCov (·.x) (·.y) samplePts = 3 / 4 := by
    simp [samplePts, sampleCov, avg]; norm_num
  have e3 : sampleCov (·.y) (·.y) samplePts = 7 / 10 := by
    simp [samplePts, sampleCov, avg]; norm_num
  simp only [e1, e2, e3]
  unfold eigMax eigMin
  have : Real.sqrt ((3 / 2 - 7 / 10) ^ 2 + 4 * (3 / 4) ^ 2 : ℝ) ≤ 2 := by
    rw [Real.sqrt_le_left (by norm_num)]; norm_num
  linarith

example : let ps : List Point := [⟨0, 0⟩, ⟨1, 0⟩, ⟨2, 0⟩]
    eigMin (sampleCov (·.x) (·.x) ps) (sampleCov (·.x) (·.y) ps) (sampleCov (·.y) (·.y) ps) <
    eigMax (sampleCov (·.x) (·.x) ps) (sampleCov (·.x) (·.y) ps) (sampleCov (·.y) (·.y) ps) / 1000 := by
  have e1 : sampleCov (·.x) (·.x) [⟨0, 0⟩, ⟨1, 0⟩, ⟨2, 0⟩] = 1 := by
    simp [sampleCov, avg]; norm_num
  have e2 : sampleCov (·.x) (·.y) [⟨0, 0⟩, ⟨1, 0⟩, ⟨2, 0⟩] = 0 := by
    simp [sampleCov, avg]
  have e3 : sampleCov (·.y) (·.y) [⟨0, 0⟩, ⟨1, 0⟩, ⟨2, 0⟩] = 0 := by
    simp [sampleCov, avg]
  simp only [e1, e2, e3, eigMin, eigMax]
  norm_num

end

end Ndt
