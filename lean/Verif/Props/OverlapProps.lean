import Verif.Props.NodeProps
import Verif.Props.CostProps

/-! # Constraints of scans that do not overlap the map (C76) -/

namespace Ndt

open Spec Mapper

noncomputable section

/-! ## The covariance when nothing overlaps -/

/-- Every offset of the search window has likelihood zero: the scan does not overlap the map. -/
def NoOverlap (mt : Matcher) (g : NdtGrid) (scan : Scan) : Prop :=
  ∀ o, InWindow mt.linearSize mt.linearRes mt.angularSize mt.angularRes o → candidate mt g scan o = .ok (.fin 0)

theorem match_no_overlap {mt : Matcher} {g : NdtGrid} (hg : mt.ndt = some g) (hl : 0 < mt.linearRes) (ha : 0 < mt.angularRes)
    (scan : Scan) (hn : scan.points.length < 2 ^ 64) (hno : NoOverlap mt g scan) (pose : Pose2d) (cov : Mat3F) :
    ∃ r, mt.matchScan scan pose cov = .ok r ∧ r.pose = pose ∧ ∀ i j, r.covariance i j = .nan := by
  obtain ⟨r, hr⟩ := c13_match_defined hg hl ha scan hn pose cov fun o ho => ⟨_, hno o ho⟩
  refine ⟨r, hr, ?_, ?_⟩
  · obtain ⟨best, -, -, h3⟩ := c13_match_returns_best_candidate hg hl ha scan hn pose cov hr
    rcases h3 with ⟨-, e⟩ | ⟨hlt, hw, v, hv, e⟩
    · exact e
    · exfalso
      rw [hno _ hw] at hv
      cases hv
      rw [e] at hlt
      simp at hlt
  · refine (match_covariance hg hl ha scan hn (fun _ => 0)
      (fun o ho => ⟨hno o ((mem_window _ _ _ _ hl ha o).mp ho), le_rfl⟩) pose cov hr).2 (by simp)

/-! ## What a NaN covariance does to the graph -/

theorem inverse3_nan {m : Mat3} (h : ∀ i j, m i j = .nan) : ∀ i j, inverse3 m i j = .nan := by
  intro i j
  have hsub : (Fl.nan - Fl.nan) = .nan := rfl
  simp [inverse3, cofactor3, h, hsub]

theorem matrixL_nan {m : Mat3} (h : ∀ i j, m i j = .nan) : matrixL m 0 0 = .nan ∧ matrixL m 1 0 = .nan ∧ matrixL m 1 1 = .nan ∧
    matrixL m 2 0 = .nan ∧ matrixL m 2 1 = .nan ∧ matrixL m 2 2 = .nan := by
  have hle : ¬ Fl.le .nan (.fin 0) := by
    rintro (h | ⟨-, h⟩)
    · exact Fl.nan_lt _ h
    · exact h trivial
  have hsub : ∀ a : Fl, (Fl.nan - a) = .nan := fun a => by cases a <;> rfl
  have : llt3 m = ⟨.nan, .nan, .nan, .nan, .nan, .nan⟩ := by
    unfold llt3
    simp only [h]
    rw [if_neg hle]
    simp only [Fl.nan_div, hsub]
    rw [if_neg hle, if_neg hle]
    rfl
  unfold matrixL
  rw [this]
  exact ⟨rfl, rfl, rfl, rfl, rfl, rfl⟩

/-- The residual of a constraint, as it is handed to the solver. -/
def constraintResidual (c : Constraint) (a b : Pose2d) : Fin 3 → Fl := residual (matrixL c.information) c.transform a b

/-- **C76** (refuted, consequence) The residual of a constraint made of a NaN covariance is NaN wherever the two scans are:
no pose of the scans makes the problem that is given to Ceres a number. -/
theorem c76_nan_covariance_nan_residual (s d : Scan) (cov : Mat3) (h : ∀ i j, cov i j = .nan) (a b : Pose2d) (i : Fin 3) :
    constraintResidual (makeConstraint s d cov) a b i = .nan := by
  obtain ⟨e00, e10, e11, e20, e21, e22⟩ := matrixL_nan (inverse3_nan h)
  unfold constraintResidual makeConstraint residual
  simp only
  fin_cases i
  · simp [e00]
  · simp [e10]
  · simp [e20]

theorem posDef_of_quad {m : Matrix (Fin 3) (Fin 3) ℝ} (hs : ∀ i j, m i j = m j i)
    (hq : ∀ v : Fin 3 → ℝ, v ≠ 0 → 0 < quad m v) : m.PosDef := by
  apply Matrix.PosDef.of_dotProduct_mulVec_pos
  · unfold Matrix.IsHermitian
    ext i j
    rw [Matrix.conjTranspose_apply, star_trivial]
    exact hs j i
  · intro v hv
    have := hq v hv
    rw [quad_three] at this
    simp only [dotProduct, Matrix.mulVec, star_trivial, Fin.sum_univ_three]
    linarith

/-! ## When the information is a matrix of numbers -/

/-- The offsets of the window whose likelihood is a positive number. -/
def Hit (mt : Matcher) (g : NdtGrid) (scan : Scan) (o : Pose2d) : Prop :=
  InWindow mt.linearSize mt.linearRes mt.angularSize mt.angularRes o ∧
    ∃ v : ℝ, candidate mt g scan o = .ok (.fin v) ∧ 0 < v

/-- The likelihood of every offset of the window is a number. -/
def AllNumbers (mt : Matcher) (g : NdtGrid) (scan : Scan) : Prop :=
  ∀ o, InWindow mt.linearSize mt.linearRes mt.angularSize mt.angularRes o → ∃ v : ℝ, candidate mt g scan o = .ok (.fin v)

/-- The offsets with a positive likelihood do not all lie in one plane through the zero offset. -/
def SpreadOut (mt : Matcher) (g : NdtGrid) (scan : Scan) : Prop :=
  ∀ a b c : ℝ, (a ≠ 0 ∨ b ≠ 0 ∨ c ≠ 0) → ∃ o, Hit mt g scan o ∧ a * o.x + b * o.y + c * o.theta ≠ 0

theorem foldl_nan (l : List Pose2d) (w : Pose2d → Fl) (a : Matcher.SearchAcc)
    (h : (∃ o ∈ l, w o = .nan) ∨ (a.s = .nan ∧ ∀ i j, a.k i j = .nan)) :
    (l.foldl (fun a o => accUpd a o (w o)) a).s = .nan ∧ ∀ i j, (l.foldl (fun a o => accUpd a o (w o)) a).k i j = .nan := by
  induction l generalizing a with
  | nil =>
    rcases h with ⟨o, ho, -⟩ | h
    · simp at ho
    · exact h
  | cons o l ih =>
    rw [List.foldl_cons]
    apply ih
    rcases h with ⟨o', ho, e⟩ | ⟨h1, h2⟩
    · rcases List.mem_cons.mp ho with rfl | ho
      · right
        simp [accUpd, e]
      · exact Or.inl ⟨o', ho, e⟩
    · right
      simp [accUpd, h1, h2]

theorem match_nan {mt : Matcher} {g : NdtGrid} (hg : mt.ndt = some g) (hl : 0 < mt.linearRes) (ha : 0 < mt.angularRes)
    (scan : Scan) (hn : scan.points.length < 2 ^ 64) (pose : Pose2d) (cov : Mat3F) {r : Matcher.MatchResult}
    (hr : mt.matchScan scan pose cov = .ok r)
    (hnan : ∃ o, InWindow mt.linearSize mt.linearRes mt.angularSize mt.angularRes o ∧ candidate mt g scan o = .ok .nan) :
    ∀ i j, r.covariance i j = .nan := by
  classical
  obtain ⟨best, -, hall, -⟩ := c13_match_returns_best_candidate hg hl ha scan hn pose cov hr
  obtain ⟨o, ho, e⟩ := hnan
  let w : Pose2d → Fl := fun o =>
    if ho : ∃ v, candLik g (samples scan.points (min mt.laserMaxBeams scan.points.length)) scan.pose o = .ok v
    then ho.choose else .nan
  have hw : ∀ o, InWindow mt.linearSize mt.linearRes mt.angularSize mt.angularRes o →
      candLik g (samples scan.points (min mt.laserMaxBeams scan.points.length)) scan.pose o = .ok (w o) := by
    intro o ho
    obtain ⟨v, hv, -⟩ := hall o ho
    have hex : ∃ v, candLik g (samples scan.points (min mt.laserMaxBeams scan.points.length)) scan.pose o = .ok v := ⟨v, hv⟩
    simp only [w, dif_pos hex]
    exact hex.choose_spec
  have hwo : w o = .nan := by
    have h1 := hw o ho
    have h2 : candLik g (samples scan.points (min mt.laserMaxBeams scan.points.length)) scan.pose o = .ok .nan := e
    rw [h1] at h2
    injection h2
  unfold Matcher.matchScan at hr
  rw [hg] at hr
  simp only [Scan.getPoints, Scan.getPose, if_neg (not_endless hl ha)] at hr
  rw [search_eq mt hl ha g _ _ (min_le_right _ _) hn] at hr
  rw [(foldlM_eval _ (candLik g (samples scan.points (min mt.laserMaxBeams scan.points.length)) scan.pose)
    (fun a o v => accUpd a o (-v)) _).1 w (fun o ho => hw o ((mem_window _ _ _ _ hl ha o).mp ho))] at hr
  simp only [Res.ok_bind, Res.pure_eq] at hr
  obtain ⟨h1, h2⟩ := foldl_nan (window mt.linearSize mt.linearRes mt.angularSize mt.angularRes) (fun o => -w o)
    { best := .fin 0, pose := pose, k := fun _ _ => .fin 0, u := fun _ => .fin 0, s := .fin 0 }
    (Or.inl ⟨o, (mem_window _ _ _ _ hl ha o).mpr ho, by simp only [hwo]; rfl⟩)
  injection hr with hr
  intro i j
  rw [← hr]
  simp only [h1, h2]
  simp

/-- **C76** (partial: the exact condition under which it holds) The information of the constraint made of a match, on any map,
is a positive definite matrix of numbers if the likelihoods are numbers and those that are positive do not all lie in one
plane through the zero offset. Otherwise not one entry of it is a number. -/
theorem c76_information_numbers_iff_partial {mt0 mt : Matcher} {scans : List Scan} {g : NdtGrid}
    (hmap : mt0.addScans scans = .ok mt) (hg : mt.ndt = some g) (hl : 0 < mt.linearRes) (ha : 0 < mt.angularRes)
    (scan : Scan) (hn : scan.points.length < 2 ^ 64) (pose : Pose2d) (cov : Mat3F) {r : Matcher.MatchResult}
    (hr : mt.matchScan scan pose cov = .ok r) (s d : Scan) :
    (AllNumbers mt g scan ∧ SpreadOut mt g scan → ∃ inf : Matrix (Fin 3) (Fin 3) ℝ,
      IsReal (makeConstraint s d r.covariance).information inf ∧ inf.PosDef ∧
      ∀ a b i, (constraintResidual (makeConstraint s d r.covariance) a b i).isFinite) ∧
    (¬ (AllNumbers mt g scan ∧ SpreadOut mt g scan) →
      ∀ i j, ¬ ((makeConstraint s d r.covariance).information i j).isFinite) := by
  classical
  have hcomp : g.Computed := by
    obtain ⟨g', e, hc⟩ := addScans_computed hmap
    rw [e] at hg
    injection hg with hg
    rwa [← hg]
  obtain ⟨best, -, hall, -⟩ := c13_match_returns_best_candidate hg hl ha scan hn pose cov hr
  by_cases hnum : AllNumbers mt g scan
  swap
  · refine ⟨fun h => absurd h.1 hnum, fun _ i j => ?_⟩
    have hnan : ∃ o, InWindow mt.linearSize mt.linearRes mt.angularSize mt.angularRes o ∧ candidate mt g scan o = .ok .nan := by
      unfold AllNumbers at hnum
      push Not at hnum
      obtain ⟨o, ho, hno⟩ := hnum
      obtain ⟨v, hv, -⟩ := hall o ho
      rcases candidate_upTo hcomp scan o hv with rfl | ⟨x, rfl, -⟩
      · exact ⟨o, ho, hv⟩
      · exact absurd hv (hno x)
    have := inverse3_nan (match_nan hg hl ha scan hn pose cov hr hnan) i j
    show ¬ (inverse3 _ i j).isFinite
    rw [this]
    exact fun h => h
  let w : Pose2d → ℝ := fun o => if ho : ∃ v : ℝ, candidate mt g scan o = .ok (.fin v) then ho.choose else 0
  set W := window mt.linearSize mt.linearRes mt.angularSize mt.angularRes with hW
  have hw : ∀ o ∈ W, candidate mt g scan o = .ok (.fin (w o)) ∧ 0 ≤ w o := by
    intro o ho
    have hex := hnum o ((mem_window _ _ _ _ hl ha o).mp ho)
    have h1 : candidate mt g scan o = .ok (.fin (w o)) := by
      simp only [w, dif_pos hex]
      exact hex.choose_spec
    refine ⟨h1, ?_⟩
    rcases candidate_upTo hcomp scan o h1 with h | ⟨x, h, h0, -⟩
    · cases h
    · injection h with h; rw [h]; exact h0
  have hhit : ∀ o, Hit mt g scan o ↔ o ∈ W ∧ 0 < w o := by
    intro o
    constructor
    · rintro ⟨ho, v, hv, h0⟩
      have hm := (mem_window _ _ _ _ hl ha o).mpr ho
      refine ⟨hm, ?_⟩
      rw [(hw o hm).1] at hv
      injection hv with hv
      injection hv with hv
      rw [hv]; exact h0
    · rintro ⟨hm, h0⟩
      exact ⟨(mem_window _ _ _ _ hl ha o).mp hm, w o, (hw o hm).1, h0⟩
  obtain ⟨hne, hze⟩ := match_covariance hg hl ha scan hn w hw pose cov hr
  rw [← hW] at hne hze
  by_cases hS : (W.map w).sum = 0
  · have hz := sum_nonneg_eq_zero w W (fun o ho => (hw o ho).2) hS
    constructor
    · rintro ⟨-, hsp⟩
      exfalso
      obtain ⟨o, ho, -⟩ := hsp 1 0 0 (Or.inl one_ne_zero)
      obtain ⟨hm, h0⟩ := (hhit o).mp ho
      rw [hz o hm] at h0
      exact lt_irrefl _ h0
    · intro _ i j
      show ¬ (inverse3 _ i j).isFinite
      rw [inverse3_nan (hze hS) i j]
      exact fun h => h
  have hpos : 0 < (W.map w).sum := by
    refine lt_of_le_of_ne ?_ (Ne.symm hS)
    apply List.sum_nonneg
    intro x hx
    obtain ⟨o, ho, rfl⟩ := List.mem_map.mp hx
    exact (hw o ho).2
  set S := (W.map w).sum with hSdef
  let m : Matrix (Fin 3) (Fin 3) ℝ := fun i j => wsum W w (fun o => comp i o * comp j o) / S +
    wsum W w (comp i) / S * (wsum W w (comp j) / S)
  have hreal : IsReal r.covariance m := hne hS
  have hsymm : ∀ i j, m i j = m j i := by
    intro i j
    have : (fun o => comp i o * comp j o) = (fun o => comp j o * comp i o) := by funext o; ring
    simp only [m]
    rw [this]; ring
  have hquad : ∀ v : Fin 3 → ℝ, quad m v =
      (W.map fun o => (v 0 * comp 0 o + v 1 * comp 1 o + v 2 * comp 2 o) ^ 2 * w o).sum / S +
        (v 0 * (wsum W w (comp 0) / S) + v 1 * (wsum W w (comp 1) / S) + v 2 * (wsum W w (comp 2) / S)) ^ 2 := by
    intro v
    have e : (W.map fun o => (v 0 * comp 0 o + v 1 * comp 1 o + v 2 * comp 2 o) ^ 2 * w o).sum =
        ∑ i, ∑ j, v i * v j * wsum W w (fun o => comp i o * comp j o) := by
      simp only [Fin.sum_univ_three]
      unfold wsum
      generalize W = l
      induction l with
      | nil => simp
      | cons o l ih => simp only [List.map_cons, List.sum_cons, ih]; ring
    rw [e]
    simp only [quad, m, Fin.sum_univ_three]
    field_simp
    ring
  have hnn : ∀ v : Fin 3 → ℝ, ∀ x ∈ W.map (fun o => (v 0 * comp 0 o + v 1 * comp 1 o + v 2 * comp 2 o) ^ 2 * w o), 0 ≤ x := by
    intro v x hx
    obtain ⟨o, ho, rfl⟩ := List.mem_map.mp hx
    exact mul_nonneg (sq_nonneg _) (hw o ho).2
  constructor
  · rintro ⟨-, hsp⟩
    have hpd : m.PosDef := by
      apply posDef_of_quad
      · exact fun i j => hsymm i j
      · intro v hv
        rw [hquad v]
        have hv' : v 0 ≠ 0 ∨ v 1 ≠ 0 ∨ v 2 ≠ 0 := by
          by_contra hc
          push Not at hc
          apply hv
          funext i
          fin_cases i
          · exact hc.1
          · exact hc.2.1
          · exact hc.2.2
        obtain ⟨o, ho, hne'⟩ := hsp (v 0) (v 1) (v 2) hv'
        obtain ⟨hm, h0⟩ := (hhit o).mp ho
        have h1 : 0 < (v 0 * comp 0 o + v 1 * comp 1 o + v 2 * comp 2 o) ^ 2 * w o :=
          mul_pos (by positivity) h0
        have h2 := List.single_le_sum (hnn v) _ (List.mem_map.mpr ⟨o, hm, rfl⟩)
        have h3 : 0 < (W.map fun o => (v 0 * comp 0 o + v 1 * comp 1 o + v 2 * comp 2 o) ^ 2 * w o).sum / S :=
          div_pos (lt_of_lt_of_le h1 h2) hpos
        exact add_pos_of_pos_of_nonneg h3 (sq_nonneg _)
    obtain ⟨inf, h1, h2, -⟩ := c33_information_definite s d hreal hpd
    obtain ⟨L, h3, -⟩ := c34_weight_is_cholesky_factor h1 h2
    refine ⟨inf, h1, h2, fun a b i => ?_⟩
    have := residual_real h3 (makeConstraint s d r.covariance).transform a b i
    unfold constraintResidual
    rw [this]
    trivial
  · intro hno
    have hnsp : ¬ SpreadOut mt g scan := fun h => hno ⟨hnum, h⟩
    unfold SpreadOut at hnsp
    push Not at hnsp
    obtain ⟨a, b, c, hnz, hflat⟩ := hnsp
    let v : Fin 3 → ℝ := ![a, b, c]
    have hv : v ≠ 0 := by
      intro h
      rcases hnz with h' | h' | h'
      · exact h' (congrFun h 0)
      · exact h' (congrFun h 1)
      · exact h' (congrFun h 2)
    have hplane : ∀ o ∈ W, (a * comp 0 o + b * comp 1 o + c * comp 2 o) * w o = 0 := by
      intro o ho
      rcases eq_or_lt_of_le (hw o ho).2 with h | h
      · rw [← h, mul_zero]
      · have := hflat o ((hhit o).mpr ⟨ho, h⟩)
        have e : a * comp 0 o + b * comp 1 o + c * comp 2 o = a * o.x + b * o.y + c * o.theta := rfl
        rw [e, this, zero_mul]
    have hlin : ∀ f : Pose2d → ℝ, a * wsum W w (fun o => f o * comp 0 o) + b * wsum W w (fun o => f o * comp 1 o) +
        c * wsum W w (fun o => f o * comp 2 o) = 0 := by
      intro f
      unfold wsum
      revert hplane
      generalize W = l
      intro hplane
      induction l with
      | nil => simp
      | cons o l ih =>
        have h1 := ih fun o ho => hplane o (List.mem_cons_of_mem _ ho)
        have h2 := hplane o (by simp)
        simp only [List.map_cons, List.sum_cons]
        linear_combination h1 + f o * h2
    have hmean := hlin fun _ => 1
    simp only [one_mul] at hmean
    have hdet : m.det = 0 := by
      apply Matrix.exists_mulVec_eq_zero_iff.mp
      refine ⟨v, hv, ?_⟩
      funext i
      simp only [Matrix.mulVec, dotProduct, Fin.sum_univ_three, m, Pi.zero_apply]
      show (wsum W w (fun o => comp i o * comp 0 o) / S + wsum W w (comp i) / S * (wsum W w (comp 0) / S)) * a +
        (wsum W w (fun o => comp i o * comp 1 o) / S + wsum W w (comp i) / S * (wsum W w (comp 1) / S)) * b +
        (wsum W w (fun o => comp i o * comp 2 o) / S + wsum W w (comp i) / S * (wsum W w (comp 2) / S)) * c = 0
      have h1 := hlin (comp i)
      have hm2 : a * wsum W w (comp 0) + b * wsum W w (comp 1) + c * wsum W w (comp 2) = 0 := hmean
      field_simp
      linear_combination S * h1 + wsum W w (comp i) * hm2
    exact c33_singular_covariance s d hreal hdet

/-- The matcher of the concrete map with a window of eight offsets, -1 and 0 in each component. -/
def spreadMatcher : Matcher := { demoMatcher with linearRes := 1, angularRes := 1 }

/-- One point at the origin. -/
def spreadScan : Scan := ⟨1, true, Pose2d.zero, Pose2d.zero, [⟨0, 0⟩]⟩

/-- A case where the condition holds: a point in the middle of the only square of the map. -/
example : ∃ mt g r, spreadMatcher.addScans [demoMapScan] = .ok mt ∧ mt.ndt = some g ∧
    mt.matchScan spreadScan Pose2d.zero (fun _ _ => .fin 0) = .ok r ∧ AllNumbers mt g spreadScan ∧ SpreadOut mt g spreadScan := by
  obtain ⟨mt', g, hgood, e1, e2, e0, emt⟩ := demo_goodMap
  have hok : spreadMatcher.addScans [demoMapScan] = .ok { spreadMatcher with ndt := some g } := by
    have h := hgood.ok
    rw [emt] at h
    rw [addScans_eq] at h ⊢
    obtain ⟨g', h1, h2⟩ := bind_ok h
    have : g' = g := by
      injection h2 with h2
      injection h2 with _ _ _ _ _ _ _ h2
      injection h2
    subst this
    show (_ >>= _) = _
    rw [show spreadMatcher.rangeMax = demoMatcher.rangeMax from rfl, show spreadMatcher.resolution = demoMatcher.resolution from rfl, h1]
    rfl
  obtain ⟨sx, sy, hx, hy, hc, hsm, hg, hsx, hsy⟩ := hgood.params
  rw [e0, e1, e2] at hg
  rw [e0] at hc hsm hsx hsy
  have hs : samples spreadScan.points (beamCount 100 spreadScan.points.length) = [⟨0, 0⟩] := by
    simp [samples, spreadScan, beamCount, sampleIdx]
  have hcand : ∀ o : Pose2d, -1 ≤ o.x → o.x ≤ 0 → -1 ≤ o.y → o.y ≤ 0 →
      ∃ v : ℝ, candidate { spreadMatcher with ndt := some g } g spreadScan o = .ok (.fin v) ∧ 0 < v := by
    intro o h1 h2 h3 h4
    have hmove : move (offset spreadScan.pose o) ⟨0, 0⟩ = ⟨o.x, o.y⟩ := by
      simp [move, offset, spreadScan, Pose2d.zero]
    have near : Near (-4) (-4) 10 ⟨o.x, o.y⟩ := by
      unfold Near
      simp only
      constructor <;> norm_num <;> linarith
    have hin : InExtents (-4) (-4) 10 (cols sx 10) (cols sy 10) ⟨o.x, o.y⟩ := by
      have h1 : (1 : ℝ) ≤ cols sx 10 := by exact_mod_cast Nat.succ_le_succ (Nat.zero_le _)
      have h2 : (1 : ℝ) ≤ cols sy 10 := by exact_mod_cast Nat.succ_le_succ (Nat.zero_le _)
      refine ⟨by simp only; linarith, ?_, by simp only; linarith, ?_⟩ <;> simp only <;> linarith
    have hsq : square (-4) (-4) 10 ⟨o.x, o.y⟩ = (0, 0) := by
      simp only [square, Prod.mk.injEq, Int.floor_eq_iff]
      refine ⟨⟨?_, ?_⟩, ?_, ?_⟩ <;> push_cast <;> linarith
    have hpos := (c09_point_likelihood_support hc hx hy hsm _ demo_near hg ⟨o.x, o.y⟩ near hin).1
    rw [hsq, demo_points, demo_inSquare] at hpos
    obtain ⟨v, hv, hv0, -⟩ := hpos (by simp [samplePts]) samplePts_not_allSame
    refine ⟨v, ?_, hv0⟩
    unfold candidate
    rw [show ({ spreadMatcher with ndt := some g } : Matcher).laserMaxBeams = 100 from rfl, hs]
    simp only [List.map_cons, List.map_nil, hmove]
    have := likelihoodPoints_sum g (fun _ => v) [⟨o.x, o.y⟩] (fun p hp => by
      rw [List.mem_singleton] at hp; subst hp; exact hv)
    simpa using this
  have hbox : ∀ o : Pose2d, InWindow 1 1 1 1 o → -1 ≤ o.x ∧ o.x ≤ 0 ∧ -1 ≤ o.y ∧ o.y ≤ 0 := by
    have h1 : ∀ x : ℝ, OnGrid 1 1 x → -1 ≤ x ∧ x ≤ 0 := by
      rintro x ⟨k, e, h⟩
      have h2 : (k : ℝ) < 2 := by linarith
      have h3 : k < 2 := by exact_mod_cast h2
      have h4 : (k : ℝ) ≤ 1 := by exact_mod_cast Nat.lt_succ_iff.mp h3
      have h5 : (0 : ℝ) ≤ k := Nat.cast_nonneg k
      constructor <;> linarith
    intro o ho
    exact ⟨(h1 _ ho.1).1, (h1 _ ho.1).2, (h1 _ ho.2.1).1, (h1 _ ho.2.1).2⟩
  have g0 : OnGrid 1 1 0 := ⟨1, by norm_num, by norm_num⟩
  have g1 : OnGrid 1 1 (-1) := ⟨0, by norm_num, by norm_num⟩
  have hnum : AllNumbers { spreadMatcher with ndt := some g } g spreadScan := by
    intro o ho
    obtain ⟨h1, h2, h3, h4⟩ := hbox o ho
    obtain ⟨v, hv, -⟩ := hcand o h1 h2 h3 h4
    exact ⟨v, hv⟩
  obtain ⟨r, hr⟩ := c13_match_defined (mt := { spreadMatcher with ndt := some g }) rfl (by norm_num [spreadMatcher])
    (by norm_num [spreadMatcher]) spreadScan (by simp [spreadScan]) Pose2d.zero (fun _ _ => .fin 0)
    (fun o ho => by obtain ⟨v, hv⟩ := hnum o ho; exact ⟨_, hv⟩)
  refine ⟨_, g, r, hok, rfl, hr, hnum, ?_⟩
  have hit : ∀ o : Pose2d, InWindow 1 1 1 1 o → Hit { spreadMatcher with ndt := some g } g spreadScan o := by
    intro o ho
    obtain ⟨h1, h2, h3, h4⟩ := hbox o ho
    exact ⟨ho, hcand o h1 h2 h3 h4⟩
  rintro a b c (h | h | h)
  · exact ⟨⟨-1, 0, 0⟩, hit _ ⟨g1, g0, g0⟩, by simpa using h⟩
  · exact ⟨⟨0, -1, 0⟩, hit _ ⟨g0, g1, g0⟩, by simpa using h⟩
  · exact ⟨⟨0, 0, -1⟩, hit _ ⟨g0, g0, g1⟩, by simpa using h⟩

/-- **C76** (poses given by hand) The information of the constraint of a given pose is the diagonal of the reciprocal variances
if all three variances of the message differ from zero, and has no finite entry if one of them is zero (as in a message whose
covariance was never filled in). -/
theorem c76_given_pose_information_partial (near scan : Scan) (m : PoseMsg) :
    (m.covX ≠ 0 → m.covY ≠ 0 → m.covTheta ≠ 0 →
      IsReal (makeConstraint near scan (poseCovariance m)).information
        (Matrix.diagonal ![1 / m.covX, 1 / m.covY, 1 / m.covTheta])) ∧
    (m.covX = 0 ∨ m.covY = 0 ∨ m.covTheta = 0 →
      ∀ i j, ¬ ((makeConstraint near scan (poseCovariance m)).information i j).isFinite) := by
  have hreal : IsReal (poseCovariance m) (Matrix.diagonal ![m.covX, m.covY, m.covTheta]) := by
    intro i j
    by_cases h : i = j
    · subst h
      simp [poseCovariance]
    · simp [poseCovariance, h, Matrix.diagonal_apply_ne _ h]
  have hdet : (Matrix.diagonal ![m.covX, m.covY, m.covTheta]).det = m.covX * m.covY * m.covTheta := by
    rw [Matrix.det_diagonal, Fin.prod_univ_three]
    rfl
  constructor
  · intro hx hy ht
    obtain ⟨inf, h1, h2, -⟩ := c33_information_is_inverse near scan hreal (by
      rw [hdet]; exact mul_ne_zero (mul_ne_zero hx hy) ht)
    have h3 : Matrix.diagonal ![1 / m.covX, 1 / m.covY, 1 / m.covTheta] * Matrix.diagonal ![m.covX, m.covY, m.covTheta] = 1 := by
      rw [Matrix.diagonal_mul_diagonal, ← Matrix.diagonal_one]
      congr 1
      funext i
      fin_cases i <;> simp [hx, hy, ht]
    have h4 : inf = Matrix.diagonal ![1 / m.covX, 1 / m.covY, 1 / m.covTheta] := by
      have h5 := mul_eq_one_comm.mp h2
      calc inf = (Matrix.diagonal ![1 / m.covX, 1 / m.covY, 1 / m.covTheta] * Matrix.diagonal ![m.covX, m.covY, m.covTheta]) * inf := by
            rw [h3, one_mul]
        _ = _ := by rw [mul_assoc, h5, mul_one]
    rw [← h4]
    exact h1
  · intro h
    refine c33_singular_covariance near scan hreal ?_
    rw [hdet]
    rcases h with h | h | h <;> simp [h]

example : ∃ m : PoseMsg, m.covX ≠ 0 ∧ m.covY ≠ 0 ∧ m.covTheta ≠ 0 := ⟨⟨true, ⟨0, 0, 0⟩, 0.25, 0.25, 0.07⟩, by norm_num, by norm_num, by norm_num⟩

/-! ## C76 -/

/-- **C76** (refuted) When the scan does not overlap the map of the rolling window, the node adds a constraint whose
information is NaN in every entry, in any reachable state. -/
theorem c76_no_overlap_nan_information (np : NodeParams) (W : Graph → Prop) (A : Node → Input → Prop) (n : Node)
    (h : NodeReach np W A n) (hl : 0 < np.localCfg.linearRes) (ha : 0 < np.localCfg.angularRes) (scan : Scan) (odom : Pose2d)
    (hs : n.sys.spin = .matching scan odom) (hlen : scan.points.length < 2 ^ 64) (hne : n.sys.scans ≠ [])
    (hno : ∀ l g, n.localN = some l → l.ndt = some g → NoOverlap l g scan) (junk : Mat3F) {n1 : Node}
    (hst : n.step np (.localMatch junk) = .ok n1) :
    ∃ n2 c, n1.step np (.plain .pushConstraint) = .ok n2 ∧ n2.sys.constraints = n.sys.constraints ++ [c] ∧
      (∃ back, n.sys.scans.getLast? = some back ∧ c.begin_ = back.id ∧ c.end_ = scan.id) ∧
      (∀ i j, c.information i j = .nan) ∧ ∀ a b i, constraintResidual c a b i = .nan := by
  have hT := Node.tied_reach h
  obtain ⟨l, w, h1, -, rng, hbu⟩ := hT.window scan odom hs
  obtain ⟨g, e, -⟩ := addScans_computed hbu
  have hndt : l.ndt = some g := by rw [e]
  obtain ⟨r, hr, hr1, hr2⟩ := match_no_overlap hndt (by rw [e]; exact hl) (by rw [e]; exact ha) scan hlen (hno l g h1 hndt)
    Pose2d.zero junk
  obtain ⟨back, hback⟩ : ∃ b, n.sys.scans.getLast? = some b := by
    cases hb : n.sys.scans.getLast? with
    | none => exact absurd (List.getLast?_eq_none_iff.mp hb) hne
    | some b => exact ⟨b, rfl⟩
  simp only [Node.step, hs, h1, hr] at hst
  obtain ⟨sc, -, hst⟩ := bind_ok hst
  simp only [Res.ok_bind] at hst
  obtain ⟨s, hstep, rfl⟩ := Node.mapper_ok hst
  simp only [Mapper.step, hs, localMatched, hback] at hstep
  injection hstep with hstep
  subst hstep
  refine ⟨_, _, rfl, rfl, ⟨back, hback, rfl, rfl⟩, inverse3_nan hr2, fun a b i => c76_nan_covariance_nan_residual _ _ _ hr2 a b i⟩

/-- A scan without points overlaps nothing. -/
theorem noOverlap_of_no_points (mt : Matcher) (g : NdtGrid) (scan : Scan) (he : scan.points = []) : NoOverlap mt g scan := by
  intro o _
  simp [candidate, he, beamCount, samples, NdtGrid.likelihoodPoints]

/-- **C76** (refuted) Such constraints are reachable: two laser messages without returns, with default parameters. -/
theorem c76_nan_information_reachable (W : Graph → Prop) :
    ∃ n c, NodeReach (demoNode false) W Whatever n ∧ n.sys.constraints = [c] ∧ c.begin_ = 0 ∧ c.end_ = 1 ∧
      (∀ i j, c.information i j = .nan) ∧ ∀ a b i, constraintResidual c a b i = .nan := by
  obtain ⟨n, o, hr, hs, hsc, hc, ht⟩ := demo_matches_blank W
  have hl : 0 < (demoNode false).localCfg.linearRes := by norm_num [demoNode, defaultMatcher]
  have ha : 0 < (demoNode false).localCfg.angularRes := by norm_num [demoNode, defaultMatcher]
  obtain ⟨n1, h1, -⟩ := c58_scan_without_points_disables_loop_closure (demoNode false) W _ n hr hl ha _ _ hs rfl (by simp [hsc])
    (fun _ _ => .fin 0)
  obtain ⟨n2, c, h2, e1, ⟨back, eb, eb1, eb2⟩, e2, e3⟩ := c76_no_overlap_nan_information (demoNode false) W _ n hr hl ha _ _ hs (by simp [blank, Scan.setPoints])
    (by simp [hsc]) (fun l g _ _ => noOverlap_of_no_points l g _ rfl) _ h1
  have hends : c.begin_ = 0 ∧ c.end_ = 1 := by
    rw [hsc] at eb
    injection eb with eb
    subst eb
    exact ⟨eb1, eb2⟩
  rw [hc, List.nil_append] at e1
  obtain ⟨enable, file, n0, is, k1, k2, k3⟩ := hr
  refine ⟨n2, c, ⟨enable, file, n0, (is ++ [.localMatch fun _ _ => .fin 0]) ++ [.plain .pushConstraint], k1, k2,
    .snoc (.snoc k3 ⟨trivial, by simp⟩ h1) ⟨trivial, by simp⟩ h2⟩, e1, hends.1, hends.2, e2, e3⟩

end

end Ndt
