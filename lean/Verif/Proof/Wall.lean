import Verif.Props.MatcherProps

/-! # Helper lemmas: the first of the best candidates, and maps of a straight wall -/

namespace Ndt

open Spec

noncomputable section

/-! ### The first of the best -/

theorem Fl.not_lt_self (a : Fl) : ¬ a < a := by
  intro h
  cases a with
  | nan => exact absurd h (Fl.nan_lt _)
  | pinf => exact h.elim
  | ninf => exact h.elim
  | fin x => exact absurd h (lt_irrefl x)

/-- The pose kept is the first of the list with the best value. -/
theorem foldl_first (l : List Pose2d) (w : Pose2d → Fl) (a : Matcher.SearchAcc) :
    let r := l.foldl (fun a o => accUpd a o (w o)) a
    r.best < a.best → ∃ pre post, l = pre ++ r.pose :: post ∧ ∀ o ∈ pre, w o ≠ r.best := by
  induction l generalizing a with
  | nil => exact fun h => absurd h (Fl.not_lt_self _)
  | cons o l ih =>
    intro r hr
    have h3 := (foldl_best l w (accUpd a o (w o))).2.2
    have ih := ih (accUpd a o (w o))
    simp only at ih h3
    change _ ∨ (r.best < _ ∧ _) at h3
    change (r.best < _) → _ at ih
    by_cases hlt : w o < a.best
    · have eb : (accUpd a o (w o)).best = w o := if_pos hlt
      have ep : (accUpd a o (w o)).pose = o := if_pos hlt
      rcases h3 with ⟨-, e2⟩ | ⟨e1, -⟩
      · refine ⟨[], l, ?_, by simp⟩
        rw [ep] at e2
        show o :: l = [] ++ r.pose :: l
        rw [show r.pose = o from e2]
        rfl
      · obtain ⟨pre, post, hp, hne⟩ := ih e1
        refine ⟨o :: pre, post, by rw [hp]; rfl, ?_⟩
        intro q hq
        rcases List.mem_cons.mp hq with rfl | hq
        · rw [eb] at e1
          intro he
          rw [he] at e1
          exact Fl.not_lt_self _ e1
        · exact hne q hq
    · have eb : (accUpd a o (w o)).best = a.best := if_neg hlt
      obtain ⟨pre, post, hp, hne⟩ := ih (by rw [eb]; exact hr)
      refine ⟨o :: pre, post, by rw [hp]; rfl, ?_⟩
      intro q hq
      rcases List.mem_cons.mp hq with rfl | hq
      · intro he
        rw [he] at hlt
        exact hlt hr
      · exact hne q hq

/-- The order of the search: heading, then x, then y. -/
def Earlier (a b : Pose2d) : Prop :=
  a.theta < b.theta ∨ (a.theta = b.theta ∧ (a.x < b.x ∨ (a.x = b.x ∧ a.y < b.y)))

theorem gridVals_pairwise (size res : ℝ) (h : 0 < res) : (gridVals size res).Pairwise (· < ·) := by
  unfold gridVals
  rw [List.pairwise_map]
  refine List.pairwise_lt_range.imp ?_
  intro a b hab
  have : (a : ℝ) < b := by exact_mod_cast hab
  nlinarith

theorem window_pairwise (ls lr as ar : ℝ) (hl : 0 < lr) (ha : 0 < ar) :
    (window ls lr as ar).Pairwise Earlier := by
  unfold window
  rw [List.pairwise_flatMap]
  constructor
  · intro t _
    rw [List.pairwise_flatMap]
    constructor
    · intro x _
      rw [List.pairwise_map]
      exact (gridVals_pairwise ls lr hl).imp fun h => Or.inr ⟨rfl, Or.inr ⟨rfl, h⟩⟩
    · refine (gridVals_pairwise ls lr hl).imp ?_
      intro x x' h a ha b hb
      obtain ⟨_, _, rfl⟩ := List.mem_map.mp ha
      obtain ⟨_, _, rfl⟩ := List.mem_map.mp hb
      exact Or.inr ⟨rfl, Or.inl h⟩
  · refine (gridVals_pairwise as ar ha).imp ?_
    intro t t' h a ha b hb
    obtain ⟨_, _, ha⟩ := List.mem_flatMap.mp ha
    obtain ⟨_, _, rfl⟩ := List.mem_map.mp ha
    obtain ⟨_, _, hb⟩ := List.mem_flatMap.mp hb
    obtain ⟨_, _, rfl⟩ := List.mem_map.mp hb
    exact Or.inl h

/-! ### The score of a point on a map -/

/-- The likelihood of a point in a square of at least five points, not all the same: the Gaussian of the points of
that square. -/
theorem likelihood_gauss {c sx sy ox oy : ℝ} (hc : 0 < c) (hx : 0 ≤ sx) (hy : 0 ≤ sy)
    (hsmall : cols sx c * cols sy c ≤ 2 ^ 31) (ops : List NdtOp)
    (hn : ∀ p ∈ mapPoints ops, Near ox oy c p)
    {g : NdtGrid} (hg : (NdtGrid.new c sx sy ox oy >>= fun g => g.run (ops ++ [.compute])) = .ok g)
    (p : Point) (hp : Near ox oy c p) (hin : InExtents ox oy c (cols sx c) (cols sy c) p)
    (h5 : 5 ≤ (inSquare ox oy c (square ox oy c p) (mapPoints ops)).length)
    (hs : ¬ AllSame (inSquare ox oy c (square ox oy c p) (mapPoints ops))) :
    let ps := inSquare ox oy c (square ox oy c p) (mapPoints ops)
    g.likelihood p = .ok (.fin (gauss ⟨avg (·.x) ps, avg (·.y) ps⟩ (sampleCov (·.x) (·.x) ps)
      (sampleCov (·.x) (·.y) ps) (sampleCov (·.y) (·.y) ps) p)) := by
  intro ps
  obtain ⟨g0, hg0, hw, e0, e1, e2, e3, e4, hcell⟩ := NdtGrid.new_wf (ox := ox) (oy := oy) hc hx hy hsmall
  have hn' : ∀ p ∈ mapPoints (ops ++ [.compute]), Near ox oy c p := by
    intro q hq
    rw [mapPoints_append] at hq
    simp only [mapPoints, List.append_nil] at hq
    exact hn q hq
  obtain ⟨g', hg', s, hs'⟩ := NdtGrid.run_spec (ops ++ [.compute]) hw (by rw [e0, e1, e2]; exact hn')
  rw [hg0] at hg
  simp only [Res.ok_bind] at hg
  rw [hg] at hg'
  cases hg'
  have hwg := s.wf hw
  have f0 := s.cellSize.trans e0
  have f1 := s.originX.trans e1
  have f2 := s.originY.trans e2
  have f3 := s.sizeX.trans e3
  have f4 := s.sizeY.trans e4
  obtain ⟨x, y, hsq, hx', hy', hi⟩ := NdtGrid.getIndex_inside hwg (p := p)
    (by rw [f0, f1, f2]; exact hp) (by rw [f0, f1, f2, f3, f4]; exact hin)
  have hk : square ox oy c p = ((x : ℤ), (y : ℤ)) := by rw [f0, f1, f2] at hsq; exact hsq
  have hc1 := hs' x y (by rw [← s.sizeX]; exact hx') (by rw [← s.sizeY]; exact hy')
  rw [hcell x y (by rw [← s.sizeX]; exact hx') (by rw [← s.sizeY]; exact hy'), e0, e1, e2,
    Option.map_some, cellOps_append] at hc1
  simp only [NdtGrid.cellAt] at hc1
  have hval : g.likelihood p =
      .ok ((Cell.new.run (cellOps ox oy c ((x : ℤ), (y : ℤ)) ops ++ [.compute])).score p) := by
    unfold NdtGrid.likelihood
    rw [hi]
    simp only [Res.ok_bind]
    rw [if_pos (Int.natCast_nonneg _), Int.toNat_natCast, hc1]
    rfl
  have hps : ps = pointsOf (cellOps ox oy c ((x : ℤ), (y : ℤ)) ops) := by
    show inSquare _ _ _ _ _ = _
    rw [hk, ← pointsOf_cellOps]
  have h5' : 5 ≤ ps.length := h5
  have hs' : ¬ AllSame ps := hs
  rw [hps] at h5' hs'
  rw [hval, c04_cell_score_is_gaussian _ h5' hs' p, hps]

/-- The Gaussian of points on a line `y = h` is 1 on the line, all along it, and less off the line. -/
theorem gauss_wall {h : ℝ} {ps : List Point} (h5 : 5 ≤ ps.length) (hs : ¬ AllSame ps) (hw : ∀ p ∈ ps, p.y = h)
    (p : Point) :
    let v := gauss ⟨avg (·.x) ps, avg (·.y) ps⟩ (sampleCov (·.x) (·.x) ps)
      (sampleCov (·.x) (·.y) ps) (sampleCov (·.y) (·.y) ps) p
    (p.y = h → v = 1) ∧ (p.y ≠ h → v < 1) := by
  intro v
  have hlen : (0 : ℝ) < ps.length := by exact_mod_cast (by omega : 0 < ps.length)
  have ey : avg (·.y) ps = h := by
    unfold avg
    have : ps.map (·.y) = ps.map fun _ => h := List.map_congr_left hw
    rw [this, List.map_const', List.sum_replicate, nsmul_eq_mul]
    field_simp
  have exy : ∀ f : Point → ℝ, sampleCov f (·.y) ps = 0 := by
    intro f
    unfold sampleCov
    rw [ey]
    have : (ps.map fun p => (f p - avg f ps) * (p.y - h)) = ps.map fun _ => 0 := by
      apply List.map_congr_left
      intro q hq
      rw [hw q hq, sub_self, mul_zero]
    rw [this]
    simp
  have htr := trace_pos ps (by omega) hs
  rw [exy, add_zero] at htr
  have hdet := limitedDet_pos (a := sampleCov (·.x) (·.x) ps) (b := 0) (d := 0) (by simpa using htr)
  have hv : v = Real.exp (-(1 / 2) * ((p.y - h) ^ 2 * sampleCov (·.x) (·.x) ps /
      limitedDet (sampleCov (·.x) (·.x) ps) 0 0)) := by
    show gauss _ _ _ _ _ = _
    unfold gauss
    rw [exy, exy, ey]
    congr 3
    ring
  constructor
  · intro e
    rw [hv, e]
    simp
  · intro e
    rw [hv, Real.exp_lt_one_iff]
    have : 0 < (p.y - h) ^ 2 := by
      have : p.y - h ≠ 0 := sub_ne_zero.mpr e
      positivity
    have : 0 < (p.y - h) ^ 2 * sampleCov (·.x) (·.x) ps / limitedDet (sampleCov (·.x) (·.x) ps) 0 0 := by
      positivity
    linarith

/-! ### Sums of numbers at most one -/

theorem sum_le_length (f : Point → ℝ) (l : List Point) (h : ∀ p ∈ l, f p ≤ 1) : (l.map f).sum ≤ l.length := by
  induction l with
  | nil => simp
  | cons p l ih =>
    have h1 := h p (by simp)
    have h2 := ih fun q hq => h q (by simp [hq])
    simp only [List.map_cons, List.sum_cons, List.length_cons]
    push_cast
    linarith

theorem sum_lt_length (f : Point → ℝ) (l : List Point) (h : ∀ p ∈ l, f p ≤ 1) (q : Point) (hq : q ∈ l)
    (hlt : f q < 1) : (l.map f).sum < l.length := by
  induction l with
  | nil => simp at hq
  | cons p l ih =>
    have h1 := h p (by simp)
    have h2 := sum_le_length f l fun q hq => h q (by simp [hq])
    simp only [List.map_cons, List.sum_cons, List.length_cons]
    push_cast
    rcases List.mem_cons.mp hq with rfl | hq
    · linarith
    · have := ih (fun q hq => h q (by simp [hq])) hq
      linarith

end

end Ndt
