import Verif.Props.MatcherProps

/-! # Values a map can give, whatever the scans in it -/

namespace Ndt

open Spec

noncomputable section

/-- Not a number, or a number between 0 and `m`. -/
def Fl.UpTo (m : ℝ) (v : Fl) : Prop := v = .nan ∨ ∃ r : ℝ, v = .fin r ∧ 0 ≤ r ∧ r ≤ m

theorem cell_score_upTo (ops : List CellOp) (p : Point) : (Cell.new.run (ops ++ [.compute])).score p |>.UpTo 1 := by
  by_cases h : (pointsOf ops).length < 5 ∨ ¬ AllSame (pointsOf ops)
  · exact Or.inr (c05_cell_score_number_partial ops h p)
  · push Not at h
    exact Or.inl ((c05_cell_score_nan_iff_all_same ops h.1 p).mpr h.2)

/-- Every cell comes from calls of `addPoint` and `compute`. -/
def NdtGrid.Made (g : NdtGrid) : Prop := ∀ c ∈ g.cells, ∃ ops, c = Cell.new.run ops

/-- Every cell comes from such calls, of which the last is `compute`. -/
def NdtGrid.Computed (g : NdtGrid) : Prop := ∀ c ∈ g.cells, ∃ ops, c = Cell.new.run (ops ++ [.compute])

theorem made_new {c sx sy ox oy : ℝ} {g : NdtGrid} (h : NdtGrid.new c sx sy ox oy = .ok g) : g.Made := by
  unfold NdtGrid.new at h
  cases h1 : toU64F (Fl.fin sx / Fl.fin c + Fl.fin 1) with
  | error e => rw [h1] at h; cases h
  | ok n =>
    cases h2 : toU64F (Fl.fin sy / Fl.fin c + Fl.fin 1) with
    | error e => rw [h1, h2] at h; cases h
    | ok m =>
      rw [h1, h2] at h
      simp only [Res.ok_bind, Res.pure_eq] at h
      injection h with h
      rw [← h]
      intro c hc
      exact ⟨[], List.eq_of_mem_replicate hc⟩

theorem made_addMapPoint {g g' : NdtGrid} {p : Point} (hg : g.Made) (h : g.addMapPoint p = .ok g') : g'.Made := by
  unfold NdtGrid.addMapPoint at h
  cases hi : g.getIndex p with
  | error e => rw [hi] at h; cases h
  | ok i =>
    rw [hi] at h
    simp only [Res.ok_bind] at h
    split at h
    · split at h
      · cases h
        intro c hc
        dsimp only at hc
        obtain ⟨k, hk, rfl⟩ := List.mem_iff_getElem.mp hc
        rw [List.getElem_modify]
        rw [List.length_modify] at hk
        obtain ⟨ops, ho⟩ := hg _ (List.getElem_mem hk)
        split
        · exact ⟨ops ++ [.addPoint p], by rw [ho]; simp [Cell.run, Cell.step]⟩
        · exact ⟨ops, ho⟩
      · cases h
    · cases h; exact hg

theorem made_points (f : Point → Point) (ps : List Point) {g g' : NdtGrid} (hg : g.Made)
    (h : ps.foldlM (fun g p => g.addMapPoint (f p)) g = .ok g') : g'.Made := by
  induction ps generalizing g with
  | nil => cases h; exact hg
  | cons p ps ih =>
    rw [List.foldlM_cons] at h
    cases h1 : g.addMapPoint (f p) with
    | error e => rw [h1] at h; cases h
    | ok g1 => rw [h1, Res.ok_bind] at h; exact ih (made_addMapPoint hg h1) h

theorem made_scans (ss : List Scan) {g g' : NdtGrid} (hg : g.Made) (h : ss.foldlM NdtGrid.addScan g = .ok g') : g'.Made := by
  induction ss generalizing g with
  | nil => cases h; exact hg
  | cons s ss ih =>
    rw [List.foldlM_cons] at h
    cases h1 : g.addScan s with
    | error e => rw [h1] at h; cases h
    | ok g1 => rw [h1, Res.ok_bind] at h; exact ih (made_points _ _ hg h1) h

theorem computed_of_made {g : NdtGrid} (hg : g.Made) : g.compute.Computed := by
  intro c hc
  obtain ⟨c0, h0, rfl⟩ := List.mem_map.mp hc
  obtain ⟨ops, rfl⟩ := hg c0 h0
  exact ⟨ops, by simp [Cell.run, Cell.step]⟩

/-- Every map `addScans` builds. -/
theorem addScans_computed {mt mt' : Matcher} {scans : List Scan} (h : mt.addScans scans = .ok mt') :
    ∃ g, mt' = { mt with ndt := some g } ∧ g.Computed := by
  unfold Matcher.addScans at h
  dsimp only at h
  cases h0 : NdtGrid.new mt.resolution ((Matcher.bbox mt.rangeMax scans).maxX - (Matcher.bbox mt.rangeMax scans).minX)
      ((Matcher.bbox mt.rangeMax scans).maxY - (Matcher.bbox mt.rangeMax scans).minY)
      (Matcher.bbox mt.rangeMax scans).minX (Matcher.bbox mt.rangeMax scans).minY with
  | error e => rw [h0] at h; cases h
  | ok g0 =>
    rw [h0, Res.ok_bind] at h
    cases h1 : scans.foldlM NdtGrid.addScan g0 with
    | error e => rw [h1] at h; cases h
    | ok g =>
      rw [h1, Res.ok_bind] at h
      cases h
      exact ⟨_, rfl, computed_of_made (made_scans _ (made_new h0) h1)⟩

theorem likelihood_upTo {g : NdtGrid} (hg : g.Computed) {p : Point} {v : Fl} (h : g.likelihood p = .ok v) : v.UpTo 1 := by
  unfold NdtGrid.likelihood at h
  cases hi : g.getIndex p with
  | error e => rw [hi] at h; cases h
  | ok i =>
    rw [hi] at h
    simp only [Res.ok_bind] at h
    split at h
    · split at h
      · rename_i c hc
        cases h
        obtain ⟨ops, rfl⟩ := hg c (List.mem_of_getElem? hc)
        exact cell_score_upTo ops p
      · cases h
    · cases h; exact Or.inr ⟨0, rfl, le_rfl, zero_le_one⟩

theorem upTo_add {a b : ℝ} {x y : Fl} (hx : x.UpTo a) (hy : y.UpTo b) : (x + y).UpTo (a + b) := by
  rcases hx with rfl | ⟨r, rfl, h1, h2⟩
  · exact Or.inl (Fl.nan_add _)
  · rcases hy with rfl | ⟨t, rfl, h3, h4⟩
    · exact Or.inl (Fl.add_nan _)
    · exact Or.inr ⟨r + t, rfl, by linarith, by linarith⟩

theorem likelihoodPoints_upTo {g : NdtGrid} (hg : g.Computed) {ps : List Point} {v : Fl}
    (h : g.likelihoodPoints ps = .ok v) : v.UpTo ps.length := by
  have key : ∀ (ps : List Point) (a v : Fl) (m : ℝ), a.UpTo m →
      ps.foldlM (fun score p => do let v ← g.likelihood p; (pure (score + v) : Res Fl)) a = .ok v →
      v.UpTo (m + ps.length) := by
    intro ps
    induction ps with
    | nil => intro a v m ha h; cases h; simpa using ha
    | cons p ps ih =>
      intro a v m ha h
      rw [List.foldlM_cons] at h
      cases h1 : g.likelihood p with
      | error e => rw [h1] at h; cases h
      | ok w =>
        rw [h1, Res.ok_bind, Res.pure_eq, Res.ok_bind] at h
        have := ih _ _ _ (upTo_add ha (likelihood_upTo hg h1)) h
        rw [List.length_cons]
        push_cast
        rwa [show m + ((ps.length : ℝ) + 1) = m + 1 + ps.length by ring]
  have := key ps (.fin 0) v 0 (Or.inr ⟨0, rfl, le_rfl, le_rfl⟩) h
  rwa [zero_add] at this

end

end Ndt
