import Verif.Proof.Publish
import Verif.Props.EndsProps

/-! # The publishing thread (C64) -/

namespace Ndt

noncomputable section

open Spec Mapper

/-- **C64** Whatever happens after an update was announced, it is still pending, or the publishing thread is about to render,
or the last published grid was rendered from the graph after the announcement. -/
theorem c64_grid_not_lost (p : Params) (A : Sys → Event → Prop) (s t : Sys) (es : List Event) (hu : s.update = true)
    (h : Exec p A s es t) : t.update = true ∨ t.pub = .grid ∨ GridSince p A s es t := by
  induction h with
  | nil => exact Or.inl hu
  | @snoc es u u' e hex ha hst ih =>
    cases pub_trans (step_trans hst) with
    | other h1 h2 h3 h4 =>
      rcases ih with ih | ih | ih
      · exact Or.inl (h2 ih)
      · exact Or.inr (Or.inl (h1.trans ih))
      · exact Or.inr (Or.inr (gridSince_snoc ih ha hst h3))
    | check h h1 h2 h3 h4 =>
      rcases ih with ih | ih | ih
      · exact Or.inl (h2.trans ih)
      · rw [h] at ih; cases ih
      · exact Or.inr (Or.inr (gridSince_snoc ih ha hst h3))
    | clear h h1 h3 h4 => exact Or.inr (Or.inl h1)
    | grid h h1 h2 g m h5 h3 h4 =>
      exact Or.inr (Or.inr ⟨es, [e], u, g, m, rfl, hex, .snoc .nil ha hst, h5, h3⟩)
    | graph h h1 h2 m h5 h3 h4 =>
      rcases ih with ih | ih | ih
      · exact Or.inl (h2.trans ih)
      · rw [h] at ih; cases ih
      · exact Or.inr (Or.inr (gridSince_snoc ih ha hst h3))
    | tf h h1 h2 h3 h4 =>
      rcases ih with ih | ih | ih
      · exact Or.inl (h2.trans ih)
      · rw [h] at ih; cases ih
      · exact Or.inr (Or.inr (gridSince_snoc ih ha hst h3))

/-- **C64** The same for the published markers. -/
theorem c64_markers_not_lost (p : Params) (A : Sys → Event → Prop) (s t : Sys) (es : List Event) (hu : s.update = true)
    (h : Exec p A s es t) : t.update = true ∨ t.pub = .grid ∨ t.pub = .graph ∨ MarkersSince p A s es t := by
  induction h with
  | nil => exact Or.inl hu
  | @snoc es u u' e hex ha hst ih =>
    cases pub_trans (step_trans hst) with
    | other h1 h2 h3 h4 =>
      rcases ih with ih | ih | ih | ih
      · exact Or.inl (h2 ih)
      · exact Or.inr (Or.inl (h1.trans ih))
      · exact Or.inr (Or.inr (Or.inl (h1.trans ih)))
      · exact Or.inr (Or.inr (Or.inr (markersSince_snoc ih ha hst h4)))
    | check h h1 h2 h3 h4 =>
      rcases ih with ih | ih | ih | ih
      · exact Or.inl (h2.trans ih)
      · rw [h] at ih; cases ih
      · rw [h] at ih; cases ih
      · exact Or.inr (Or.inr (Or.inr (markersSince_snoc ih ha hst h4)))
    | clear h h1 h3 h4 => exact Or.inr (Or.inl h1)
    | grid h h1 h2 g m h5 h3 h4 => exact Or.inr (Or.inr (Or.inl h1))
    | graph h h1 h2 m h5 h3 h4 =>
      exact Or.inr (Or.inr (Or.inr ⟨es, [e], u, m, rfl, hex, .snoc .nil ha hst, h5, h4⟩))
    | tf h h1 h2 h3 h4 =>
      rcases ih with ih | ih | ih | ih
      · exact Or.inl (h2.trans ih)
      · rw [h] at ih; cases ih
      · rw [h] at ih; cases ih
      · exact Or.inr (Or.inr (Or.inr (markersSince_snoc ih ha hst h4)))

/-- **C64** The grid is published after at most five steps of the publishing thread, however the other threads interleave. -/
theorem c64_published_within_five_steps (p : Params) (A : Sys → Event → Prop) (s t : Sys) (es : List Event) (n : ℕ)
    (hu : s.update = true) (h : Counted p A PubStep s es t n) (hn : 5 ≤ n) : GridSince p A s es t := by
  have hex : ∀ {es t n}, Counted p A PubStep s es t n → Exec p A s es t := by
    intro es t n h
    induction h with
    | nil => exact .nil
    | hit _ ha _ hst ih => exact .snoc ih ha hst
    | miss _ ha _ hst ih => exact .snoc ih ha hst
  -- before the rendering: so many steps are left
  suffices H : GridSince p A s es t ∨ ((t.update = true ∨ t.pub = .grid) ∧ n + pubWay t.pub ≤ 5) by
    rcases H with H | ⟨-, H⟩
    · exact H
    · have : 1 ≤ pubWay t.pub := by cases t.pub <;> simp [pubWay]
      omega
  have key : ∀ {es : List Event} {u u' : Sys} {e : Event} {n m : ℕ}, Exec p A s es u → A u e → step p u e = .ok u' →
      (m = n ∨ (m = n + 1 ∧ PubStep u e)) →
      (GridSince p A s es u ∨ ((u.update = true ∨ u.pub = .grid) ∧ n + pubWay u.pub ≤ 5)) →
      (GridSince p A s (es ++ [e]) u' ∨ ((u'.update = true ∨ u'.pub = .grid) ∧ m + pubWay u'.pub ≤ 5)) := by
    intro es u u' e n m hex ha hst hm ih
    cases pub_trans (step_trans hst) with
    | other h1 h2 h3 h4 =>
      have hm' : m = n := by
        rcases hm with hm | ⟨-, hp⟩
        · exact hm
        · exact absurd h1 (pubStep_moves hst hp)
      rcases ih with ih | ⟨ih, hle⟩
      · exact Or.inl (gridSince_snoc ih ha hst h3)
      · refine Or.inr ⟨?_, by rw [hm', h1]; exact hle⟩
        rcases ih with ih | ih
        · exact Or.inl (h2 ih)
        · exact Or.inr (h1.trans ih)
    | check h h1 h2 h3 h4 =>
      rcases ih with ih | ⟨ih, hle⟩
      · exact Or.inl (gridSince_snoc ih ha hst h3)
      · rcases ih with ih | ih
        · right
          rw [h] at hle
          rw [if_pos ih] at h1
          refine ⟨Or.inl (h2.trans ih), ?_⟩
          rw [h1]; simp only [pubWay] at *; omega
        · rw [h] at ih; cases ih
    | clear h h1 h3 h4 =>
      rcases ih with ih | ⟨ih, hle⟩
      · exact Or.inl (gridSince_snoc ih ha hst h3)
      · right
        rw [h] at hle
        refine ⟨Or.inr h1, ?_⟩
        rw [h1]; simp only [pubWay] at *; omega
    | grid h h1 h2 g m h5 h3 h4 => exact Or.inl ⟨es, [e], u, g, m, rfl, hex, .snoc .nil ha hst, h5, h3⟩
    | graph h h1 h2 m h5 h3 h4 =>
      rcases ih with ih | ⟨ih, hle⟩
      · exact Or.inl (gridSince_snoc ih ha hst h3)
      · rcases ih with ih | ih
        · right
          rw [h] at hle
          refine ⟨Or.inl (h2.trans ih), ?_⟩
          rw [h1]; simp only [pubWay] at *; omega
        · rw [h] at ih; cases ih
    | tf h h1 h2 h3 h4 =>
      rcases ih with ih | ⟨ih, hle⟩
      · exact Or.inl (gridSince_snoc ih ha hst h3)
      · rcases ih with ih | ih
        · right
          rw [h] at hle
          refine ⟨Or.inl (h2.trans ih), ?_⟩
          rw [h1]; simp only [pubWay] at *; omega
        · rw [h] at ih; cases ih
  clear hn
  induction h with
  | nil =>
    right
    refine ⟨Or.inl hu, ?_⟩
    cases s.pub <;> simp [pubWay]
  | hit hc ha hp hst ih => exact key (hex hc) ha hst (Or.inr ⟨rfl, hp⟩) ih
  | miss hc ha hp hst ih => exact key (hex hc) ha hst (Or.inl rfl) ih

/-- **C64** Graphs after the announcement hold what was announced: without loading, scans and constraints are only added and
poses moved. -/
theorem c64_later_graphs_hold_it (p : Params) (s t : Sys) (es : List Event) (h : Exec p (fun _ e => ¬ Loads e) s es t) :
    Extends s t := by
  induction h with
  | nil => exact extends_refl s
  | snoc _ ha hst ih => exact extends_trans ih (extends_step ha (step_trans hst))

attribute [local irreducible] afterAttempt in
/-- **C64** What announces: the end of a laser callback that added a scan, a loop closure constraint, an optimisation and a
loaded map. -/
theorem c64_announcements (p : Params) (s s' : Sys) (e : Event) (hst : step p s e = .ok s') :
    (∀ scan odom, e = .pushScan → s.spin = .append scan odom → s'.spin = .announce ⟨s.epoch, s.scans.length⟩ odom) ∧
    (∀ a odom, e = .finishScan → s.spin = .announce a odom → s'.update = true) ∧
    (∀ q c, e = .loopPush → s.loop = .pushing q c → s'.update = true) ∧
    (∀ ceres, e = .loopOptimise ceres → s.loop = .optimising → s'.update = true) ∧
    (Loads e → s.spin = .idle → s'.update = true) := by
  refine ⟨?_, ?_, ?_, ?_, ?_⟩
  · rintro scan odom rfl hs
    unfold step at hst; rw [hs] at hst
    injection hst with hst; rw [← hst]
  · rintro a odom rfl hs
    unfold step at hst; rw [hs] at hst
    simp only at hst
    split at hst
    · cases hst
    · injection hst with hst; rw [← hst]
  · rintro q c rfl hs
    unfold step at hst; rw [hs] at hst
    injection hst with hst
    obtain ⟨n, l, e⟩ := afterAttempt_frame q
      { s with constraints := s.constraints ++ [c], update := true, loop := .pushing q c }
    rw [← hst, e]
  · rintro ceres rfl hs
    unfold step at hst; rw [hs] at hst
    simp only [Mapper.loopOptimise] at hst
    obtain ⟨x, -, h⟩ := bind_ok hst
    injection h with h; rw [← h]
  · rintro ⟨action, bag, rfl, hl⟩ hs
    unfold step at hst; rw [hs] at hst
    simp only [configure, configureFile] at hst
    rw [if_pos hl] at hst
    obtain ⟨x, -, h⟩ := bind_ok hst
    injection h with h; rw [← h]

/-- Example: a scan was announced, and the three steps of the publishing thread show it. -/
example : ∃ t, Exec (demoParams 10 3) Any (demoOne (demoParams 10 3) (demoStart (demoParams 10 3) true) Pose2d.zero)
      [.pubCheck, .pubClear, .pubGrid] t ∧ t.update = false ∧ t.pub = .graph ∧ t.lastGrid ≠ none := by
  obtain ⟨g, m, hg⟩ := blank_getMsg Pose2d.zero
  let p := demoParams 10 3
  let s1 := demoOne p (demoStart p true) Pose2d.zero
  refine ⟨{ s1 with update := false, grid := g, lastGrid := some m, pub := .graph },
    (exec_iff_run _ (fun _ => True) _ _ _).mpr ⟨?_, by simp⟩, rfl, rfl, by simp⟩
  have hs : ({ s1 with update := false, pub := .grid } : Sys).scans = [blank 0 Pose2d.zero] := by
    simp [s1, demoOne, Sys.scans]
  have h3 : step p { s1 with update := false, pub := .grid } .pubGrid =
      .ok { s1 with update := false, grid := g, lastGrid := some m, pub := .graph } := by
    show Mapper.pubGrid _ = _
    unfold Mapper.pubGrid
    rw [hs]
    show (s1.grid.getMsg _ >>= _) = _
    rw [hg]
    rfl
  rw [run_cons]
  show run p { s1 with pub := .clear } _ = _
  rw [run_cons]
  show run p { s1 with update := false, pub := .grid } _ = _
  rw [run_cons, h3]
  rfl

end

end Ndt
