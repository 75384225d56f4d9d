import Verif.Proof.Threads

/-! # Helper lemmas: the publishing thread -/

namespace Ndt

noncomputable section

open Spec Mapper

/-- What a step does to what the publishing thread is concerned with. -/
inductive PubTrans (p : Params) (s : Sys) (e : Event) (s' : Sys) : Prop
  | other (h1 : s'.pub = s.pub) (h2 : s.update = true → s'.update = true) (h3 : s'.lastGrid = s.lastGrid)
      (h4 : s'.lastMarkers = s.lastMarkers)
  | check (h : s.pub = .check) (h1 : s'.pub = if s.update then .clear else .tf) (h2 : s'.update = s.update)
      (h3 : s'.lastGrid = s.lastGrid) (h4 : s'.lastMarkers = s.lastMarkers)
  | clear (h : s.pub = .clear) (h1 : s'.pub = .grid) (h3 : s'.lastGrid = s.lastGrid) (h4 : s'.lastMarkers = s.lastMarkers)
  | grid (h : s.pub = .grid) (h1 : s'.pub = .graph) (h2 : s'.update = s.update) (grid : OccGrid) (msg : GridMsg)
      (h5 : s.grid.getMsg s.scans = .ok (grid, msg)) (h3 : s'.lastGrid = some msg) (h4 : s'.lastMarkers = s.lastMarkers)
  | graph (h : s.pub = .graph) (h1 : s'.pub = .tf) (h2 : s'.update = s.update) (msg : List Graph.Marker)
      (h5 : (s.graph p).getMsg [] = .ok msg) (h3 : s'.lastGrid = s.lastGrid) (h4 : s'.lastMarkers = some msg)
  | tf (h : s.pub = .tf) (h1 : s'.pub = .check) (h2 : s'.update = s.update) (h3 : s'.lastGrid = s.lastGrid)
      (h4 : s'.lastMarkers = s.lastMarkers)

theorem pub_trans {p : Params} {s s' : Sys} {e : Event} (ht : Trans p s e s') : PubTrans p s e s' := by
  cases ht with
  | laserIgnored msg mount odom odomEnd hi =>
    obtain ⟨r, l, g, m, e, -⟩ := setup_cases p msg mount s
    rw [e]; exact .other rfl id rfl rfl
  | laserScan msg mount odom odomEnd points hi hgo hinit ht =>
    obtain ⟨r, l, g, m, e, -⟩ := setup_cases p msg mount s
    rw [e]; exact .other rfl id rfl rfl
  | configureFlags action bag hi hl =>
    obtain ⟨en, ini, e, -⟩ := configureMapping_frame action s
    rw [e]; exact .other rfl id rfl rfl
  | load action bag g hi hl hg =>
    obtain ⟨en, ini, e, -⟩ := configureMapping_frame action s
    rw [e]; exact .other rfl (fun _ => rfl) rfl rfl
  | loopReject score correction cov q cand hi hs =>
    obtain ⟨n, l, e⟩ := afterAttempt_frame q s
    rw [e]; exact .other rfl id rfl rfl
  | loopPush q c hi =>
    obtain ⟨n, l, e⟩ := afterAttempt_frame q { s with constraints := s.constraints ++ [c], update := true }
    rw [e]; exact .other rfl (fun _ => rfl) rfl rfl
  | loopOptimise ceres b solver scans hi ho => exact .other rfl (fun _ => rfl) rfl rfl
  | announce a odom scan hi hs => exact .other rfl (fun _ => rfl) rfl rfl
  | pubCheck hi => exact .check hi rfl rfl rfl rfl
  | pubClear hi => exact .clear hi rfl rfl rfl
  | pubGrid grid msg hi hg => exact .grid hi rfl rfl grid msg hg rfl rfl
  | pubGraph msg hi hg => exact .graph hi rfl rfl msg hg rfl rfl
  | pubTf hi =>
    obtain ⟨x, e⟩ := pubTf_frame s
    rw [e]; exact .tf hi rfl rfl rfl rfl
  | _ => exact .other rfl id rfl rfl

/-- A step of the publishing thread moves it. -/
theorem pubStep_moves {p : Params} {s s' : Sys} {e : Event} (hst : step p s e = .ok s') (h : PubStep s e) :
    s'.pub ≠ s.pub := by
  unfold PubStep at h
  split at h <;> rename_i hp <;> subst h <;> unfold step at hst <;> rw [hp] at hst <;> simp only at hst
  · injection hst with hst; rw [← hst, hp]; simp only; split <;> simp
  · injection hst with hst; rw [← hst, hp]; simp
  · unfold Mapper.pubGrid at hst
    obtain ⟨x, -, h⟩ := bind_ok hst
    injection h with h; rw [← h, hp]; simp
  · unfold Mapper.pubGraph at hst
    obtain ⟨x, -, h⟩ := bind_ok hst
    injection h with h; rw [← h, hp]; simp
  · injection hst with hst
    obtain ⟨x, e⟩ := pubTf_frame s
    rw [e] at hst
    rw [← hst, hp]; simp

theorem gridSince_snoc {p : Params} {A : Sys → Event → Prop} {s t t' : Sys} {es : List Event} {e : Event}
    (h : GridSince p A s es t) (ha : A t e) (hst : step p t e = .ok t') (hl : t'.lastGrid = t.lastGrid) :
    GridSince p A s (es ++ [e]) t' := by
  obtain ⟨es1, es2, u, g, m, rfl, h1, h2, h3, h4⟩ := h
  exact ⟨es1, es2 ++ [e], u, g, m, by simp, h1, .snoc h2 ha hst, h3, hl.trans h4⟩

theorem markersSince_snoc {p : Params} {A : Sys → Event → Prop} {s t t' : Sys} {es : List Event} {e : Event}
    (h : MarkersSince p A s es t) (ha : A t e) (hst : step p t e = .ok t') (hl : t'.lastMarkers = t.lastMarkers) :
    MarkersSince p A s (es ++ [e]) t' := by
  obtain ⟨es1, es2, u, m, rfl, h1, h2, h3, h4⟩ := h
  exact ⟨es1, es2 ++ [e], u, m, by simp, h1, .snoc h2 ha hst, h3, hl.trans h4⟩

/-- Steps the publishing thread takes from here to the end of its next rendering. -/
def pubWay : Pub → ℕ
  | .grid => 1
  | .clear => 2
  | .check => 3
  | .tf => 4
  | .graph => 5

theorem extends_refl (s : Sys) : Extends s s := ⟨List.prefix_refl _, List.prefix_refl _⟩

theorem extends_trans {a b c : Sys} (h1 : Extends a b) (h2 : Extends b c) : Extends a c :=
  ⟨h1.1.trans h2.1, h1.2.trans h2.2⟩

theorem extends_same {s t : Sys} (h1 : SameButPoses t.scans s.scans) (h2 : t.constraints = s.constraints) : Extends s t :=
  ⟨by rw [show (t.scans.map fun x => (x.id, x.points)) = _ from h1], by rw [h2]⟩

theorem extends_step {p : Params} {s s' : Sys} {e : Event} (hl : ¬ Loads e) (ht : Trans p s e s') : Extends s s' := by
  cases ht with
  | laserIgnored msg mount odom odomEnd hi =>
    obtain ⟨r, l, g, m, e, -⟩ := setup_cases p msg mount s
    rw [e]; exact extends_refl s
  | laserScan msg mount odom odomEnd points hi hgo hinit ht =>
    obtain ⟨r, l, g, m, e, -⟩ := setup_cases p msg mount s
    rw [e]; exact extends_refl s
  | configureFlags action bag hi hl =>
    obtain ⟨en, ini, e, -⟩ := configureMapping_frame action s
    rw [e]; exact extends_refl s
  | load action bag g hi hl' hg => exact absurd ⟨action, bag, rfl, hl'⟩ hl
  | loopReject score correction cov q cand hi hs =>
    obtain ⟨n, l, e⟩ := afterAttempt_frame q s
    rw [e]; exact extends_refl s
  | loopPush q c hi =>
    obtain ⟨n, l, e⟩ := afterAttempt_frame q { s with constraints := s.constraints ++ [c], update := true }
    rw [e]; exact ⟨List.prefix_refl _, List.prefix_append _ _⟩
  | pushConstraint c scan odom hi => exact ⟨List.prefix_refl _, List.prefix_append _ _⟩
  | pushScan scan odom hi =>
    refine ⟨?_, List.prefix_refl _⟩
    show _ <+: List.map _ (if s.epoch = s.epoch then s.scans ++ [scan] else _)
    rw [if_pos rfl, List.map_append]; exact List.prefix_append _ _
  | poseScan m odom visit near i rest hi he hn hf hnear hv hfind =>
    refine ⟨?_, List.prefix_append _ _⟩
    show _ <+: List.map _ (if s.epoch = s.epoch then s.scans ++ [_] else _)
    rw [if_pos rfl, List.map_append]; exact List.prefix_append _ _
  | loopAccept score correction cov q cand scan candidate hi hf hs hq1 hq2 =>
    exact extends_same (setPoseAt_same s.heap q.scan _ s.epoch) rfl
  | loopOptimise ceres b solver scans hi ho =>
    refine extends_same ?_ rfl
    show SameButPoses (if s.epoch = s.epoch then scans else _) _
    rw [if_pos rfl]; exact optimize_same ho
  | pubTf hi =>
    obtain ⟨x, e⟩ := pubTf_frame s
    rw [e]; exact extends_refl s
  | _ => exact extends_refl s

end

end Ndt
