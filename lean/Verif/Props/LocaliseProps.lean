import Verif.Proof.Frame
import Verif.Props.LoopProps

/-! # Localisation does not alter the map (C62) -/

namespace Ndt

noncomputable section

open Spec Mapper

theorem mapInv_reach {p : Params} {W : Graph → Prop} {A : Sys → Event → Prop} {s : Sys} (h : Reach p W A s) : MapInv p s := by
  refine Reach.inv h ?_ fun s e s' hI _ _ ht => mapInv_step hI ht
  intro enable file s0 hst _
  rcases start_cases hst with ⟨-, rfl⟩ | ⟨bag, g, -, -, rfl⟩ <;> exact fun h => h.elim

/-- **C62** (partial) From any reachable state in which mapping is disabled and the loop closure thread sleeps, until
mapping is enabled or a map is loaded, no schedule changes scans, their poses or constraints. Missing: a round of the loop
closure thread that was under way when mapping was disabled (see `c62_disabling_does_not_stop_a_round`). -/
theorem c62_disabled_partial (p : Params) (W : Graph → Prop) (A : Sys → Event → Prop) (s t : Sys) (es : List Event)
    (h : Reach p W A s) (hd : s.enable = false) (hs : s.loop = .asleep)
    (he : Exec p (fun _ e => ¬ Loads e ∧ ¬ Enables e) s es t) : SameMap s t := by
  have hM := mapInv_reach h
  suffices H : MapInv p t ∧ t.enable = false ∧ t.loop = .asleep ∧ SameMap s t from H.2.2.2
  induction he with
  | nil => exact ⟨hM, hd, hs, rfl, rfl⟩
  | @snoc es u u' e _ ha hst ih =>
    obtain ⟨i1, i2, i3, i4⟩ := ih
    by_cases hw : IsLoopWork e
    · rw [asleep_work i2 i3 hw hst]; exact ⟨i1, i2, i3, i4⟩
    · have ht := step_trans hst
      obtain ⟨j1, j2⟩ := asleep_step i2 i3 ha.2 ht
      exact ⟨mapInv_step i1 ht, j1, j2, sameMap_trans i4 (sameMap_step i1 ha.1 hw (Or.inl i2) ht)⟩

/-- **C62** (partial) With the particle filter no work of the executor or of the publishing thread changes the map, unless
a map is loaded. Missing: the loop closure thread (see `c62_filter_map_is_altered`). -/
theorem c62_filter_partial (p : Params) (W : Graph → Prop) (A : Sys → Event → Prop) (s t : Sys) (es : List Event)
    (h : Reach p W A s) (hf : p.useFilter = true) (he : Exec p (fun _ e => ¬ Loads e ∧ ¬ IsLoopWork e) s es t) :
    SameMap s t := by
  have hM := mapInv_reach h
  suffices H : MapInv p t ∧ SameMap s t from H.2
  induction he with
  | nil => exact ⟨hM, rfl, rfl⟩
  | @snoc es u u' e _ ha hst ih =>
    obtain ⟨i1, i4⟩ := ih
    have ht := step_trans hst
    exact ⟨mapInv_step i1 ht, sameMap_trans i4 (sameMap_step i1 ha.1 ha.2 (Or.inr hf) ht)⟩

/-- **C62** (partial) In any reachable state with mapping disabled or the filter in use, a step that alters the map is a
load, or one of the three writes of the loop closure thread: moving its scan, adding a constraint, or optimising. -/
theorem c62_who_alters_partial (p : Params) (W : Graph → Prop) (A : Sys → Event → Prop) (s s' : Sys) (e : Event)
    (h : Reach p W A s) (hd : s.enable = false ∨ p.useFilter = true) (hst : step p s e = .ok s') (hn : ¬ SameMap s s') :
    Loads e ∨ (∃ q cand, s.loop = .matching q cand) ∨ (∃ q c, s.loop = .pushing q c) ∨ s.loop = .optimising := by
  by_cases hl : Loads e
  · exact Or.inl hl
  right
  have ht := step_trans hst
  by_cases hw : IsLoopWork e
  · cases ht with
    | loopAccept score correction cov q cand scan candidate hi => exact Or.inl ⟨_, _, hi⟩
    | loopReject score correction cov q cand hi => exact Or.inl ⟨_, _, hi⟩
    | loopPush q c hi => exact Or.inr (Or.inl ⟨_, _, hi⟩)
    | loopOptimise ceres b solver scans hi => exact Or.inr (Or.inr hi)
    | _ => first
      | exact hw.elim
      | exact absurd ⟨rfl, rfl⟩ hn
  · exact absurd (sameMap_step (mapInv_reach h) hl hw hd ht) hn

/-- Example for `c62_disabled_partial`: a robot localises in the small map. -/
example : Reach (demoParams 10 3) (fun _ => True) Any (demoLoaded (demoParams 10 3) false) ∧
    (demoLoaded (demoParams 10 3) false).enable = false ∧ (demoLoaded (demoParams 10 3) false).loop = .asleep ∧
    run (demoParams 10 3) (demoLoaded (demoParams 10 3) false)
      [.loopWake, .pose ⟨true, ⟨1, 2, 0⟩, 0, 0, 0⟩ (some Pose2d.zero) [0, 1], .setRobot, .setOdom] = .ok
      { demoLoaded (demoParams 10 3) false with prevRobot := ⟨1, 2, 0⟩, initialized := true } := by
  refine ⟨⟨false, some demoBag, _, [], demoLoaded_start _ _, by simp, .nil⟩, rfl, rfl, ?_⟩
  have hv : Visits [0, 1] (demoLoaded (demoParams 10 3) false).scans.length := by
    unfold Visits
    simp [demoLoaded, startWith, Sys.scans, demoMap]
    decide
  have h2 : step (demoParams 10 3) (demoLoaded (demoParams 10 3) false)
      (.pose ⟨true, ⟨1, 2, 0⟩, 0, 0, 0⟩ (some Pose2d.zero) [0, 1]) =
      .ok { demoLoaded (demoParams 10 3) false with spin := .poseRobot ⟨1, 2, 0⟩ Pose2d.zero } := by
    show (if _ then _ else _) = _
    rw [if_pos hv]
    rfl
  rw [run_cons]
  show run _ (demoLoaded (demoParams 10 3) false) _ = _
  rw [run_cons, h2, Res.ok_bind]
  rfl

/-- The map of the small example after its loop closure is not that before. -/
theorem demoCorrected_altered (s : Sys) (limit : ℕ) (cov : Mat3)
    (hs : s.scans = [mapDot 0 Pose2d.zero, mapDot 1 Pose2d.zero]) :
    ¬ SameMap s (demoCorrected s limit ⟨1, 0, 0⟩ cov) := by
  rintro ⟨h, -⟩
  have e : (demoCorrected s limit ⟨1, 0, 0⟩ cov).scans =
      [mapDot 0 Pose2d.zero, (mapDot 1 Pose2d.zero).setPose ⟨1, 0, 0⟩] := by
    have hs1 : s.heap s.epoch = [mapDot 0 Pose2d.zero, mapDot 1 Pose2d.zero] := hs
    show setPoseAt s.heap ⟨s.epoch, 1⟩ ⟨1, 0, 0⟩ s.epoch = _
    simp [setPoseAt, hs1]
  rw [e, hs] at h
  have h1 := congrArg (fun l => l.map fun x : Scan => x.pose.x) h
  simp [mapDot, Scan.setPose, Scan.setPoints, Scan.new, Pose2d.zero] at h1

/-- **C62** (refuted for the particle filter) With `use_particle_filter` and the default `enable_mapping`, the loop closure
thread works on the map the filter localises in: in this execution it moves scan 1 of a loaded map by one metre. -/
theorem c62_filter_map_is_altered : ∃ (p : Params) (s t : Sys) (es : List Event), p.useFilter = true ∧
    Mapper.start p true (some demoBag) = .ok s ∧ run p s es = .ok t ∧ (∀ e ∈ es, ¬ Loads e) ∧ ¬ SameMap s t := by
  refine ⟨{ demoParams 0 3 with useFilter := true }, _, _, demoClosing (.fin (-1)) ⟨1, 0, 0⟩ fun _ _ => .fin 0, rfl,
    demoLoaded_start _ _, run_demoClosing _ rfl (by norm_num [demoParams]) rfl (-1) (by norm_num) _ _, ?_, ?_⟩
  · rintro e he ⟨action, bag, rfl, -⟩
    simp [demoClosing, demoLaser] at he
  · have hs : (demoSetUp { demoParams 0 3 with useFilter := true }
        (demoLoaded { demoParams 0 3 with useFilter := true } true)).scans =
        [mapDot 0 Pose2d.zero, mapDot 1 Pose2d.zero] := by
      simp [demoSetUp, demoLoaded, startWith, Sys.scans, demoMap]
    exact demoCorrected_altered _ _ _ hs

/-- **C62** (refuted for disabling) A round of the loop closure thread goes on after mapping was disabled: here the map is
altered by a step taken with mapping disabled. -/
theorem c62_disabling_does_not_stop_a_round : ∃ (p : Params) (s u t : Sys) (es : List Event) (e : Event),
    Mapper.start p true (some demoBag) = .ok s ∧ run p s es = .ok u ∧ u.enable = false ∧ ¬ Loads e ∧ ¬ Enables e ∧
    step p u e = .ok t ∧ ¬ SameMap u t := by
  let p := demoParams 0 3
  let s1 := demoSetUp p (demoLoaded p true)
  have hs : s1.scans = [mapDot 0 Pose2d.zero, mapDot 1 Pose2d.zero] := by
    simp [s1, p, demoSetUp, demoLoaded, startWith, Sys.scans, demoMap]
  let s2 : Sys := { s1 with enable := false, initialized := false }
  refine ⟨p, demoLoaded p true, demoMatching s2 3, demoCorrected s2 3 ⟨1, 0, 0⟩ fun _ _ => .fin 0,
    [demoLaser Pose2d.zero] ++ ([.loopWake, .loopCount, .loopPick [0]] ++ [.loopCandidate, .configure 2#32 []]),
    .loopMatched (.fin (-1)) ⟨1, 0, 0⟩ fun _ _ => .fin 0, demoLoaded_start _ _, ?_, rfl, ?_, ?_, ?_, ?_⟩
  · rw [run_append, run_cons, step_demoSetUp p _ _ rfl rfl rfl, Res.ok_bind]
    show (Except.ok s1 >>= _) = _
    rw [Res.ok_bind, run_append, run_demoSearch p s1 rfl (by norm_num [p, demoParams]) rfl hs rfl rfl rfl, Res.ok_bind, run_cons,
      step_demoMatching p s1 _ hs (by simp [s1, demoSetUp]), Res.ok_bind, run_cons]
    rfl
  · rintro ⟨action, bag, h, -⟩; cases h
  · rintro ⟨action, bag, h, -⟩; cases h
  · exact step_demoCorrected p s2 3 _ _ _ hs trivial (by
      show (Fl.fin (-1) : Fl) < .fin (-0.5)
      show ((-1 : ℝ) < -0.5)
      norm_num)
  · have := demoCorrected_altered s2 3 (fun _ _ => .fin 0) hs
    exact this

end

end Ndt
