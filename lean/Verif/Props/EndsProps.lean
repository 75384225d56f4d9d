import Verif.Proof.Ends
import Verif.Props.LocaliseProps
import Verif.Props.GraphProps
import Verif.Props.GridProps

/-! # Ends of constraints are scans of the graph (C63) -/

namespace Ndt

noncomputable section

open Spec Mapper OccGrid

/-- What a loaded map has to be like. -/
def ValidMap (g : Graph) : Prop := IdsAreIndices g.scans ∧ EndsValid g.scans.length g.constraints

theorem endsInv_reach {p : Params} {s : Sys} (h : Reach p ValidMap QuietLoads s) : GraphInv s ∧ EndsInv s := by
  refine Reach.inv (I := fun s => GraphInv s ∧ EndsInv s) h ?_ ?_
  · intro enable file s0 hst hw
    refine ⟨graphInv_start hst fun bag hf g hg => (hw bag hf g hg).1, ?_⟩
    rcases start_cases hst with ⟨-, rfl⟩ | ⟨bag, g, hf, hg, rfl⟩
    · refine ⟨?_, ?_, ?_, ?_, ?_⟩
      · intro c hc; simp [startWith, Graph.new] at hc
      all_goals (intros; simp [startWith] at *)
    · refine ⟨endsValid_mono (hw bag hf g hg).2 (Nat.le_add_right _ _), ?_, ?_, ?_, ?_⟩
      all_goals (intros; simp [startWith] at *)
  · intro s e s' hI ha hw ht
    exact ⟨graphInv_step hI.1 (fun a b he g hg => (hw a b he g hg).1) ht,
      endsInv_step hI.1 hI.2 ha (fun a b he g hg => (hw a b he g hg).2) ht⟩

/-- **C63** (partial) If maps are loaded only while the loop closure thread holds no pointers into the graph, then in every
reachable state in which the executor is not between adding a constraint and adding its scan, the ends of all constraints are
scans of the graph. Missing: exactly these two situations (see the refutations below). -/
theorem c63_ends_are_scans_partial (p : Params) (s : Sys) (h : Reach p ValidMap QuietLoads s)
    (hs : ∀ scan odom, s.spin ≠ .append scan odom) :
    ∀ c ∈ s.constraints, c.begin_ < s.scans.length ∧ c.end_ < s.scans.length := by
  have := (endsInv_reach h).2.valid
  have e : promised s.spin = 0 := by
    cases hh : s.spin with
    | append scan odom => exact absurd hh (hs scan odom)
    | _ => rfl
  rw [e] at this
  exact this

/-- **C63** (partial) At any time the ends exceed the graph by at most the one scan that is about to be added. -/
theorem c63_at_most_one_ahead_partial (p : Params) (s : Sys) (h : Reach p ValidMap QuietLoads s) :
    ∀ c ∈ s.constraints, c.begin_ ≤ s.scans.length ∧ c.end_ ≤ s.scans.length := by
  intro c hc
  obtain ⟨h1, h2⟩ := (endsInv_reach h).2.valid c hc
  have : promised s.spin ≤ 1 := by
    cases s.spin <;> simp [promised]
  omega

/-- **C63** (partial) In those states the marker publisher and the optimiser stay within the scans, whatever Ceres does. -/
theorem c63_no_index_out_of_range_partial (p : Params) (s : Sys) (h : Reach p ValidMap QuietLoads s)
    (hs : ∀ scan odom, s.spin ≠ .append scan odom) :
    (s.constraints.length < 2 ^ 31 → ∃ out, (s.graph p).getMsg [] = .ok out) ∧
    ∀ ceres, s.solver.optimize ceres s.constraints s.scans ≠ .error .outOfBounds := by
  have hv := c63_ends_are_scans_partial p s h hs
  exact ⟨fun hn => c41_markers_defined (s.graph p) [] hv hn, fun ceres => optimize_in_range ceres _ _ _ hv⟩

/-- Example for the hypotheses: two scans were added. -/
example : ∃ s, Reach (demoParams 10 3) ValidMap QuietLoads s ∧ (∀ scan odom, s.spin ≠ .append scan odom) ∧
    s.constraints.length = 1 ∧ s.scans.length = 2 := by
  obtain ⟨s, hs, h1, h2, h3⟩ := demoTwo_ok Pose2d.zero (.fin (-1)) Pose2d.zero fun _ _ => .fin 0
  refine ⟨s, ?_, by intro a b; rw [h3]; simp, h2, h1⟩
  refine ⟨true, none, _, _, rfl, by simp, Exec.mono (A := fun _ e => ∀ action bag, e ≠ .configure action bag) ?_
    ((exec_iff_run _ (fun e => ∀ action bag, e ≠ .configure action bag) _ _ _).mpr ⟨hs, ?_⟩)⟩
  · intro s e he
    exact ⟨fun ⟨a, b, h, _⟩ => absurd h (he a b), fun a b h => absurd h (he a b)⟩
  · intro e he a b h
    subst h
    simp [demoLaser] at he

theorem blank_getMsg (o : Pose2d) : ∃ g m,
    (demoOne (demoParams 10 3) (demoStart (demoParams 10 3) true) o).grid.getMsg [blank 0 Pose2d.zero] = .ok (g, m) := by
  have e : (OccGrid.new 1 0.25).refreshed [blank 0 Pose2d.zero] = ⟨1, 0.25, 0, 0, 0, 0, 1⟩ := by
    unfold OccGrid.refreshed
    rw [if_pos (by simp [OccGrid.new]), OccGrid.updateBounds_eq]
    simp [OccGrid.new, measured, OccGrid.roundOut, blank, Scan.setPoints]
  have hm : ∃ m, (OccGrid.mk 1 0.25 0 0 0 0 1).render [blank 0 Pose2d.zero] = .ok m := by
    refine ⟨_, covered_render (g := ⟨1, 0.25, 0, 0, 0, 0, 1⟩) (by norm_num) (by simp) (by simp) ?_ ?_ ?_⟩
    · unfold Moderate; norm_num
    · unfold CoversPoints measured Inside blank; simp [Scan.setPoints]
    · unfold CoversPoses Inside blank; simp [Scan.setPoints, Scan.setPose, Pose2d.zero]
  obtain ⟨m, hm⟩ := hm
  refine ⟨⟨1, 0.25, 0, 0, 0, 0, 1⟩, m, ?_⟩
  show (OccGrid.new 1 0.25).getMsg _ = _
  rw [getMsg_eq, e, hm]
  rfl

/-- **C63** (refuted) The constraint of a new scan is added under one lock, the scan under a second one. Here the publishing
thread takes the lock in between, and reads a scan that does not exist yet: the second scan of a run crashes the node. -/
theorem c63_constraint_before_its_scan : ∃ (p : Params) (es : List Event) (t : Sys),
    run p (demoStart p true) es = .ok t ∧ (∃ c ∈ t.constraints, c.end_ = t.scans.length) ∧
    step p t .pubGraph = .error .outOfBounds := by
  obtain ⟨g, m, hg⟩ := blank_getMsg Pose2d.zero
  let p := demoParams 10 3
  let s1 := demoOne p (demoStart p true) Pose2d.zero
  let s2 : Sys := { s1 with update := false, grid := g, lastGrid := some m, pub := .graph }
  have hpub : run p s1 [.pubCheck, .pubClear, .pubGrid] = .ok s2 := by
    have hs : ({ s1 with update := false, pub := .grid } : Sys).scans = [blank 0 Pose2d.zero] := by
      simp [s1, demoOne, Sys.scans]
    have h3 : step p { s1 with update := false, pub := .grid } .pubGrid = .ok s2 := by
      show Mapper.pubGrid _ = _
      unfold Mapper.pubGrid
      rw [hs]
      show (s1.grid.getMsg _ >>= _) = _
      rw [hg]
      rfl
    rw [run_cons]
    show run p { s1 with pub := .clear } _ = _
    rw [run_cons]
    show run p { s1 with update := false, pub := .grid } _ = _
    rw [run_cons, h3]
    rfl
  have hhalf := run_demoHalf p s2 ⟨1, 0, 0⟩ (.fin (-1)) Pose2d.zero (fun _ _ => .fin 0) rfl (by simp [p, demoParams]) rfl rfl rfl rfl
    (by simp [s2, s1, demoOne]) (by simp [s2, s1, demoOne, Sys.scans]) (by
      unfold tooLittle
      simp [s2, s1, demoOne, p, demoParams, Pose2d.zero]
      norm_num)
  have hsc : (demoHalf p s2 ⟨1, 0, 0⟩ (.fin (-1)) Pose2d.zero fun _ _ => .fin 0).scans = [blank 0 Pose2d.zero] := by
    simp [demoHalf, s2, s1, demoOne, Sys.scans]
  refine ⟨p, [demoLaser Pose2d.zero, .pushScan, .finishScan] ++ ([.pubCheck, .pubClear, .pubGrid] ++
    [demoLaser ⟨1, 0, 0⟩, .addWindow, .localMatched (.fin (-1)) Pose2d.zero fun _ _ => .fin 0, .pushConstraint]),
    demoHalf p s2 ⟨1, 0, 0⟩ (.fin (-1)) Pose2d.zero fun _ _ => .fin 0, ?_, ?_, ?_⟩
  · rw [run_append, run_demoOne p _ rfl, Res.ok_bind, run_append]
    show (run p s1 _ >>= _) = _
    rw [hpub, Res.ok_bind]
    exact hhalf
  · rw [hsc]
    refine ⟨_, List.mem_append_right _ (List.mem_singleton_self _), ?_⟩
    show (s2.scans.length : ℕ) = 1
    simp [s2, s1, demoOne, Sys.scans]
  · show Mapper.pubGraph p _ = _
    unfold Mapper.pubGraph
    have hgm : ((demoHalf p s2 ⟨1, 0, 0⟩ (.fin (-1)) Pose2d.zero fun _ _ => .fin 0).graph p).getMsg [] = .error .outOfBounds := by
      unfold Graph.getMsg Sys.graph
      rw [hsc]
      simp [demoHalf, s2, s1, demoOne, demoStart, startWith, Graph.new, Graph.edgeMarkers, makeConstraint, blank, Sys.scans,
        Scan.setPose, Scan.setPoints, Scan.new, Scan.getId]
    rw [hgm]
    rfl

/-- **C63** (refuted) A map that is loaded while the loop closure thread is matching gets the constraint of the old map: here
an empty map ends up with a constraint between scans 0 and 1, with all callbacks finished. -/
theorem c63_constraint_of_another_map : ∃ (p : Params) (s : Sys) (es : List Event) (t : Sys),
    Mapper.start p true (some demoBag) = .ok s ∧ run p s es = .ok t ∧ t.spin = .idle ∧ t.scans = [] ∧
    ∃ c ∈ t.constraints, c.begin_ = 0 ∧ c.end_ = 1 := by
  let p := demoParams 0 3
  let s1 := demoSetUp p (demoLoaded p true)
  have hs : s1.scans = [mapDot 0 Pose2d.zero, mapDot 1 Pose2d.zero] := by
    simp [s1, p, demoSetUp, demoLoaded, startWith, Sys.scans, demoMap]
  let s2 := demoCorrected s1 3 ⟨1, 0, 0⟩ fun _ _ => .fin 0
  let s3 : Sys := { s2 with
    epoch := 1, heap := fun e => if e = 1 then [] else s2.heap e, constraints := [], update := true, initialized := false }
  have h3 : step p s2 (.configure 4#32 []) = .ok s3 := rfl
  have h4 : step p s3 .loopPush = .ok { s3 with
      constraints := [demoClosure ⟨1, 0, 0⟩ fun _ _ => .fin 0], update := true,
      loop := .candidates ⟨⟨2, true⟩, 1, ⟨0, 1⟩, [], 2⟩ } := by
    show Except.ok (afterAttempt _ _) = _
    unfold afterAttempt
    rw [if_neg (by norm_num)]
    norm_num
    exact ⟨rfl, rfl⟩
  refine ⟨p, demoLoaded p true, demoClosing (.fin (-1)) ⟨1, 0, 0⟩ (fun _ _ => .fin 0) ++ [.configure 4#32 [], .loopPush],
    { s3 with
      constraints := [demoClosure ⟨1, 0, 0⟩ fun _ _ => .fin 0], update := true,
      loop := .candidates ⟨⟨2, true⟩, 1, ⟨0, 1⟩, [], 2⟩ }, demoLoaded_start _ _, ?_, rfl, rfl, _, List.mem_singleton_self _,
    rfl, rfl⟩
  rw [run_append, run_demoClosing p rfl (by norm_num [p, demoParams]) rfl (-1) (by norm_num) _ _, Res.ok_bind, run_cons]
  show (step p s2 _ >>= _) = _
  rw [h3, Res.ok_bind, run_cons, h4]
  rfl

end

end Ndt
