import Verif.Proof.Exec
import Verif.Proof.DemoLoop
import Verif.Spec.Roles
import Verif.Props.LoopProps

/-! # C120 The threads keep to their roles -/

namespace Ndt

noncomputable section

open Spec Mapper

attribute [local irreducible] afterAttempt in
/-- **C120** The publishing thread leaves the graph, the poses, the matchers and the solver alone. -/
theorem c120_publisher {p : Params} {s s' : Sys} {e : Event} (he : IsPubWork e) (h : step p s e = .ok s') :
    s'.heap = s.heap ∧ s'.constraints = s.constraints ∧ s'.globalM = s.globalM ∧ SameRobot s s' ∧ SameSearch s s' := by
  cases step_trans h with
  | stutter => exact ⟨rfl, rfl, rfl, ⟨rfl, rfl, rfl, rfl, rfl, rfl, rfl, rfl, rfl, rfl⟩, ⟨rfl, rfl, rfl, rfl⟩⟩
  | pubTf hi =>
    obtain ⟨x, e⟩ := pubTf_frame s
    rw [e]
    exact ⟨rfl, rfl, rfl, ⟨rfl, rfl, rfl, rfl, rfl, rfl, rfl, rfl, rfl, rfl⟩, ⟨rfl, rfl, rfl, rfl⟩⟩
  | _ => first
    | exact he.elim
    | exact ⟨rfl, rfl, rfl, ⟨rfl, rfl, rfl, rfl, rfl, rfl, rfl, rfl, rfl, rfl⟩, ⟨rfl, rfl, rfl, rfl⟩⟩

attribute [local irreducible] afterAttempt in
/-- **C120** The loop closure thread adds and removes no scan and does not alter one but for its pose; it removes no
constraint, and leaves alone where the robot is and what was published. -/
theorem c120_loop_closure {p : Params} {s s' : Sys} {e : Event} (he : IsLoopWork e) (h : step p s e = .ok s') :
    SameContents s s' ∧ s.constraints <+: s'.constraints ∧ SameRobot s s' ∧ SamePublished s s' := by
  have hr : SameRobot s s := ⟨rfl, rfl, rfl, rfl, rfl, rfl, rfl, rfl, rfl, rfl⟩
  have hp : SamePublished s s := ⟨rfl, rfl, rfl, rfl, rfl⟩
  cases step_trans h with
  | loopAccept score correction cov q cand scan candidate hi hf hs h1 h2 =>
    exact ⟨setPoseAt_same s.heap _ _, List.prefix_refl _, hr, hp⟩
  | loopReject score correction cov q cand hi hs =>
    obtain ⟨n, l, e⟩ := afterAttempt_frame q s
    rw [e]
    exact ⟨fun _ => rfl, List.prefix_refl _, hr, hp⟩
  | loopPush q c hi =>
    obtain ⟨n, l, e⟩ := afterAttempt_frame q { s with constraints := s.constraints ++ [c], update := true }
    rw [e]
    exact ⟨fun _ => rfl, List.prefix_append _ _, hr, hp⟩
  | loopOptimise ceres b solver scans hi ho =>
    refine ⟨fun e => ?_, List.prefix_refl _, hr, hp⟩
    dsimp only
    split
    · rename_i he
      rw [he]
      exact optimize_same ho
    · rfl
  | _ => first
    | exact he.elim
    | exact ⟨fun _ => rfl, List.prefix_refl _, hr, hp⟩

attribute [local irreducible] afterAttempt in
/-- **C120** The executor thread moves no scan that is in a graph and removes none, removes no constraint unless it loads a
map, and leaves alone the search for loops, the optimiser, and what was published. -/
theorem c120_executor {p : Params} {s s' : Sys} {e : Event} (hlw : ¬ IsLoopWork e) (hpw : ¬ IsPubWork e)
    (h : step p s e = .ok s') :
    (∀ n ≤ s.epoch, s.heap n <+: s'.heap n) ∧ (¬ Loads e → s.constraints <+: s'.constraints) ∧ SameSearch s s' ∧
    SamePublished s s' := by
  have hr : SameSearch s s := ⟨rfl, rfl, rfl, rfl⟩
  have hq : SamePublished s s := ⟨rfl, rfl, rfl, rfl, rfl⟩
  have app : ∀ (x : Scan) n, s.heap n <+: (if n = s.epoch then s.scans ++ [x] else s.heap n) := by
    intro x n
    split
    · rename_i h; rw [h]; exact List.prefix_append _ _
    · exact List.prefix_refl _
  cases step_trans h with
  | laserIgnored msg mount odom odomEnd hi =>
    obtain ⟨r, l, g, m, e, -⟩ := setup_cases p msg mount s
    rw [e]; exact ⟨fun _ _ => List.prefix_refl _, fun _ => List.prefix_refl _, hr, hq⟩
  | laserScan msg mount odom odomEnd points hi hgo hinit ht =>
    obtain ⟨r, l, g, m, e, -⟩ := setup_cases p msg mount s
    rw [e]; exact ⟨fun _ _ => List.prefix_refl _, fun _ => List.prefix_refl _, hr, hq⟩
  | configureFlags action bag hi hl =>
    obtain ⟨en, ini, e, -⟩ := configureMapping_frame action s
    rw [e]; exact ⟨fun _ _ => List.prefix_refl _, fun _ => List.prefix_refl _, hr, hq⟩
  | load action bag g hi hl hg =>
    obtain ⟨en, ini, e, -⟩ := configureMapping_frame action s
    rw [e]
    refine ⟨fun n hn => ?_, fun h => (h ⟨_, _, rfl, hl⟩).elim, hr, hq⟩
    show _ <+: (if n = s.epoch + 1 then _ else s.heap n)
    rw [if_neg (by omega)]
  | pushScan scan odom hi => exact ⟨fun n _ => app _ n, fun _ => List.prefix_refl _, hr, hq⟩
  | poseScan m odom visit near i rest hi he hn hf hnear hv hfind =>
    exact ⟨fun n _ => app _ n, fun _ => List.prefix_append _ _, hr, hq⟩
  | pushConstraint c scan odom hi => exact ⟨fun _ _ => List.prefix_refl _, fun _ => List.prefix_append _ _, hr, hq⟩
  | _ => first
    | exact absurd trivial hlw
    | exact absurd trivial hpw
    | exact ⟨fun _ _ => List.prefix_refl _, fun _ => List.prefix_refl _, hr, hq⟩

/-- Example: a step of each thread, on the small map: the publishing thread begins to publish it, the loop closure thread moves
its second scan, and the executor thread sets up the laser. -/
example (p : Params) : (∃ s s', IsPubWork .pubCheck ∧ step p s .pubCheck = .ok s' ∧ s'.pub ≠ s.pub) ∧
    (∃ s s' e, IsLoopWork e ∧ step p s e = .ok s' ∧ s'.heap ≠ s.heap) ∧
    ∃ s s' e, ¬ IsLoopWork e ∧ ¬ IsPubWork e ∧ step p s e = .ok s' ∧ s'.laser ≠ s.laser := by
  have hs : (demoSetUp p (demoLoaded p true)).scans = [mapDot 0 Pose2d.zero, mapDot 1 Pose2d.zero] := by
    simp [demoSetUp, demoLoaded, startWith, Sys.scans, demoMap]
  refine ⟨⟨demoLoaded p true, _, trivial, rfl, by simp [demoLoaded, startWith]⟩,
    ⟨demoMatching (demoSetUp p (demoLoaded p true)) 3, _, .loopMatched (.fin (-1)) ⟨1, 0, 0⟩ fun _ _ => .fin 0, trivial,
      step_demoCorrected p _ _ _ _ _ hs (by simp [Fl.isFinite])
        (show (-1 : ℝ) < -0.5 by norm_num), ?_⟩,
    ⟨demoLoaded p true, _, demoLaser Pose2d.zero, id, id, step_demoSetUp p _ _ rfl rfl rfl, ?_⟩⟩
  · intro h
    have h1 := congrArg (fun f => (f 0).map fun x : Scan => x.pose.x) h
    simp [demoCorrected, demoMatching, setPoseAt, demoSetUp, demoLoaded, startWith, demoMap, mapDot, Scan.setPose,
      Scan.setPoints, Pose2d.zero] at h1
  · simp [demoSetUp, demoLoaded, startWith]

end

end Ndt
