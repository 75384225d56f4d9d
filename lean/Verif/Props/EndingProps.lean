import Verif.Proof.Ending
import Verif.Proof.DemoLoop

/-! # Rounds of the loop closure thread and callbacks end (C87) -/

namespace Ndt

noncomputable section

open Spec Mapper

/-! ## C87 Every round of loop closure and every callback ends -/

/-- **C87** A round of the loop closure thread ends: whatever the other threads do in between (adding scans, loading maps,
disabling mapping), after at most (n - k)(3n + 2) + 3 steps of its own, for n the number of scans it began with and k the
first scan it took, the thread has gone to sleep, and then all n scans have been taken. -/
theorem c87_rounds_end (p : Params) (A : Sys → Event → Prop) (s s' t : Sys) (r : Round) (es : List Event) (k : ℕ)
    (hc : s.loop = .counting) (hst : step p s .loopCount = .ok s') (hr : s'.loop = .picking r) (hn : r.n < 2 ^ 31)
    (h : Counted p A (LoopStep p) s' es t k) (hk : (r.n - s'.processed) * (3 * r.n + 2) + 3 ≤ k) :
    Sometime p A s' es fun u => u.loop = .asleep ∧ r.n ≤ u.processed := by
  have hI : InRound p r.n s' := by
    cases step_trans hst with
    | stutter => rw [hc] at hr; cases hr
    | loopShort hi hn => cases hr
    | loopCount hi hn =>
      have hr' : (⟨s.scans.length, false⟩ : Round) = r := by simpa using hr
      subst hr'
      refine ⟨rfl, ?_⟩
      dsimp only
      split <;> omega
  have hl : roundLeft r.n s' = (r.n - s'.processed) * (3 * r.n + 2) + 3 := by unfold roundLeft; rw [hr]
  have hex : ∀ {es t n}, Counted p A (LoopStep p) s' es t n → Exec p A s' es t := by
    intro es t n h
    induction h with
    | nil => exact .nil
    | hit _ ha _ hst ih => exact .snoc ih ha hst
    | miss _ ha _ hst ih => exact .snoc ih ha hst
  have grow : ∀ {es : List Event} {e : Event}, Sometime p A s' es (fun u => u.loop = .asleep ∧ r.n ≤ u.processed) →
      Sometime p A s' (es ++ [e]) (fun u => u.loop = .asleep ∧ r.n ≤ u.processed) := by
    rintro es e ⟨es1, es2, u, rfl, h1, h2⟩
    exact ⟨es1, es2 ++ [e], u, by simp, h1, h2⟩
  suffices H : Sometime p A s' es (fun u => u.loop = .asleep ∧ r.n ≤ u.processed) ∨
      (t.loop ≠ .asleep ∧ InRound p r.n t ∧ k + roundLeft r.n t ≤ roundLeft r.n s') by
    rcases H with H | ⟨h1, h2, h3⟩
    · exact H
    · exfalso
      have : 1 ≤ roundLeft r.n t := by
        unfold InRound at h2
        unfold roundLeft
        cases hloop : t.loop <;> rw [hloop] at h2 <;> simp_all <;> omega
      omega
  clear hk
  induction h with
  | nil => exact Or.inr ⟨by rw [hr]; simp, hI, by omega⟩
  | @hit es u u' e n hcount ha hstep hst ih =>
    rcases ih with ih | ⟨h1, h2, h3⟩
    · exact Or.inl (grow ih)
    · obtain ⟨g1, g2⟩ := roundLeft_step hn h2 h1 (step_trans hst)
      by_cases hs : u'.loop = .asleep
      · refine Or.inl ⟨es ++ [e], [], u', by simp, .snoc (hex hcount) ha hst, hs, ?_⟩
        unfold InRound at g1
        rw [hs] at g1
        exact g1
      · have hm := loopStep_moves hn h2 hst hstep
        rcases g2 with ⟨g2, -⟩ | g2
        · exact absurd g2 hm
        · exact Or.inr ⟨hs, g1, by omega⟩
  | @miss es u u' e n hcount ha hstep hst ih =>
    rcases ih with ih | ⟨h1, h2, h3⟩
    · exact Or.inl (grow ih)
    · obtain ⟨g1, g2⟩ := roundLeft_step hn h2 h1 (step_trans hst)
      by_cases hs : u'.loop = .asleep
      · refine Or.inl ⟨es ++ [e], [], u', by simp, .snoc (hex hcount) ha hst, hs, ?_⟩
        unfold InRound at g1
        rw [hs] at g1
        exact g1
      · rcases g2 with ⟨g2, g3⟩ | g2
        · have : roundLeft r.n u' = roundLeft r.n u := by unfold roundLeft; rw [g2, g3]
          exact Or.inr ⟨hs, g1, by omega⟩
        · exact Or.inr ⟨hs, g1, by omega⟩

/-- Example: with the small map of two scans the bound is eleven; the thread takes seven steps to find the loop closure and to
go to sleep, and three in each further round. -/
example : ∃ s s' t r es k, s.loop = .counting ∧ step (demoParams 0 3) s .loopCount = .ok s' ∧ s'.loop = .picking r ∧
    r.n < 2 ^ 31 ∧ s'.processed < r.n ∧ Counted (demoParams 0 3) Any (LoopStep (demoParams 0 3)) s' es t k ∧
    (r.n - s'.processed) * (3 * r.n + 2) + 3 ≤ k := by
  let p := demoParams 0 3
  let s := demoSetUp p (demoLoaded p true)
  have hs : s.scans = [mapDot 0 Pose2d.zero, mapDot 1 Pose2d.zero] := by
    simp [s, demoSetUp, demoLoaded, startWith, Sys.scans, demoMap]
  have hsearch := run_demoSearch p s rfl (by norm_num [p, demoParams]) rfl hs rfl rfl rfl
  let c : Pose2d := ⟨1, 0, 0⟩
  let cov : Mat3 := fun _ _ => .fin 0
  let s1 : Sys := { s with processed := 1, loop := .picking ⟨2, false⟩ }
  have e0 : step p { s with loop := .counting } .loopCount = .ok s1 := by
    show Except.ok (loopCount p _) = _
    have hlen : (({ s with loop := .counting } : Sys)).scans.length = 2 := by show s.scans.length = 2; rw [hs]; rfl
    unfold loopCount
    rw [hlen]
    rfl
  have e1 : step p s1 (.loopPick [0]) = .ok (demoSearch s 3) := by
    rw [run_cons, show step p s .loopWake = .ok { s with loop := .counting } from rfl, Res.ok_bind, run_cons, e0,
      Res.ok_bind, run_cons] at hsearch
    obtain ⟨u, h1, h2⟩ := bind_ok hsearch
    rw [h1]
    exact h2
  have e2 : step p (demoSearch s 3) .loopCandidate = .ok (demoMatching s 3) := step_demoMatching p s 3 hs (by simp [s, demoSetUp])
  have e3 : step p (demoMatching s 3) (.loopMatched (.fin (-1)) c cov) = .ok (demoCorrected s 3 c cov) :=
    step_demoCorrected p s 3 _ c cov hs (by simp [Fl.isFinite]) (by
      show Fl.fin (-1) < Fl.fin (-0.5)
      show (-1 : ℝ) < -0.5
      norm_num)
  let s5 : Sys := { s with
    processed := 1, globalM := some [mapDot 0 Pose2d.zero], heap := setPoseAt s.heap ⟨s.epoch, 1⟩ c,
    constraints := s.constraints ++ [demoClosure c cov], update := true, loop := .candidates ⟨⟨2, true⟩, 1, ⟨s.epoch, 1⟩, [], 2⟩ }
  have e4 : step p (demoCorrected s 3 c cov) .loopPush = .ok s5 := by
    show Except.ok (afterAttempt _ _) = _
    unfold afterAttempt
    rw [if_neg (by norm_num)]
    norm_num
    simp [s5, demoCorrected, demoMatching, demoClosure]
  have e5 : step p s5 .loopCandidate = .ok { s5 with processed := 2, loop := .picking ⟨2, true⟩ } := rfl
  have e6 : step p { s5 with processed := 2, loop := .picking ⟨2, true⟩ } (.loopPick []) =
      .ok { s5 with processed := 2, loop := .deciding ⟨2, true⟩ } := by
    simp [step, loopPick]
  have e7 : step p { s5 with processed := 2, loop := .deciding ⟨2, true⟩ } .loopDecide =
      .ok { s5 with processed := 2, loop := .asleep } := by
    have hno : ¬ shouldOptimise p ⟨2, true⟩ { s5 with processed := 2, loop := .deciding ⟨2, true⟩ } := by
      rintro ⟨-, h⟩
      revert h
      simp [s5, s, p, demoSetUp, demoLoaded, startWith, demoParams]
    unfold step
    dsimp only
    rw [if_neg hno]
  have e8 : step p { s5 with processed := 2, loop := .asleep } .loopWake =
      .ok { s5 with processed := 2, loop := .counting } := rfl
  have e9 : step p { s5 with processed := 2, loop := .counting } .loopCount =
      .ok { s5 with processed := 2, loop := .picking ⟨2, false⟩ } := by
    show Except.ok (loopCount p _) = _
    have hlen : (({ s5 with processed := 2, loop := .counting } : Sys)).scans.length = 2 := by
      have hs1 : s.heap s.epoch = [mapDot 0 Pose2d.zero, mapDot 1 Pose2d.zero] := hs
      simp [s5, Sys.scans, setPoseAt, hs1]
    unfold loopCount
    rw [hlen]
    rfl
  have e10 : step p { s5 with processed := 2, loop := .picking ⟨2, false⟩ } (.loopPick []) =
      .ok { s5 with processed := 2, loop := .deciding ⟨2, false⟩ } := by
    simp [step, loopPick]
  have e11 : step p { s5 with processed := 2, loop := .deciding ⟨2, false⟩ } .loopDecide =
      .ok { s5 with processed := 2, loop := .asleep } := by
    have hno : ¬ shouldOptimise p ⟨2, false⟩ { s5 with processed := 2, loop := .deciding ⟨2, false⟩ } := by
      rintro ⟨h, -⟩
      cases h
    unfold step
    dsimp only
    rw [if_neg hno]
  have first : Counted p Any (LoopStep p) s1 _ _ 7 :=
    .hit (.hit (.hit (.hit (.hit (.hit (.hit .nil trivial ⟨_, rfl, fun _ => List.Perm.refl _⟩ e1) trivial rfl e2) trivial
      ⟨_, _, _, rfl⟩ e3) trivial rfl e4) trivial rfl e5) trivial ⟨_, rfl, fun h => absurd h (lt_irrefl 2)⟩ e6) trivial rfl e7
  have again : ∀ {es k}, Counted p Any (LoopStep p) s1 es { s5 with processed := 2, loop := .asleep } k →
      Counted p Any (LoopStep p) s1 (es ++ [.loopWake] ++ [.loopCount] ++ [.loopPick []] ++ [.loopDecide])
        { s5 with processed := 2, loop := .asleep } (k + 3) := fun h =>
    .hit (.hit (.hit (.miss h trivial (fun h => h) e8) trivial rfl e9) trivial ⟨_, rfl, fun h => absurd h (lt_irrefl 2)⟩ e10)
      trivial rfl e11
  exact ⟨_, s1, _, ⟨2, false⟩, _, _, rfl, e0, rfl, by norm_num, by decide, again (again first), by decide⟩

/-- **C87** The thread is never stuck: in every state of a round it has a next step to take. -/
theorem c87_rounds_go_on (p : Params) (s : Sys) (h : s.loop ≠ .asleep) : ∃ e, LoopStep p s e := by
  unfold LoopStep
  cases hl : s.loop with
  | asleep => exact absurd hl h
  | counting => exact ⟨_, rfl⟩
  | picking r => exact ⟨_, _, rfl, fun _ => List.Perm.refl _⟩
  | candidates q => exact ⟨_, rfl⟩
  | matching q c => exact ⟨_, .nan, Pose2d.zero, fun _ _ => .nan, rfl⟩
  | pushing q c => exact ⟨_, rfl⟩
  | deciding r => exact ⟨_, rfl⟩
  | optimising => exact ⟨_, fun _ => ⟨false, fun _ => Pose2d.zero⟩, rfl⟩

/-- **C87** A callback ends: whatever the other threads do in between, the executor is idle after at most five further
steps of its own. -/
theorem c87_callbacks_end (p : Params) (A : Sys → Event → Prop) (s t : Sys) (es : List Event) (k : ℕ)
    (h : Counted p A CallbackStep s es t k) (hk : 5 ≤ k) : Sometime p A s es fun u => u.spin = .idle := by
  have hex : ∀ {es t n}, Counted p A CallbackStep s es t n → Exec p A s es t := by
    intro es t n h
    induction h with
    | nil => exact .nil
    | hit _ ha _ hst ih => exact .snoc ih ha hst
    | miss _ ha _ hst ih => exact .snoc ih ha hst
  have grow : ∀ {es : List Event} {e : Event}, Sometime p A s es (fun u => u.spin = .idle) →
      Sometime p A s (es ++ [e]) (fun u => u.spin = .idle) := by
    rintro es e ⟨es1, es2, u, rfl, h1, h2⟩
    exact ⟨es1, es2 ++ [e], u, by simp, h1, h2⟩
  suffices H : Sometime p A s es (fun u => u.spin = .idle) ∨ k + callbackLeft t.spin ≤ 5 by
    rcases H with H | H
    · exact H
    · refine ⟨es, [], t, by simp, hex h, ?_⟩
      cases hs : t.spin <;> first | rfl | (rw [hs] at H; simp only [callbackLeft] at H; omega)
  clear hk
  induction h with
  | nil => exact Or.inr (by have := callbackLeft_le s.spin; omega)
  | @hit es u u' e n hcount ha hstep hst ih =>
    rcases ih with ih | ih
    · exact Or.inl (grow ih)
    · have := callbackStep_moves hst hstep
      exact Or.inr (by omega)
  | @miss es u u' e n hcount ha hstep hst ih =>
    rcases ih with ih | ih
    · exact Or.inl (grow ih)
    · by_cases hi : u.spin = .idle
      · exact Or.inl (grow ⟨es, [], u, by simp, hex hcount, hi⟩)
      · have := callbackLeft_step hi (step_trans hst)
        exact Or.inr (by omega)

/-- Example: a scan added to the small map takes five steps. -/
example : ∃ s t es, s.spin ≠ .idle ∧ t.spin = .idle ∧ Counted (demoParams 10 3) Any CallbackStep s es t 5 := by
  let p := demoParams 10 3
  let s : Sys := { demoSetUp p (demoLoaded p true) with spin := .window (mapDot 2 ⟨1, 0, 0⟩) ⟨1, 0, 0⟩ }
  have hs : s.scans = [mapDot 0 Pose2d.zero, mapDot 1 Pose2d.zero] := by
    simp [s, demoSetUp, demoLoaded, startWith, Sys.scans, demoMap]
  let s1 : Sys := { s with localM := some s.scans, spin := .matching (mapDot 2 ⟨1, 0, 0⟩) ⟨1, 0, 0⟩ }
  have e1 : step p s .addWindow = .ok s1 := by
    show addWindow p _ _ s = _
    unfold addWindow
    rw [if_neg (by simp [s, demoSetUp]), if_pos (by rw [hs]; simp [p, demoParams])]
  have hs1 : s1.scans = [mapDot 0 Pose2d.zero, mapDot 1 Pose2d.zero] := hs
  let scan := (mapDot 2 ⟨1, 0, 0⟩).setPose (addCorrection Pose2d.zero (mapDot 2 ⟨1, 0, 0⟩).getPose)
  let c := makeConstraint (mapDot 1 Pose2d.zero) scan fun _ _ => .fin 1
  let s2 : Sys := { s1 with typical := typicalResponse s1.typical (.fin (-1)), spin := .constraint c scan ⟨1, 0, 0⟩ }
  have e2 : step p s1 (.localMatched (.fin (-1)) Pose2d.zero fun _ _ => .fin 1) = .ok s2 := by
    show localMatched _ _ _ _ _ s1 = _
    unfold localMatched
    rw [hs1]
    rfl
  let s3 : Sys := { s2 with constraints := s2.constraints ++ [c], spin := .append scan ⟨1, 0, 0⟩ }
  let s4 : Sys := { s3 with heap := fun e => if e = s3.epoch then s3.scans ++ [scan] else s3.heap e,
                            spin := .announce ⟨s3.epoch, s3.scans.length⟩ ⟨1, 0, 0⟩ }
  have e3 : step p s2 .pushConstraint = .ok s3 := rfl
  have e4 : step p s3 .pushScan = .ok s4 := rfl
  have e5 : step p s4 .finishScan =
      .ok { s4 with prevOdom := ⟨1, 0, 0⟩, prevRobot := scan.getPose, update := true, spin := .idle } := by
    have : (s4.heap s3.epoch)[s3.scans.length]? = some scan := by simp [s4]
    unfold step
    simp only [s4]
    simp only [s4] at this
    rw [this]
  exact ⟨s, _, _, by simp [s], rfl, .hit (.hit (.hit (.hit (.hit .nil trivial rfl e1) trivial ⟨_, _, _, rfl⟩ e2) trivial rfl e3)
    trivial rfl e4) trivial rfl e5⟩

end

end Ndt
