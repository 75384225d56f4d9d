import Verif.Props.LoopProps
import Verif.Proof.Odometry
import Verif.Spec.Agree
import Verif.Spec.Closure

/-! # C119 A loop closure is distributed over the map -/

namespace Ndt

noncomputable section

open Spec Mapper

/-- The loop closure thread is in a round of `n` scans and has found something. -/
def LoopFound (n : ℕ) : Loop → Prop
  | .picking r | .deciding r => r = ⟨n, true⟩
  | .candidates q | .matching q _ | .pushing q _ => q.round = ⟨n, true⟩
  | .asleep | .counting | .optimising => False

attribute [local irreducible] afterAttempt in
theorem found_step {p : Params} {n : ℕ} {s s' : Sys} {e : Event} (hq : LoopFound n s.loop) (ha : ¬ Decides s e)
    (ht : Trans p s e s') : LoopFound n s'.loop := by
  cases ht with
  | laserIgnored msg mount odom odomEnd hi =>
    obtain ⟨r, l, g, m, e, -⟩ := setup_cases p msg mount s
    rw [e]; exact hq
  | laserScan msg mount odom odomEnd points hi hgo hinit ht =>
    obtain ⟨r, l, g, m, e, -⟩ := setup_cases p msg mount s
    rw [e]; exact hq
  | configureFlags action bag hi hl =>
    obtain ⟨en, ini, e, -⟩ := configureMapping_frame action s
    rw [e]; exact hq
  | load action bag g hi hl hg =>
    obtain ⟨en, ini, e, -⟩ := configureMapping_frame action s
    rw [e]; exact hq
  | loopWake hi he => rw [hi] at hq; exact hq.elim
  | loopShort hi hn => rw [hi] at hq; exact hq.elim
  | loopCount hi hn => rw [hi] at hq; exact hq.elim
  | loopPick visit r scan near hi hn hs hv hf => rw [hi] at hq; exact hq
  | loopLeave visit r hi hn => rw [hi] at hq; exact hq
  | loopNext q hi hr => rw [hi] at hq; exact hq
  | loopSkip q i rest cand hi hr hc hp => rw [hi] at hq; exact hq
  | loopCandidate q i rest cand hi hr hc hg => rw [hi] at hq; exact hq
  | loopAccept score correction cov q cand scan candidate hi hf hs h1 h2 =>
    rw [hi] at hq
    show ({ q.round with newMatches := true } : Round) = _
    rw [show q.round = ⟨n, true⟩ from hq]
  | loopReject score correction cov q cand hi hs =>
    rw [hi] at hq
    rcases afterAttempt_cases q s with ⟨-, e⟩ | ⟨-, e⟩ <;> (rw [e]; exact hq)
  | loopPush q c hi =>
    rw [hi] at hq
    rcases afterAttempt_cases q { s with constraints := s.constraints ++ [c], update := true } with ⟨-, e⟩ | ⟨-, e⟩ <;>
      (rw [e]; exact hq)
  | loopDecide r hi => exact absurd ⟨rfl, r, hi⟩ ha
  | loopOptimise ceres b solver scans hi ho => rw [hi] at hq; exact hq.elim
  | pubTf hi =>
    obtain ⟨x, e⟩ := pubTf_frame s
    rw [e]; exact hq
  | _ => exact hq

attribute [local irreducible] afterAttempt in
/-- **C119** (partial: only at the end of the round in which the loop was closed) When a loop was closed and, at the end of the
round, more than `optimization_node_limit` scans were added since the last run, the optimiser runs. -/
theorem c119_same_round_partial (p : Params) {s s' t : Sys} {es : List Event} {score : Fl} {correction : Pose2d} {cov : Mat3}
    (hc : Closes s (.loopMatched score correction cov)) (hst : step p s (.loopMatched score correction cov) = .ok s')
    (hes : Exec p (fun u e => ¬ Decides u e) s' es t) {r : Round} (hl : t.loop = .deciding r)
    (hn : t.optLast + p.nodeLimit < r.n) (hb : r.n < 2 ^ 64) :
    step p t .loopDecide = .ok { t with loop := .optimising } := by
  obtain ⟨score, correction, cov, q, cand, he, hm, hf, hs⟩ := hc
  cases he
  have h1 : LoopFound q.round.n s'.loop := by
    cases step_trans hst with
    | stutter =>
      exfalso
      unfold step at hst
      rw [hm] at hst
      dsimp only at hst
      unfold loopMatched at hst
      dsimp only at hst
      rw [if_pos ⟨hf, hs⟩] at hst
      split at hst
      · injection hst with hst
        have := congrArg Sys.loop hst
        rw [hm] at this
        cases this
      · cases hst
    | loopAccept score correction cov q' cand scan candidate hi hf hs h1 h2 =>
      rw [hm] at hi
      cases hi
      rfl
    | loopReject score correction cov q cand hi hs' => exfalso; exact hs' ⟨hf, hs⟩
  have h2 : LoopFound q.round.n t.loop :=
    Exec.inv (I := fun u => LoopFound q.round.n u.loop) (fun a e b hI ha ht => found_step hI ha ht) hes h1
  rw [hl] at h2
  have h3 : r = ⟨q.round.n, true⟩ := h2
  have hso : shouldOptimise p r t := by
    refine ⟨by rw [h3], ?_⟩
    omega
  unfold step
  rw [hl]
  dsimp only
  rw [if_pos hso]

attribute [local irreducible] afterAttempt in
/-- What was found in one round is forgotten in the next: whatever happens after a round is over, and however many scans are
added, the optimiser does not run until another loop is closed. -/
theorem c119_forgotten (p : Params) {s t : Sys} {es : List Event} (hl : s.loop = .asleep)
    (hes : Exec p (fun u e => ¬ Closes u e) s es t) (e : Event) : ¬ OptimiserRuns t e := by
  have h : LoopQuiet t.loop := by
    refine Exec.inv (I := fun u => LoopQuiet u.loop) (fun a e b hI ha ht => ?_) hes (by rw [hl]; trivial)
    by_cases hm : ∃ q cand, a.loop = .matching q cand
    · obtain ⟨q, cand, hm⟩ := hm
      refine quiet_step hI ?_ ht
      rintro score correction cov rfl ⟨hf, hs⟩
      exact ha ⟨score, correction, cov, q, cand, rfl, hm, hf, hs⟩
    · by_cases hk : ∃ score correction cov, e = .loopMatched score correction cov
      · obtain ⟨score, correction, cov, rfl⟩ := hk
        cases ht with
        | stutter => exact hI
        | loopAccept score correction cov q cand scan candidate hi hf hs h1 h2 => exfalso; exact hm ⟨q, cand, hi⟩
        | loopReject score correction cov q cand hi hs => exfalso; exact hm ⟨q, cand, hi⟩
      · exact quiet_step hI (fun score correction cov he => absurd ⟨score, correction, cov, he⟩ hk) ht
  rintro ⟨-, hr⟩
  rw [hr] at h
  exact h

/-- Parameters with a limit of two scans. -/
def demoLate : Params := ⟨1, 0.25, 0.1, 1, 0, false, 0.2, 3, 2, false, .fin (-1)⟩

/-- The small map after its loop closure, not optimised as it has two scans only. -/
def demoWaiting (cov : Mat3) : Sys :=
  { demoDeciding (demoSetUp demoLate (demoLoaded demoLate true)) ⟨1, 0, 0⟩ cov with loop := .asleep }

/-- A pose three metres to the left of scan 0. -/
def leftOfDemo : PoseMsg := ⟨true, ⟨-3, 0, 0⟩, 0, 0, 0⟩

theorem demoWaiting_scans (cov : Mat3) : (demoWaiting cov).scans =
    [mapDot 0 Pose2d.zero, (mapDot 1 Pose2d.zero).setPose ⟨1, 0, 0⟩] := by
  unfold Sys.scans demoWaiting demoDeciding
  simp [setPoseAt, demoSetUp, demoLoaded, startWith, demoMap]

theorem run_demoWaiting (cov : Mat3) : run demoLate (demoLoaded demoLate true)
    (demoClosing (.fin (-1)) ⟨1, 0, 0⟩ cov ++ ([.loopPush, .loopCandidate, .loopPick []] ++ [.loopDecide])) =
      .ok (demoWaiting cov) := by
  have h := run_demoClosing demoLate rfl (by norm_num [demoLate]) rfl (-1) (by norm_num) ⟨1, 0, 0⟩ cov
  have h3 : step demoLate (demoDeciding (demoSetUp demoLate (demoLoaded demoLate true)) ⟨1, 0, 0⟩ cov) .loopDecide =
      .ok (demoWaiting cov) := by
    have hs : ¬ shouldOptimise demoLate ⟨2, true⟩
        (demoDeciding (demoSetUp demoLate (demoLoaded demoLate true)) ⟨1, 0, 0⟩ cov) := by
      rintro ⟨-, h⟩
      simp [demoDeciding, demoSetUp, demoLoaded, startWith, demoLate] at h
    show Except.ok { demoDeciding (demoSetUp demoLate (demoLoaded demoLate true)) ⟨1, 0, 0⟩ cov with
      loop := if shouldOptimise demoLate ⟨2, true⟩ (demoDeciding (demoSetUp demoLate (demoLoaded demoLate true)) ⟨1, 0, 0⟩ cov)
        then Loop.optimising else Loop.asleep } = _
    rw [if_neg hs]
    rfl
  rw [run_append, h, Res.ok_bind, run_append]
  show (run _ (demoCorrected _ 3 _ _) _ >>= _) = _
  rw [run_demoDeciding, Res.ok_bind, run_cons, h3, Res.ok_bind]
  rfl

/-- The code violates C119: a loop was closed, and the map now disagrees with its constraints; the round ended with too few
scans for the optimiser. One more scan and there are enough: the optimiser has never run, the next round is to begin, and
yet the optimiser never runs as long as no other loop is closed. -/
theorem c119_never_optimised : ∃ (p : Params) (t : Sys), Reach p (fun _ => True) (fun _ e => ¬ Loads e) t ∧
    t.loop = .asleep ∧ t.enable = true ∧ (∃ c ∈ t.constraints, c.switchable = true) ∧ ¬ Agrees t.constraints t.scans ∧
    t.optLast = 0 ∧ p.nodeLimit < t.scans.length ∧
    ∀ es u, Exec p (fun u e => ¬ Closes u e) t es u → ∀ e, ¬ OptimiserRuns u e := by
  let p := demoLate
  let cov : Mat3 := fun _ _ => .fin 0
  let s := demoWaiting cov
  let new : Scan := (Scan.new 2).setPose ⟨-3, 0, 0⟩
  let c := makeConstraint (mapDot 0 Pose2d.zero) new (poseCovariance leftOfDemo)
  let t : Sys := { s with heap := fun e => if e = s.epoch then s.scans ++ [new] else s.heap e,
                          constraints := s.constraints ++ [c], prevRobot := ⟨-3, 0, 0⟩, prevOdom := Pose2d.zero,
                          initialized := true }
  have hs : s.scans = [mapDot 0 Pose2d.zero, (mapDot 1 Pose2d.zero).setPose ⟨1, 0, 0⟩] := demoWaiting_scans cov
  have hts : t.scans = [mapDot 0 Pose2d.zero, (mapDot 1 Pose2d.zero).setPose ⟨1, 0, 0⟩, new] := by
    show (if s.epoch = s.epoch then s.scans ++ [new] else s.heap s.epoch) = _
    rw [if_pos rfl, hs]; rfl
  have e2 : step p s (.pose leftOfDemo (some Pose2d.zero) [0, 1]) = .ok
      { s with heap := fun e => if e = s.epoch then s.scans ++ [new] else s.heap e,
               constraints := s.constraints ++ [c], spin := .poseRobot ⟨-3, 0, 0⟩ Pose2d.zero } := by
    unfold step
    rw [show s.spin = .idle from rfl]
    dsimp only
    rw [if_pos (by rw [hs]; exact List.Perm.refl _)]
    unfold poseCallback
    rw [if_neg (by simp [s, demoWaiting, demoDeciding, demoSetUp, demoLoaded, startWith]), if_neg (by simp [leftOfDemo])]
    dsimp only
    rw [if_neg (by simp [p, demoLate]), if_pos (show s.enable = true from rfl)]
    have hf : (s.graph p).findNearest [0, 1] ((Scan.new s.scans.length).setPose leftOfDemo.pose) 10 (-1) = .ok [0] := by
      unfold Graph.findNearest Sys.graph
      rw [hs]
      norm_num [p, demoLate, Graph.refPose, Graph.sqDist, Scan.setPose, Scan.getPose, mapDot, Scan.setPoints, leftOfDemo,
        Pose2d.zero, List.filter]
    rw [hf, Res.ok_bind]
    dsimp only
    rw [hs]
    rfl
  have e3 : run p s [.pose leftOfDemo (some Pose2d.zero) [0, 1], .setRobot, .setOdom] = .ok t := by
    rw [run_cons, e2, Res.ok_bind]
    rfl
  refine ⟨p, t, ⟨true, some demoBag, _, (demoClosing (.fin (-1)) ⟨1, 0, 0⟩ cov ++
      ([.loopPush, .loopCandidate, .loopPick []] ++ [.loopDecide])) ++
    [.pose leftOfDemo (some Pose2d.zero) [0, 1], .setRobot, .setOdom], demoLoaded_start _ _, by simp, ?_⟩, rfl, rfl,
    ⟨demoClosure ⟨1, 0, 0⟩ cov, ?_, rfl⟩, ?_, rfl, ?_, fun es u hes e => c119_forgotten p rfl hes e⟩
  · refine Exec.mono (A := fun _ e => ¬ Loads e) (fun s e he => ⟨he, fun _ _ _ _ _ => trivial⟩)
      ((exec_iff_run _ (fun e => ¬ Loads e) _ _ _).mpr ⟨?_, ?_⟩)
    · rw [run_append, run_demoWaiting, Res.ok_bind, e3]
    · rintro e he ⟨action, bag, rfl, -⟩
      simp [demoClosing, demoLaser] at he
  · show _ ∈ (_ ++ [demoClosure _ _]) ++ [c]
    simp
  · intro h
    obtain ⟨a, b, ha, hb, hx, -⟩ := h demoLink (by
      show _ ∈ (_ ++ [demoClosure _ _]) ++ [c]
      simp [demoSetUp, demoLoaded, startWith, demoMap])
    rw [hts] at ha hb
    simp only [demoLink, List.getElem?_cons_zero, List.getElem?_cons_succ, Option.some.injEq] at ha hb
    rw [← ha, ← hb] at hx
    simp [demoLink, mapDot, Scan.setPose, Scan.setPoints, compose, Pose2d.zero] at hx
  · rw [hts]
    simp [p, demoLate]

/-- Example for `c119_same_round_partial`: the small map with a limit of one scan is optimised. -/
example : ∃ s s' t score correction cov es, Closes s (.loopMatched score correction cov) ∧
    step demoOpt s (.loopMatched score correction cov) = .ok s' ∧ Exec demoOpt (fun u e => ¬ Decides u e) s' es t ∧
    t.loop = .deciding ⟨2, true⟩ ∧ t.optLast + demoOpt.nodeLimit < 2 := by
  have hs : (demoSetUp demoOpt (demoLoaded demoOpt true)).scans = [mapDot 0 Pose2d.zero, mapDot 1 Pose2d.zero] := by
    simp [demoSetUp, demoLoaded, startWith, Sys.scans, demoMap]
  have ht : Fl.fin (-1) < (demoSetUp demoOpt (demoLoaded demoOpt true)).typical := by
    show Fl.fin (-1) < Fl.fin (-0.5)
    exact (by norm_num : (-1 : ℝ) < -0.5)
  refine ⟨demoMatching (demoSetUp demoOpt (demoLoaded demoOpt true)) 3, _,
    demoDeciding (demoSetUp demoOpt (demoLoaded demoOpt true)) ⟨1, 0, 0⟩ fun _ _ => .fin 0, .fin (-1), ⟨1, 0, 0⟩,
    fun _ _ => .fin 0, [.loopPush, .loopCandidate, .loopPick []], ⟨_, _, _, _, _, rfl, rfl, by simp [Fl.isFinite], ht⟩,
    step_demoCorrected _ _ _ _ _ _ hs (by simp [Fl.isFinite]) ht, ?_, rfl, ?_⟩
  · refine Exec.mono (A := fun _ e => e ≠ .loopDecide) (B := fun u e => ¬ Decides u e) (fun u e he h => he (And.left h))
      ((exec_iff_run _ (fun e => e ≠ .loopDecide) _ _ _).mpr ⟨run_demoDeciding _ _ _ _, ?_⟩)
    intro e he
    rcases List.mem_cons.mp he with rfl | he
    · intro h; cases h
    rcases List.mem_cons.mp he with rfl | he
    · intro h; cases h
    rcases List.mem_cons.mp he with rfl | he
    · intro h; cases h
    · cases he
  · simp [demoDeciding, demoSetUp, demoLoaded, startWith, demoOpt]

end

end Ndt
