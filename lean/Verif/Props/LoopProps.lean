import Verif.Proof.Loop
import Verif.Proof.DemoLoop
import Verif.Props.GraphStateProps
import Mathlib.Tactic.IntervalCases

/-! # The loop closure thread (C59–C61) -/

namespace Ndt

noncomputable section

open Spec Mapper

/-! ## C59 Loop closures never join scans of one rolling window -/

/-- What a loaded map has to be like. -/
def FarMap (depth : ℕ) (g : Graph) : Prop := IdsAreIndices g.scans ∧ LoopsFar depth g.constraints

/-- The graph has fewer scans than an `int` can count. -/
def SmallGraph (s : Sys) (_ : Event) : Prop := s.scans.length < 2 ^ 31

theorem loopInv_reach {p : Params} {s : Sys} (h : Reach p (FarMap p.rollingDepth) SmallGraph s) :
    GraphInv s ∧ OdomInv s ∧ LoopInv p s := by
  refine Reach.inv (I := fun s => GraphInv s ∧ OdomInv s ∧ LoopInv p s) h ?_ ?_
  · intro enable file s0 hst hw
    refine ⟨graphInv_start hst fun bag hf g hg => (hw bag hf g hg).1, ?_⟩
    rcases start_cases hst with ⟨-, rfl⟩ | ⟨bag, g, hf, hg, rfl⟩
    · refine ⟨fun c scan odom h => by simp [startWith] at h, ?_, ?_, ?_, ?_, ?_⟩
      · intro c hc; simp [startWith, Graph.new] at hc
      all_goals (intros; simp [startWith] at *)
    · refine ⟨fun c scan odom h => by simp [startWith] at h, (hw bag hf g hg).2, ?_, ?_, ?_, ?_⟩
      all_goals (intros; simp [startWith] at *)
  · intro s e s' hI ha hw ht
    exact ⟨graphInv_step hI.1 (fun a b he g hg => (hw a b he g hg).1) ht, odomInv_step hI.2.1 ht,
      loopInv_step hI.1 hI.2.1 hI.2.2 ha (fun a b he g hg => (hw a b he g hg).2) ht⟩

/-- **C59** In every reachable state, under every schedule, every switchable constraint begins more than the rolling
depth before its end. -/
theorem c59_loops_span_the_window (p : Params) (s : Sys) (h : Reach p (FarMap p.rollingDepth) SmallGraph s) :
    ∀ c ∈ s.constraints, c.switchable = true → c.begin_ + p.rollingDepth < c.end_ :=
  (loopInv_reach h).2.2.far

/-- **C59** A constraint that is new after a step is the odometry constraint of a new scan, that of an initial pose
(neither is switchable), that of a loop closure about to be added (which is switchable and spans the window), or comes
from a file. -/
theorem c59_new_constraints (p : Params) (s s' : Sys) (e : Event) (h : Reach p (FarMap p.rollingDepth) SmallGraph s)
    (hst : step p s e = .ok s') (c : Constraint) (hc : c ∈ s'.constraints) (hn : c ∉ s.constraints) :
    c.switchable = false ∧ (e = .pushConstraint ∨ ∃ m odom visit, e = .pose m odom visit) ∨
    c.switchable = true ∧ c.begin_ + p.rollingDepth < c.end_ ∧ e = .loopPush ∧ (∃ q, s.loop = .pushing q c) ∨
    Loads e := by
  obtain ⟨-, hO, hL⟩ := loopInv_reach h
  cases step_trans hst with
  | pushConstraint c' scan odom hi =>
    rcases List.mem_append.mp hc with h | h
    · exact absurd h hn
    · rw [List.mem_singleton] at h
      subst h
      exact Or.inl ⟨hO _ _ _ hi, Or.inl rfl⟩
  | poseScan m odom visit near i rest hi he hn' hf hnear hv hfind =>
    rcases List.mem_append.mp hc with h | h
    · exact absurd h hn
    · rw [List.mem_singleton] at h
      subst h
      exact Or.inl ⟨rfl, Or.inr ⟨_, _, _, rfl⟩⟩
  | loopPush q c' hi =>
    obtain ⟨n, l, e⟩ := afterAttempt_frame q { s with constraints := s.constraints ++ [c'], update := true }
    rw [e] at hc
    rcases List.mem_append.mp hc with h | h
    · exact absurd h hn
    · rw [List.mem_singleton] at h
      subst h
      obtain ⟨-, h1, h2⟩ := hL.pushing q c hi
      exact Or.inr (Or.inl ⟨h1, h2, rfl, q, hi⟩)
  | load action bag g hi hl hg => exact Or.inr (Or.inr ⟨action, bag, rfl, hl⟩)
  | laserIgnored msg mount odom odomEnd hi =>
    obtain ⟨r, l, g, m, e, -⟩ := setup_cases p msg mount s
    rw [e] at hc; exact absurd hc hn
  | laserScan msg mount odom odomEnd points hi hgo hinit ht =>
    obtain ⟨r, l, g, m, e, -⟩ := setup_cases p msg mount s
    rw [e] at hc; exact absurd hc hn
  | configureFlags action bag hi hl =>
    obtain ⟨en, ini, e, -⟩ := configureMapping_frame action s
    rw [e] at hc; exact absurd hc hn
  | loopReject score correction cov q cand hi hs =>
    obtain ⟨n, l, e⟩ := afterAttempt_frame q s
    rw [e] at hc; exact absurd hc hn
  | pubTf hi =>
    obtain ⟨x, e⟩ := pubTf_frame s
    rw [e] at hc; exact absurd hc hn
  | _ => exact absurd hc hn

/-- **C59** A loop closure is about to be added only if a match had a finite score below the typical response at that
moment; the constraint joins the candidate and the scan with the pose corrected by that match. -/
theorem c59_accepted_by_score (p : Params) (s s' : Sys) (e : Event) (hst : step p s e = .ok s') (q : Search)
    (c : Constraint) (hn : ∀ q c, s.loop ≠ .pushing q c) (hp : s'.loop = .pushing q c) :
    ∃ score correction cov q0 cand scan candidate, e = .loopMatched score correction cov ∧ s.loop = .matching q0 cand ∧
      score.isFinite ∧ score < s.typical ∧ (s.heap q0.scan.epoch)[q0.scan.idx]? = some scan ∧
      (s.heap cand.epoch)[cand.idx]? = some candidate ∧
      c = { makeConstraint candidate (scan.setPose (addCorrection correction scan.getPose)) cov with switchable := true } := by
  cases step_trans hst with
  | loopAccept score correction cov q0 cand scan candidate hi hf hs h1 h2 =>
    simp only [Loop.pushing.injEq] at hp
    exact ⟨score, correction, cov, q0, cand, scan, candidate, rfl, hi, hf, hs, h1, h2, hp.2.symm⟩
  | laserIgnored msg mount odom odomEnd hi =>
    obtain ⟨r, l, g, m, e, -⟩ := setup_cases p msg mount s
    rw [e] at hp; exact absurd hp (hn q c)
  | laserScan msg mount odom odomEnd points hi hgo hinit ht =>
    obtain ⟨r, l, g, m, e, -⟩ := setup_cases p msg mount s
    rw [e] at hp; exact absurd hp (hn q c)
  | configureFlags action bag hi hl =>
    obtain ⟨en, ini, e, -⟩ := configureMapping_frame action s
    rw [e] at hp; exact absurd hp (hn q c)
  | load action bag g hi hl hg =>
    obtain ⟨en, ini, e, -⟩ := configureMapping_frame action s
    rw [e] at hp; exact absurd hp (hn q c)
  | loopReject score correction cov q0 cand hi hs =>
    rcases afterAttempt_cases q0 s with ⟨-, e⟩ | ⟨-, e⟩ <;> rw [e] at hp <;> simp [nextScan] at hp
  | loopPush q0 c0 hi => exact absurd hi (hn q0 c0)
  | pubTf hi =>
    obtain ⟨x, e⟩ := pubTf_frame s
    rw [e] at hp; exact absurd hp (hn q c)
  | loopDecide r hi =>
    simp only at hp
    split_ifs at hp
  | _ => first
    | exact absurd hp (hn q c)
    | (simp [nextScan] at hp)

/-- The steps of the small map up to the loop closure constraint: a laser message makes the matchers, then the loop
closure thread matches scan 1 against scan 0 with the given score. -/
def demoClosing (score : Fl) (correction : Pose2d) (cov : Mat3) : List Event :=
  [demoLaser Pose2d.zero] ++ ([.loopWake, .loopCount, .loopPick [0]] ++
    [.loopCandidate, .loopMatched score correction cov])

theorem run_demoClosing (p : Params) (hd : p.rollingDepth = 0) (hz : 0 < p.searchSize) (hb : p.useBarycenter = false)
    (r : ℝ) (hr : r < -0.5) (correction : Pose2d) (cov : Mat3) :
    run p (demoLoaded p true) (demoClosing (.fin r) correction cov) =
      .ok (demoCorrected (demoSetUp p (demoLoaded p true)) p.searchLimit correction cov) := by
  have hs : (demoSetUp p (demoLoaded p true)).scans = [mapDot 0 Pose2d.zero, mapDot 1 Pose2d.zero] := by
    simp [demoSetUp, demoLoaded, startWith, Sys.scans, demoMap]
  unfold demoClosing
  rw [run_append, run_cons, step_demoSetUp p _ _ rfl rfl rfl, Res.ok_bind]
  show (Except.ok _ >>= _) = _
  rw [Res.ok_bind, run_append, run_demoSearch p _ hd hz hb hs rfl rfl rfl, Res.ok_bind, run_cons,
    step_demoMatching p _ _ hs (by simp [demoSetUp]), Res.ok_bind, run_cons, step_demoCorrected p _ _ _ _ _ hs, Res.ok_bind]
  · rfl
  · simp [Fl.isFinite]
  · show Fl.fin r < Fl.fin (-0.5)
    exact hr

/-- Example: the small map satisfies the condition on loaded maps, and its loop closure joins scans 0 and 1. -/
example : FarMap 0 (demoMap false) ∧ ∃ s s', run (demoParams 0 3) (demoLoaded (demoParams 0 3) true)
      (demoClosing (.fin (-1)) ⟨1, 0, 0⟩ fun _ _ => .fin 0) = .ok s ∧ step (demoParams 0 3) s .loopPush = .ok s' ∧
      ∃ c ∈ s'.constraints, c.switchable = true ∧ c.begin_ = 0 ∧ c.end_ = 1 := by
  refine ⟨⟨?_, ?_⟩, _, _, run_demoClosing _ rfl (by norm_num [demoParams]) rfl _ (by norm_num) _ _, rfl, ?_⟩
  · intro i s h
    have : i < 2 := by have := (List.getElem?_eq_some_iff.mp h).1; simpa [demoMap] using this
    interval_cases i
    · simp [demoMap] at h; rw [← h]; rfl
    · simp [demoMap] at h; rw [← h]; rfl
  · intro c hc hs
    simp [demoMap] at hc
    subst hc; cases hs
  · refine ⟨{ makeConstraint (mapDot 0 Pose2d.zero) ((mapDot 1 Pose2d.zero).setPose ⟨1, 0, 0⟩) (fun _ _ => .fin 0) with
      switchable := true }, ?_, rfl, rfl, rfl⟩
    obtain ⟨n, l, e⟩ := afterAttempt_frame ⟨⟨2, true⟩, 1, ⟨0, 1⟩, [], 3⟩
      { demoCorrected (demoSetUp (demoParams 0 3) (demoLoaded (demoParams 0 3) true)) 3 ⟨1, 0, 0⟩ (fun _ _ => .fin 0) with
        constraints := (demoCorrected (demoSetUp (demoParams 0 3) (demoLoaded (demoParams 0 3) true)) 3 ⟨1, 0, 0⟩
          (fun _ _ => .fin 0)).constraints ++ [{ makeConstraint (mapDot 0 Pose2d.zero)
            ((mapDot 1 Pose2d.zero).setPose ⟨1, 0, 0⟩) (fun _ _ => .fin 0) with switchable := true }],
        update := true }
    have := congrArg Sys.constraints e
    show _ ∈ Sys.constraints (afterAttempt _ _)
    refine Eq.mpr (congrArg (_ ∈ ·) this) ?_
    simp

/-! ## C60 Each scan once, and few attempts -/

/-- Twice the number of scans done, plus one while working on a scan. -/
def progress (s : Sys) : ℕ :=
  2 * s.processed + match s.loop with
    | .candidates _ | .matching _ _ | .pushing _ _ => 1
    | _ => 0

theorem progress_after (q : Search) (s : Sys) : 2 * s.processed + 1 ≤ progress (afterAttempt q s) := by
  rcases afterAttempt_cases q s with ⟨-, e⟩ | ⟨-, e⟩
  · rw [e]; simp [progress, nextScan]
  · rw [e]; simp [progress]

theorem progress_le (s : Sys) : progress s ≤ 2 * s.processed + 1 := by
  unfold progress; split <;> omega

theorem progress_step {p : Params} {s s' : Sys} {e : Event} (ht : Trans p s e s') : progress s ≤ progress s' := by
  cases ht with
  | laserIgnored msg mount odom odomEnd hi =>
    obtain ⟨r, l, g, m, e, -⟩ := setup_cases p msg mount s
    rw [e]; exact le_refl _
  | laserScan msg mount odom odomEnd points hi hgo hinit ht =>
    obtain ⟨r, l, g, m, e, -⟩ := setup_cases p msg mount s
    rw [e]; exact le_refl _
  | configureFlags action bag hi hl =>
    obtain ⟨en, ini, e, -⟩ := configureMapping_frame action s
    rw [e]; exact le_refl _
  | load action bag g hi hl hg =>
    obtain ⟨en, ini, e, -⟩ := configureMapping_frame action s
    rw [e]; exact le_refl _
  | pubTf hi =>
    obtain ⟨x, e⟩ := pubTf_frame s
    rw [e]; exact le_refl _
  | loopReject score correction cov q cand hi hs => exact le_trans (progress_le s) (progress_after q s)
  | loopPush q c hi =>
    exact le_trans (progress_le s)
      (progress_after q { s with constraints := s.constraints ++ [c], update := true })
  | loopCount hi hn =>
    simp only [progress, hi]
    split <;> omega
  | loopWake hi he => simp [progress, hi]
  | loopShort hi hn => simp [progress, hi]
  | loopPick visit r scan near hi hn hs hv hf => simp [progress, hi]
  | loopLeave visit r hi hn => simp [progress, hi]
  | loopNext q hi hr => simp [progress, hi, nextScan]
  | loopSkip q i rest cand hi hr hc hp => simp [progress, hi]
  | loopCandidate q i rest cand hi hr hc hg => simp [progress, hi]
  | loopAccept score correction cov q cand scan candidate hi hf hs h1 h2 => simp [progress, hi]
  | loopDecide r hi =>
    simp only [progress, hi]
    split_ifs <;> simp
  | loopOptimise ceres b solver scans hi ho => simp [progress, hi]
  | _ => exact le_refl _

/-- Taking a scan: which one. -/
theorem takes_scan {p : Params} {s s' : Sys} {e : Event} {q : Search} (hst : step p s e = .ok s')
    (ht : TakesScan s e) (hq : s'.loop = .candidates q) : q.scan = ⟨s.epoch, s.processed⟩ ∧ q.left = p.searchLimit ∧
    progress s' = progress s + 1 := by
  obtain ⟨⟨visit, rfl⟩, r, hr⟩ := ht
  cases step_trans hst with
  | stutter => rw [hr] at hq; cases hq
  | loopPick _ r scan near hi hn hs hv hf =>
    simp only [Loop.candidates.injEq] at hq
    rw [← hq]
    exact ⟨rfl, rfl, by simp [progress, hi]⟩
  | loopLeave => cases hq

/-- **C60** Scans are taken in order, each at most once: of two scans taken by the thread in an execution (of any
length, under any schedule), the later one has the larger index. -/
theorem c60_in_order (p : Params) (s s' t t' : Sys) (e e' : Event) (es : List Event) (q q' : Search)
    (h1 : step p s e = .ok s') (hp1 : TakesScan s e) (hq1 : s'.loop = .candidates q)
    (hes : Exec p Any s' es t) (h2 : step p t e' = .ok t') (hp2 : TakesScan t e') (hq2 : t'.loop = .candidates q') :
    q.scan.idx < q'.scan.idx := by
  obtain ⟨e1, -, m1⟩ := takes_scan h1 hp1 hq1
  obtain ⟨e2, -, -⟩ := takes_scan h2 hp2 hq2
  have hm : progress s' ≤ progress t :=
    Exec.inv (I := fun t => progress s' ≤ progress t) (fun s e s' hI _ ht => le_trans hI (progress_step ht)) hes (le_refl _)
  obtain ⟨-, r1, hr1⟩ := hp1
  obtain ⟨-, r2, hr2⟩ := hp2
  have p1 : progress s = 2 * s.processed := by simp [progress, hr1]
  have p2 : progress t = 2 * t.processed := by simp [progress, hr2]
  rw [e1, e2]
  show s.processed < t.processed
  omega

/-- **C60** No scan of the first rolling window is taken. -/
theorem c60_not_the_first_window (p : Params) (s s' : Sys) (e : Event) (q : Search)
    (h : Reach p (FarMap p.rollingDepth) SmallGraph s) (hst : step p s e = .ok s') (ht : TakesScan s e)
    (hq : s'.loop = .candidates q) : p.rollingDepth + 1 ≤ q.scan.idx := by
  obtain ⟨e1, -, -⟩ := takes_scan hst ht hq
  obtain ⟨-, r, hr⟩ := ht
  rw [e1]
  exact (loopInv_reach h).2.2.picking r hr

/-- **C60** No scan is left out: the counter moves only from a scan that has been worked on to the next, or past the
first rolling window. -/
theorem c60_none_left_out (p : Params) (s s' : Sys) (e : Event) (h : Reach p (FarMap p.rollingDepth) SmallGraph s)
    (hst : step p s e = .ok s') (hc : s'.processed ≠ s.processed) :
    (s.processed ≤ p.rollingDepth ∧ s'.processed = p.rollingDepth + 1) ∨
    (s'.processed = s.processed + 1 ∧ ∃ q, q.scan.idx = s.processed ∧
      (s.loop = .candidates q ∨ (∃ cand, s.loop = .matching q cand) ∨ ∃ c, s.loop = .pushing q c)) := by
  obtain ⟨-, -, hL⟩ := loopInv_reach h
  cases step_trans hst with
  | laserIgnored msg mount odom odomEnd hi =>
    obtain ⟨r, l, g, m, e, -⟩ := setup_cases p msg mount s
    rw [e] at hc; exact absurd rfl hc
  | laserScan msg mount odom odomEnd points hi hgo hinit ht =>
    obtain ⟨r, l, g, m, e, -⟩ := setup_cases p msg mount s
    rw [e] at hc; exact absurd rfl hc
  | configureFlags action bag hi hl =>
    obtain ⟨en, ini, e, -⟩ := configureMapping_frame action s
    rw [e] at hc; exact absurd rfl hc
  | load action bag g hi hl hg =>
    obtain ⟨en, ini, e, -⟩ := configureMapping_frame action s
    rw [e] at hc; exact absurd rfl hc
  | pubTf hi =>
    obtain ⟨x, e⟩ := pubTf_frame s
    rw [e] at hc; exact absurd rfl hc
  | loopCount hi hn =>
    simp only at hc ⊢
    by_cases hle : s.processed ≤ p.rollingDepth
    · rw [if_pos hle]; exact Or.inl ⟨hle, rfl⟩
    · rw [if_neg hle] at hc; exact absurd rfl hc
  | loopNext q hi hr => exact Or.inr ⟨rfl, q, (hL.candidates q hi).scan, Or.inl hi⟩
  | loopReject score correction cov q cand hi hs =>
    rcases afterAttempt_cases q s with ⟨-, e⟩ | ⟨-, e⟩
    · rw [e]; exact Or.inr ⟨rfl, q, (hL.matching q cand hi).1.scan, Or.inr (Or.inl ⟨cand, hi⟩)⟩
    · rw [e] at hc; exact absurd rfl hc
  | loopPush q c hi =>
    rcases afterAttempt_cases q { s with constraints := s.constraints ++ [c], update := true } with ⟨-, e⟩ | ⟨-, e⟩
    · rw [e]; exact Or.inr ⟨rfl, q, (hL.pushing q c hi).1.scan, Or.inr (Or.inr ⟨c, hi⟩)⟩
    · rw [e] at hc; exact absurd rfl hc
  | _ => exact absurd rfl hc

/-- Attempts made and attempts left. -/
def Budget (limit n : ℕ) : Loop → Prop
  | .candidates q => n + q.left = limit ∧ 1 ≤ q.left
  | .matching q _ => n + q.left = limit ∧ 1 ≤ q.left
  | .pushing q _ => n + q.left = limit + 1 ∧ 1 ≤ q.left ∧ 1 ≤ n
  | _ => n ≤ limit

theorem afterAttempt_dec {q : Search} {s : Sys} (h1 : 1 ≤ q.left) (h : q.left ≤ 18446744073709551615) :
    (q.left = 1 ∧ afterAttempt q s = nextScan q.round s) ∨
    (2 ≤ q.left ∧ afterAttempt q s = { s with loop := .candidates { q with left := q.left - 1 } }) := by
  have e : (q.left + (2 ^ 64 - 1)) % 2 ^ 64 = q.left - 1 := by omega
  unfold afterAttempt
  rw [e]
  by_cases h2 : q.left - 1 = 0
  · rw [if_pos h2]; exact Or.inl ⟨by omega, rfl⟩
  · rw [if_neg h2]; exact Or.inr ⟨by omega, rfl⟩

attribute [local irreducible] afterAttempt in
theorem budget_after {limit n : ℕ} (h64 : limit ≤ 18446744073709551615) {q : Search} {s : Sys} (h : n + q.left = limit)
    (h1 : 1 ≤ q.left) : Budget limit (n + 1) (afterAttempt q s).loop := by
  rcases afterAttempt_dec (s := s) h1 (by omega) with ⟨hz, e⟩ | ⟨hz, e⟩
  · rw [e]; show n + 1 ≤ limit; omega
  · rw [e]
    show n + 1 + (q.left - 1) = limit ∧ 1 ≤ q.left - 1
    omega

theorem budget_le {limit n : ℕ} {l : Loop} (h : Budget limit n l) : n ≤ limit := by
  unfold Budget at h; split at h <;> omega

/-- A match is never without effect. -/
theorem attempt_moves {p : Params} {s s' : Sys} {e : Event} (hst : step p s e = .ok s') (ha : MatchAttempt s e) :
    s' ≠ s := by
  obtain ⟨⟨score, correction, cov, rfl⟩, q, cand, hq⟩ := ha
  intro hs
  have hl : s'.loop = .matching q cand := by rw [hs, hq]
  clear hs
  unfold step at hst
  rw [hq] at hst
  dsimp only at hst
  unfold loopMatched at hst
  by_cases hc : score.isFinite ∧ score < s.typical
  · rw [if_pos hc] at hst
    split at hst
    · injection hst with hst
      rw [← hst] at hl
      cases hl
    · injection hst
  · rw [if_neg hc] at hst
    injection hst with hst
    rw [← hst] at hl
    unfold afterAttempt at hl
    by_cases hz : (q.left + (2 ^ 64 - 1)) % 2 ^ 64 = 0
    · rw [if_pos hz] at hl; simp [nextScan] at hl
    · rw [if_neg hz] at hl; simp at hl

attribute [local irreducible] afterAttempt in
theorem budget_step {p : Params} {s s' : Sys} {e : Event} {limit n : ℕ} (h64 : limit ≤ 18446744073709551615)
    (h : Budget limit n s.loop) (hnt : ¬ TakesScan s e) (hst : step p s e = .ok s') :
    (MatchAttempt s e → Budget limit (n + 1) s'.loop) ∧ (¬ MatchAttempt s e → Budget limit n s'.loop) := by
  have hle := budget_le h
  cases step_trans hst with
  | laserIgnored msg mount odom odomEnd hi =>
    obtain ⟨r, l, g, m, e, -⟩ := setup_cases p msg mount s
    rw [e]; exact ⟨fun ha => by simp [MatchAttempt] at ha, fun _ => h⟩
  | laserScan msg mount odom odomEnd points hi hgo hinit ht =>
    obtain ⟨r, l, g, m, e, -⟩ := setup_cases p msg mount s
    rw [e]; exact ⟨fun ha => by simp [MatchAttempt] at ha, fun _ => h⟩
  | configureFlags action bag hi hl =>
    obtain ⟨en, ini, e, -⟩ := configureMapping_frame action s
    rw [e]; exact ⟨fun ha => by simp [MatchAttempt] at ha, fun _ => h⟩
  | load action bag g hi hl hg =>
    obtain ⟨en, ini, e, -⟩ := configureMapping_frame action s
    rw [e]; exact ⟨fun ha => by simp [MatchAttempt] at ha, fun _ => h⟩
  | pubTf hi =>
    obtain ⟨x, e⟩ := pubTf_frame s
    rw [e]; exact ⟨fun ha => by simp [MatchAttempt] at ha, fun _ => h⟩
  | stutter =>
    exact ⟨fun ha => absurd rfl (attempt_moves hst ha), fun _ => h⟩
  | loopPick visit r scan near hi hn hs hv hf => exact absurd ⟨⟨visit, rfl⟩, r, hi⟩ hnt
  | loopLeave visit r hi hn => exact absurd ⟨⟨visit, rfl⟩, r, hi⟩ hnt
  | loopWake hi he => exact ⟨fun ha => by simp [MatchAttempt] at ha, fun _ => hle⟩
  | loopShort hi hn => exact ⟨fun ha => by simp [MatchAttempt] at ha, fun _ => hle⟩
  | loopCount hi hn => exact ⟨fun ha => by simp [MatchAttempt] at ha, fun _ => hle⟩
  | loopNext q hi hr => exact ⟨fun ha => by simp [MatchAttempt] at ha, fun _ => hle⟩
  | loopSkip q i rest cand hi hr hc hp =>
    rw [hi] at h; exact ⟨fun ha => by simp [MatchAttempt] at ha, fun _ => h⟩
  | loopCandidate q i rest cand hi hr hc hg =>
    rw [hi] at h; exact ⟨fun ha => by simp [MatchAttempt] at ha, fun _ => h⟩
  | loopAccept score correction cov q cand scan candidate hi hf hs h1 h2 =>
    rw [hi] at h
    refine ⟨fun _ => ?_, fun ha => absurd ⟨⟨_, _, _, rfl⟩, q, cand, hi⟩ ha⟩
    show n + 1 + q.left = limit + 1 ∧ 1 ≤ q.left ∧ 1 ≤ n + 1
    exact ⟨by have := h.1; omega, h.2, by omega⟩
  | loopReject score correction cov q cand hi hs =>
    rw [hi] at h
    exact ⟨fun _ => budget_after h64 h.1 h.2, fun ha => absurd ⟨⟨_, _, _, rfl⟩, q, cand, hi⟩ ha⟩
  | loopPush q c hi =>
    rw [hi] at h
    refine ⟨fun ha => by simp [MatchAttempt] at ha, fun _ => ?_⟩
    have h1 := h.1
    have h2 := h.2.1
    have h0 := h.2.2
    have := budget_after h64 (n := n - 1) (q := q) (s := { s with constraints := s.constraints ++ [c], update := true })
      (by omega) h2
    rwa [Nat.sub_add_cancel h0] at this
  | loopDecide r hi =>
    refine ⟨fun ha => by simp [MatchAttempt] at ha, fun _ => ?_⟩
    simp only
    split_ifs <;> exact hle
  | loopOptimise ceres b solver scans hi ho => exact ⟨fun ha => by simp [MatchAttempt] at ha, fun _ => hle⟩
  | _ => exact ⟨fun ha => by simp [MatchAttempt] at ha, fun _ => h⟩

/-- **C60** (partial: for a limit of at least one, which fits into a `size_t`) Between taking a scan and taking the next
one, the thread makes at most `global_search_limit` attempts to match it. -/
theorem c60_attempts_bounded_partial (p : Params) (s s' t : Sys) (e : Event) (es : List Event) (q : Search) (n : ℕ)
    (h1 : 1 ≤ p.searchLimit) (h64 : p.searchLimit < 2 ^ 64) (hst : step p s e = .ok s') (ht : TakesScan s e)
    (hq : s'.loop = .candidates q) (hes : Counted p (fun t e => ¬ TakesScan t e) MatchAttempt s' es t n) :
    n ≤ p.searchLimit := by
  have h64' : p.searchLimit ≤ 18446744073709551615 := by omega
  clear h64
  obtain ⟨-, hl, -⟩ := takes_scan hst ht hq
  have key : Budget p.searchLimit n t.loop := by
    induction hes with
    | nil =>
      rw [hq]
      exact ⟨by rw [hl]; omega, by rw [hl]; exact h1⟩
    | hit _ ha hp hst' ih => exact (budget_step h64' ih ha hst').1 hp
    | miss _ ha hp hst' ih => exact (budget_step h64' ih ha hst').2 hp
  exact budget_le key

/-- **C60** (refuted) With a limit of zero a scan is matched nevertheless: the counter wraps around, and next to no bound
is left. -/
theorem c60_zero_limit_not_respected : ∃ s t, ∃ q cand,
    run (demoParams 0 0) (demoLoaded (demoParams 0 0) true) [demoLaser Pose2d.zero, .loopWake, .loopCount, .loopPick [0],
      .loopCandidate] = .ok s ∧ s.loop = .matching q cand ∧
    step (demoParams 0 0) s (.loopMatched (.fin 0) Pose2d.zero fun _ _ => .fin 0) = .ok t ∧
    ∃ q', t.loop = .candidates q' ∧ q'.left = 2 ^ 64 - 1 := by
  have hs : (demoSetUp (demoParams 0 0) (demoLoaded (demoParams 0 0) true)).scans =
      [mapDot 0 Pose2d.zero, mapDot 1 Pose2d.zero] := by
    simp [demoSetUp, demoLoaded, startWith, Sys.scans, demoMap]
  have hn : ¬ ((Fl.fin 0).isFinite ∧ Fl.fin 0 < (demoMatching (demoSetUp (demoParams 0 0)
      (demoLoaded (demoParams 0 0) true)) 0).typical) := by
    rintro ⟨-, h⟩
    have h' : (0 : ℝ) < -0.5 := h
    norm_num at h'
  refine ⟨demoMatching (demoSetUp (demoParams 0 0) (demoLoaded (demoParams 0 0) true)) 0,
    afterAttempt ⟨⟨2, false⟩, 1, ⟨0, 1⟩, [], 0⟩ (demoMatching (demoSetUp (demoParams 0 0) (demoLoaded (demoParams 0 0) true)) 0),
    ⟨⟨2, false⟩, 1, ⟨0, 1⟩, [], 0⟩, ⟨0, 0⟩, ?_, rfl, ?_, ?_⟩
  · show run _ _ ([demoLaser Pose2d.zero] ++ ([.loopWake, .loopCount, .loopPick [0]] ++ [.loopCandidate])) = _
    rw [run_append, run_cons, step_demoSetUp _ _ _ rfl rfl rfl, Res.ok_bind]
    show (Except.ok _ >>= _) = _
    rw [Res.ok_bind, run_append, run_demoSearch _ _ rfl (by norm_num [demoParams]) rfl hs rfl rfl rfl, Res.ok_bind, run_cons,
      show (demoParams 0 0).searchLimit = 0 from rfl, step_demoMatching _ _ _ hs (by simp [demoSetUp]), Res.ok_bind]
    rfl
  · show loopMatched _ _ _ ⟨⟨2, false⟩, 1, ⟨0, 1⟩, [], 0⟩ ⟨0, 0⟩ _ = _
    unfold loopMatched
    rw [if_neg hn]
  · unfold afterAttempt
    rw [if_neg (by norm_num)]
    exact ⟨_, rfl, by norm_num⟩

/-! ## C61 Runs of the optimiser -/

/-- The number of scans counted at the beginning of the round. -/
def countedScans : Loop → Option ℕ
  | .picking r => some r.n
  | .candidates q => some q.round.n
  | .matching q _ => some q.round.n
  | .pushing q _ => some q.round.n
  | .deciding r => some r.n
  | _ => none

structure OptInv (p : Params) (s : Sys) : Prop where
  last : s.optLast ≤ s.scans.length
  round : ∀ n, countedScans s.loop = some n → s.optLast ≤ n ∧ n ≤ s.scans.length
  opt : s.loop = .optimising → s.optLast + p.nodeLimit < s.scans.length

theorem optInv_grow {p : Params} {s : Sys} (hI : OptInv p s) {heap : ℕ → List Scan}
    (hh : s.scans.length ≤ (heap s.epoch).length) {t : Sys} (ht : t.scans = heap s.epoch) (hl : t.loop = s.loop)
    (ho : t.optLast = s.optLast) : OptInv p t := by
  refine ⟨?_, ?_, ?_⟩
  · rw [ht, ho]; exact le_trans hI.last hh
  · intro n hn
    rw [hl] at hn
    rw [ho, ht]
    exact ⟨(hI.round n hn).1, le_trans (hI.round n hn).2 hh⟩
  · intro h
    rw [hl] at h
    rw [ho, ht]
    exact lt_of_lt_of_le (hI.opt h) hh

theorem afterAttempt_counted (q : Search) (s : Sys) : countedScans (afterAttempt q s).loop = some q.round.n := by
  rcases afterAttempt_cases q s with ⟨-, e⟩ | ⟨-, e⟩ <;> rw [e] <;> rfl

theorem afterAttempt_not_optimising (q : Search) (s : Sys) : (afterAttempt q s).loop ≠ .optimising := by
  intro h
  have := afterAttempt_counted q s
  rw [h] at this; cases this

theorem optInv_step {p : Params} {s s' : Sys} {e : Event} (hI : OptInv p s) (hnl : ¬ Loads e) (ht : Trans p s e s') :
    OptInv p s' ∧ s.optLast ≤ s'.optLast := by
  obtain ⟨h1, h2, h3⟩ := hI
  cases ht with
  | laserIgnored msg mount odom odomEnd hi =>
    obtain ⟨r, l, g, m, e, -⟩ := setup_cases p msg mount s
    rw [e]; exact ⟨⟨h1, h2, h3⟩, le_refl _⟩
  | laserScan msg mount odom odomEnd points hi hgo hinit ht =>
    obtain ⟨r, l, g, m, e, -⟩ := setup_cases p msg mount s
    rw [e]; exact ⟨⟨h1, h2, h3⟩, le_refl _⟩
  | configureFlags action bag hi hl =>
    obtain ⟨en, ini, e, -⟩ := configureMapping_frame action s
    rw [e]; exact ⟨⟨h1, h2, h3⟩, le_refl _⟩
  | load action bag g hi hl hg => exact absurd ⟨action, bag, rfl, hl⟩ hnl
  | pubTf hi =>
    obtain ⟨x, e⟩ := pubTf_frame s
    rw [e]; exact ⟨⟨h1, h2, h3⟩, le_refl _⟩
  | pushScan scan odom hi =>
    refine ⟨optInv_grow (p := p) (s := s) ⟨h1, h2, h3⟩ (heap := fun e => if e = s.epoch then s.scans ++ [scan] else s.heap e) ?_
      rfl rfl rfl, le_refl _⟩
    simp
  | poseScan m odom visit near i rest hi he hn hf hnear hv hfind =>
    refine ⟨optInv_grow (p := p) (s := s) ⟨h1, h2, h3⟩ (heap := fun e => if e = s.epoch then
      s.scans ++ [(Scan.new s.scans.length).setPose m.pose] else s.heap e) ?_ rfl rfl rfl, le_refl _⟩
    simp
  | loopWake hi he => exact ⟨⟨h1, fun n h => by simp [countedScans] at h, fun h => by simp at h⟩, le_refl _⟩
  | loopShort hi hn => exact ⟨⟨h1, fun n h => by simp [countedScans] at h, fun h => by simp at h⟩, le_refl _⟩
  | loopCount hi hn =>
    refine ⟨⟨h1, fun n h => ?_, fun h => by simp at h⟩, le_refl _⟩
    simp only [countedScans, Option.some.injEq] at h
    subst h
    exact ⟨h1, le_refl _⟩
  | loopPick visit r scan near hi hn hs hv hf =>
    refine ⟨⟨h1, fun n h => h2 n (by rw [hi]; exact h), fun h => by simp at h⟩, le_refl _⟩
  | loopLeave visit r hi hn =>
    refine ⟨⟨h1, fun n h => h2 n (by rw [hi]; exact h), fun h => by simp at h⟩, le_refl _⟩
  | loopNext q hi hr =>
    refine ⟨⟨h1, fun n h => h2 n (by rw [hi]; exact h), fun h => by simp [nextScan] at h⟩, le_refl _⟩
  | loopSkip q i rest cand hi hr hc hp =>
    refine ⟨⟨h1, fun n h => h2 n (by rw [hi]; exact h), fun h => by simp at h⟩, le_refl _⟩
  | loopCandidate q i rest cand hi hr hc hg =>
    refine ⟨⟨h1, fun n h => h2 n (by rw [hi]; exact h), fun h => by simp at h⟩, le_refl _⟩
  | loopAccept score correction cov q cand scan candidate hi hf hs hq1 hq2 =>
    have hl := (setPoseAt_same s.heap q.scan (addCorrection correction scan.getPose) s.epoch).length
    refine ⟨⟨?_, fun n h => ?_, fun h => by simp at h⟩, le_refl _⟩
    · show s.optLast ≤ (setPoseAt _ _ _ _).length
      rw [hl]; exact h1
    · show s.optLast ≤ n ∧ n ≤ (setPoseAt _ _ _ _).length
      rw [hl]; exact h2 n (by rw [hi]; exact h)
  | loopReject score correction cov q cand hi hs =>
    have hc := afterAttempt_counted q s
    have hno := afterAttempt_not_optimising q s
    obtain ⟨n, l, e⟩ := afterAttempt_frame q s
    rw [e] at hc hno ⊢
    exact ⟨⟨h1, fun n h => h2 n (by rw [hi]; exact hc.symm.trans h), fun h => absurd h hno⟩, le_refl _⟩
  | loopPush q c hi =>
    have hc := afterAttempt_counted q { s with constraints := s.constraints ++ [c], update := true }
    have hno := afterAttempt_not_optimising q { s with constraints := s.constraints ++ [c], update := true }
    obtain ⟨n, l, e⟩ := afterAttempt_frame q { s with constraints := s.constraints ++ [c], update := true }
    rw [e] at hc hno ⊢
    exact ⟨⟨h1, fun n h => h2 n (by rw [hi]; exact hc.symm.trans h), fun h => absurd h hno⟩, le_refl _⟩
  | loopDecide r hi =>
    obtain ⟨ha, hb⟩ := h2 r.n (by rw [hi]; rfl)
    refine ⟨⟨h1, fun n h => ?_, fun h => ?_⟩, le_refl _⟩
    · simp only at h
      split_ifs at h <;> simp [countedScans] at h
    · simp only at h
      split_ifs at h with ho
      have h4 := ho.2
      have h5 : (((r.n : ℤ) - s.optLast) % 2 ^ 64).toNat ≤ r.n - s.optLast := by omega
      show s.optLast + p.nodeLimit < s.scans.length
      omega
  | loopOptimise ceres b solver scans hi ho =>
    have hl := (optimize_same ho).length
    refine ⟨⟨?_, fun n h => by simp [countedScans] at h, fun h => by simp at h⟩, ?_⟩
    · show scans.length ≤ (if s.epoch = s.epoch then scans else _).length
      rw [if_pos rfl]
    · show s.optLast ≤ scans.length
      rw [hl]; exact h1
  | _ => exact ⟨⟨h1, h2, h3⟩, le_refl _⟩

theorem optInv_reach {p : Params} {s : Sys} {W : Graph → Prop} (h : Reach p W (fun _ e => ¬ Loads e) s) : OptInv p s := by
  refine Reach.inv (I := OptInv p) h ?_ fun s e s' hI ha _ ht => (optInv_step hI ha ht).1
  intro enable file s0 hst _
  rcases start_cases hst with ⟨-, rfl⟩ | ⟨bag, g, -, -, rfl⟩
  · exact ⟨Nat.zero_le _, fun n h => by simp [startWith, countedScans] at h, fun h => by simp [startWith] at h⟩
  · exact ⟨Nat.zero_le _, fun n h => by simp [startWith, countedScans] at h, fun h => by simp [startWith] at h⟩

/-- The optimiser runs. -/
def OptimiserRuns (s : Sys) (e : Event) : Prop := (∃ ceres, e = .loopOptimise ceres) ∧ s.loop = .optimising

/-- **C61** (partial: no map is loaded while the mapper runs) Between two runs of the optimiser, under any schedule, more
than `optimization_node_limit` scans were added. -/
theorem c61_spacing_partial (p : Params) (W : Graph → Prop) (s s' t : Sys) (e e' : Event) (es : List Event)
    (hr : Reach p W (fun _ e => ¬ Loads e) s) (h1 : OptimiserRuns s e) (hst : step p s e = .ok s')
    (hes : Exec p (fun _ e => ¬ Loads e) s' es t) (h2 : OptimiserRuns t e') :
    s.scans.length + p.nodeLimit < t.scans.length := by
  have hI := optInv_reach hr
  obtain ⟨⟨ceres, rfl⟩, hl⟩ := h1
  have key : OptInv p s' ∧ s'.optLast = s.scans.length := by
    have hlast : s'.optLast = s.scans.length := by
      unfold step at hst
      rw [hl] at hst
      dsimp only at hst
      unfold loopOptimise at hst
      obtain ⟨⟨b, solver, scans⟩, ho, hst⟩ := bind_ok hst
      injection hst with hst
      rw [← hst]
      exact (optimize_same ho).length
    exact ⟨(optInv_step hI (by rintro ⟨a, b, h, -⟩; cases h) (step_trans hst)).1, hlast⟩
  have hk : OptInv p t ∧ s'.optLast ≤ t.optLast :=
    Exec.inv (I := fun t => OptInv p t ∧ s'.optLast ≤ t.optLast)
      (fun a e b hI ha ht => ⟨(optInv_step hI.1 ha ht).1, le_trans hI.2 (optInv_step hI.1 ha ht).2⟩) hes
      ⟨key.1, le_refl _⟩
  have := hk.1.opt h2.2
  omega

/-- **C61** The first run needs more than `optimization_node_limit` scans. -/
theorem c61_first_run_partial (p : Params) (W : Graph → Prop) (s : Sys) (e : Event)
    (hr : Reach p W (fun _ e => ¬ Loads e) s) (h1 : OptimiserRuns s e) : p.nodeLimit < s.scans.length := by
  have := (optInv_reach hr).opt h1.2
  omega

/-- Parameters under which the small map is optimised. -/
def demoOpt : Params := ⟨1, 0.25, 0.1, 1, 0, false, 0.2, 3, 1, false, .fin (-1)⟩

/-- The small map right before it is optimised. -/
def demoOptimising (correction : Pose2d) (cov : Mat3) : Sys :=
  { demoDeciding (demoSetUp demoOpt (demoLoaded demoOpt true)) correction cov with loop := .optimising }

/-- The steps to there. -/
def demoRound (correction : Pose2d) (cov : Mat3) : List Event :=
  demoClosing (.fin (-1)) correction cov ++ ([.loopPush, .loopCandidate, .loopPick []] ++ [.loopDecide])

theorem run_demoRound (correction : Pose2d) (cov : Mat3) :
    run demoOpt (demoLoaded demoOpt true) (demoRound correction cov) = .ok (demoOptimising correction cov) := by
  have h := run_demoClosing demoOpt rfl (by norm_num [demoOpt]) rfl (-1) (by norm_num) correction cov
  have h3 : step demoOpt (demoDeciding (demoSetUp demoOpt (demoLoaded demoOpt true)) correction cov) .loopDecide =
      .ok (demoOptimising correction cov) := by
    have hs : shouldOptimise demoOpt ⟨2, true⟩ (demoDeciding (demoSetUp demoOpt (demoLoaded demoOpt true)) correction cov) := by
      refine ⟨rfl, ?_⟩
      simp [demoDeciding, demoSetUp, demoLoaded, startWith, demoOpt]
    show Except.ok { demoDeciding (demoSetUp demoOpt (demoLoaded demoOpt true)) correction cov with
      loop := if shouldOptimise demoOpt ⟨2, true⟩ (demoDeciding (demoSetUp demoOpt (demoLoaded demoOpt true)) correction cov)
        then Loop.optimising else Loop.asleep } = _
    rw [if_pos hs]
    rfl
  unfold demoRound
  rw [run_append, h, Res.ok_bind, run_append]
  show (run _ (demoCorrected _ 3 _ _) _ >>= _) = _
  rw [run_demoDeciding, Res.ok_bind, run_cons, h3, Res.ok_bind]
  rfl

/-- Example: with a limit of 1 the optimiser runs on the small map after its loop closure. -/
example : Reach demoOpt (fun _ => True) (fun _ e => ¬ Loads e) (demoOptimising ⟨1, 0, 0⟩ fun _ _ => .fin 0) ∧
    OptimiserRuns (demoOptimising ⟨1, 0, 0⟩ fun _ _ => .fin 0) (.loopOptimise fun _ => ⟨false, fun _ => Pose2d.zero⟩) := by
  refine ⟨⟨true, some demoBag, _, demoRound ⟨1, 0, 0⟩ fun _ _ => .fin 0, demoLoaded_start _ _, by simp, ?_⟩, ⟨_, rfl⟩, rfl⟩
  refine Exec.mono (A := fun _ e => ¬ Loads e) (fun s e he => ⟨he, fun _ _ _ _ _ => trivial⟩)
    ((exec_iff_run _ (fun e => ¬ Loads e) _ _ _).mpr ⟨run_demoRound _ _, ?_⟩)
  rintro e he ⟨action, bag, rfl, -⟩
  simp [demoRound, demoClosing, demoLaser] at he

/-- **C61** (refuted with loading) When the loaded map has fewer scans than there were at the last run, the difference
wraps around and the optimiser runs after every round with a match, without any scan added. -/
theorem c61_wraps_after_load (p : Params) (s : Sys) (r : Round) (hl : s.loop = .deciding r) (hm : r.newMatches = true)
    (hn : r.n < s.optLast) (hb : s.optLast - r.n + p.nodeLimit < 2 ^ 64) :
    step p s .loopDecide = .ok { s with loop := .optimising } := by
  have hs : shouldOptimise p r s := by
    refine ⟨hm, ?_⟩
    omega
  unfold step
  rw [hl]
  dsimp only
  rw [if_pos hs]

end

end Ndt
