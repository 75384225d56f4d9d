import Verif.Proof.Threads

/-! # Helper lemmas: ends of constraints -/

namespace Ndt

noncomputable section

open Spec Mapper

/-- Scans the constraints may refer to besides those in the graph: the one whose constraint is already there. -/
def promised : Spin → ℕ
  | .append .. => 1
  | _ => 0

/-- The loop closure thread holds pointers into the graph. -/
def HoldsPointers : Loop → Prop
  | .candidates .. | .matching .. | .pushing .. => True
  | _ => False

/-- No map is loaded while the loop closure thread holds pointers into the graph. -/
def QuietLoads (s : Sys) (e : Event) : Prop := Loads e → ¬ HoldsPointers s.loop

structure EndsInv (s : Sys) : Prop where
  valid : EndsValid (s.scans.length + promised s.spin) s.constraints
  made : ∀ c scan odom, s.spin = .constraint c scan odom → c.begin_ < s.scans.length ∧ c.end_ = s.scans.length
  candidates : ∀ q, s.loop = .candidates q → q.scan.epoch = s.epoch
  matching : ∀ q cand, s.loop = .matching q cand → q.scan.epoch = s.epoch ∧ cand.epoch = s.epoch
  pushing : ∀ q c, s.loop = .pushing q c → q.scan.epoch = s.epoch ∧ c.begin_ < s.scans.length ∧ c.end_ < s.scans.length

theorem endsValid_mono {n m : ℕ} {cs : List Constraint} (h : EndsValid n cs) (hm : n ≤ m) : EndsValid m cs :=
  fun c hc => ⟨lt_of_lt_of_le (h c hc).1 hm, lt_of_lt_of_le (h c hc).2 hm⟩

theorem endsValid_snoc {n : ℕ} {cs : List Constraint} {c : Constraint} (h : EndsValid n cs) (hc : c.begin_ < n ∧ c.end_ < n) :
    EndsValid n (cs ++ [c]) := by
  intro d hd
  rcases List.mem_append.mp hd with hd | hd
  · exact h d hd
  · rw [List.mem_singleton] at hd; subst hd; exact hc

theorem afterAttempt_ends {q : Search} {s : Sys}
    (h1 : EndsValid (s.scans.length + promised s.spin) s.constraints)
    (h2 : ∀ c scan odom, s.spin = .constraint c scan odom → c.begin_ < s.scans.length ∧ c.end_ = s.scans.length)
    (hq : q.scan.epoch = s.epoch) : EndsInv (afterAttempt q s) := by
  rcases afterAttempt_cases q s with ⟨-, e⟩ | ⟨-, e⟩
  · rw [e]
    refine ⟨h1, h2, ?_, ?_, ?_⟩ <;> intros <;> simp [nextScan] at *
  · rw [e]
    generalize (q.left + (2 ^ 64 - 1)) % 2 ^ 64 = left
    refine ⟨h1, h2, fun q' h => ?_, ?_, ?_⟩
    · simp only [Loop.candidates.injEq] at h
      subst h; exact hq
    · intro q c h; simp at h
    · intro q c h; simp at h

theorem setPoseAt_len (s : Sys) (a : Ptr) (pose : Pose2d) :
    (setPoseAt s.heap a pose s.epoch).length = s.scans.length := (setPoseAt_same s.heap a pose s.epoch).length

theorem endsInv_step {p : Params} {s s' : Sys} {e : Event} (hG : GraphInv s) (hI : EndsInv s) (ha : QuietLoads s e)
    (hw : ∀ action bag, e = .configure action bag → ∀ g, Graph.load p.useBarycenter bag = .ok g →
      EndsValid g.scans.length g.constraints)
    (ht : Trans p s e s') : EndsInv s' := by
  obtain ⟨h1, h2, h3, h4, h5⟩ := hI
  cases ht with
  | laserIgnored msg mount odom odomEnd hi =>
    obtain ⟨r, l, g, m, e, -⟩ := setup_cases p msg mount s
    rw [e]; exact ⟨h1, h2, h3, h4, h5⟩
  | laserScan msg mount odom odomEnd points hi hgo hinit ht =>
    obtain ⟨r, l, g, m, e, -⟩ := setup_cases p msg mount s
    rw [e]
    refine ⟨endsValid_mono h1 ?_, fun c scan odom' h => ?_, h3, h4, h5⟩
    · rw [hi]; exact Nat.le_add_right _ _
    · simp only [branch] at h
      split_ifs at h
  | filtered mean scan odom hi =>
    rw [hi] at h1
    exact ⟨h1, fun c scan odom h => by simp at h, h3, h4, h5⟩
  | addWindow scan odom w hi hl hw =>
    rw [hi] at h1
    exact ⟨h1, fun c scan odom h => by simp at h, h3, h4, h5⟩
  | localMatched score correction cov scan back odom hi hb =>
    rw [hi] at h1
    refine ⟨h1, fun c scan' odom' h => ?_, h3, h4, h5⟩
    simp only [Spin.constraint.injEq] at h
    obtain ⟨rfl, -, -⟩ := h
    have hlast : s.scans[s.scans.length - 1]? = some back := by rw [← hb, List.getLast?_eq_getElem?]
    have hlt := (List.getElem?_eq_some_iff.mp hlast).1
    refine ⟨?_, hG.pend scan (by rw [hi]; rfl)⟩
    show back.id < s.scans.length
    rw [hG.ids s.epoch _ _ hlast]
    exact hlt
  | pushConstraint c scan odom hi =>
    obtain ⟨e1, e2⟩ := h2 c scan odom hi
    rw [hi] at h1
    refine ⟨endsValid_snoc (endsValid_mono h1 (Nat.le_succ _)) ⟨?_, ?_⟩, fun c scan odom h => by simp at h, h3, h4, h5⟩
    · exact Nat.lt_succ_of_lt e1
    · rw [e2]; exact Nat.lt_succ_self _
  | pushScan scan odom hi =>
    rw [hi] at h1
    have hl : (if s.epoch = s.epoch then s.scans ++ [scan] else s.heap s.epoch).length = s.scans.length + 1 := by
      rw [if_pos rfl, List.length_append]; rfl
    refine ⟨?_, fun c scan odom h => by simp at h, h3, h4, fun q c h => ?_⟩
    · show EndsValid ((if s.epoch = s.epoch then s.scans ++ [scan] else s.heap s.epoch).length + 0) _
      rw [hl]; exact h1
    · obtain ⟨a, b, c'⟩ := h5 q c h
      refine ⟨a, ?_⟩
      show _ < (if s.epoch = s.epoch then s.scans ++ [scan] else s.heap s.epoch).length ∧
        _ < (if s.epoch = s.epoch then s.scans ++ [scan] else s.heap s.epoch).length
      rw [hl]; omega
  | globalMatched correction scan odom hi =>
    rw [hi] at h1
    exact ⟨h1, fun c scan odom h => by simp at h, h3, h4, h5⟩
  | finishScan robot odom hi =>
    rw [hi] at h1
    exact ⟨h1, fun c scan odom h => by simp at h, h3, h4, h5⟩
  | announce a odom scan hi hs =>
    rw [hi] at h1
    exact ⟨h1, fun c scan odom h => by simp at h, h3, h4, h5⟩
  | poseKept m odom visit hi he =>
    rw [hi] at h1
    exact ⟨h1, fun c scan odom h => by simp at h, h3, h4, h5⟩
  | poseScan m odom visit near i rest hi he hn hf hnear hv hfind =>
    rw [hi] at h1
    have hl : (if s.epoch = s.epoch then s.scans ++ [(Scan.new s.scans.length).setPose m.pose] else s.heap s.epoch).length =
        s.scans.length + 1 := by
      rw [if_pos rfl, List.length_append]; rfl
    refine ⟨?_, fun c scan odom h => by simp at h, h3, h4, fun q c h => ?_⟩
    · show EndsValid ((if s.epoch = s.epoch then s.scans ++ [(Scan.new s.scans.length).setPose m.pose]
        else s.heap s.epoch).length + 0) _
      rw [hl]
      refine endsValid_snoc (endsValid_mono h1 (Nat.le_succ _)) ⟨?_, Nat.lt_succ_self _⟩
      show near.id < _
      rw [hG.ids s.epoch _ _ hnear]
      exact Nat.lt_succ_of_lt (List.getElem?_eq_some_iff.mp hnear).1
    · obtain ⟨a, b, c'⟩ := h5 q c h
      refine ⟨a, ?_⟩
      show _ < (if s.epoch = s.epoch then s.scans ++ [(Scan.new s.scans.length).setPose m.pose] else s.heap s.epoch).length ∧
        _ < (if s.epoch = s.epoch then s.scans ++ [(Scan.new s.scans.length).setPose m.pose] else s.heap s.epoch).length
      rw [hl]; omega
  | setRobot robot odom hi =>
    rw [hi] at h1
    exact ⟨h1, fun c scan odom h => by simp at h, h3, h4, h5⟩
  | setOdom odom hi =>
    rw [hi] at h1
    exact ⟨h1, fun c scan odom h => by simp at h, h3, h4, h5⟩
  | configureFlags action bag hi hl =>
    obtain ⟨en, ini, e, -⟩ := configureMapping_frame action s
    rw [e]; exact ⟨h1, h2, h3, h4, h5⟩
  | load action bag g hi hl hg =>
    obtain ⟨en, ini, e, -⟩ := configureMapping_frame action s
    have hq := ha ⟨action, bag, rfl, hl⟩
    rw [e]
    refine ⟨?_, fun c scan odom h => ?_, fun q h => ?_, fun q c h => ?_, fun q c h => ?_⟩
    · show EndsValid ((if s.epoch + 1 = s.epoch + 1 then g.scans else _).length + _) _
      rw [if_pos rfl]
      exact endsValid_mono (hw action bag rfl g hg) (Nat.le_add_right _ _)
    · simp only [hi] at h; cases h
    · exact absurd (by rw [h]; trivial) hq
    · exact absurd (by rw [h]; trivial) hq
    · exact absurd (by rw [h]; trivial) hq
  | loopWake hi he =>
    exact ⟨h1, h2, fun q h => by simp at h, fun q c h => by simp at h, fun q c h => by simp at h⟩
  | loopShort hi hn =>
    exact ⟨h1, h2, fun q h => by simp at h, fun q c h => by simp at h, fun q c h => by simp at h⟩
  | loopCount hi hn =>
    exact ⟨h1, h2, fun q h => by simp at h, fun q c h => by simp at h, fun q c h => by simp at h⟩
  | loopPick visit r scan near hi hn hs hv hf =>
    refine ⟨h1, h2, fun q h => ?_, fun q c h => by simp at h, fun q c h => by simp at h⟩
    simp only [Loop.candidates.injEq] at h
    subst h; rfl
  | loopLeave visit r hi hn =>
    exact ⟨h1, h2, fun q h => by simp at h, fun q c h => by simp at h, fun q c h => by simp at h⟩
  | loopNext q hi hr =>
    refine ⟨h1, h2, ?_, ?_, ?_⟩ <;> intros <;> simp [nextScan] at *
  | loopSkip q i rest cand hi hr hc hp =>
    refine ⟨h1, h2, fun q' h => ?_, fun q c h => by simp at h, fun q c h => by simp at h⟩
    simp only [Loop.candidates.injEq] at h
    subst h; exact h3 q hi
  | loopCandidate q i rest cand hi hr hc hg =>
    refine ⟨h1, h2, fun q h => by simp at h, fun q' c h => ?_, fun q c h => by simp at h⟩
    simp only [Loop.matching.injEq] at h
    obtain ⟨rfl, rfl⟩ := h
    exact ⟨h3 q hi, rfl⟩
  | loopAccept score correction cov q cand scan candidate hi hf hs hq1 hq2 =>
    obtain ⟨e1, e2⟩ := h4 q cand hi
    have hl := setPoseAt_len s q.scan (addCorrection correction scan.getPose)
    refine ⟨?_, fun c scan' odom h => ?_, fun q h => by simp at h, fun q c h => by simp at h, fun q' c h => ?_⟩
    · show EndsValid ((setPoseAt _ _ _ _).length + _) _
      rw [hl]; exact h1
    · show _ < (setPoseAt _ _ _ _).length ∧ _ = (setPoseAt _ _ _ _).length
      rw [hl]; exact h2 c scan' odom h
    · simp only [Loop.pushing.injEq] at h
      obtain ⟨rfl, rfl⟩ := h
      refine ⟨e1, ?_⟩
      show candidate.id < (setPoseAt _ _ _ _).length ∧ scan.id < (setPoseAt _ _ _ _).length
      rw [hl, hG.ids _ _ _ hq1, hG.ids _ _ _ hq2]
      rw [e1] at hq1
      rw [e2] at hq2
      exact ⟨(List.getElem?_eq_some_iff.mp hq2).1, (List.getElem?_eq_some_iff.mp hq1).1⟩
  | loopReject score correction cov q cand hi hs => exact afterAttempt_ends h1 h2 (h4 q cand hi).1
  | loopPush q c hi =>
    obtain ⟨e1, e2, e3⟩ := h5 q c hi
    exact afterAttempt_ends (s := { s with constraints := s.constraints ++ [c], update := true })
      (endsValid_snoc h1 ⟨Nat.lt_of_lt_of_le e2 (Nat.le_add_right _ _), Nat.lt_of_lt_of_le e3 (Nat.le_add_right _ _)⟩) h2 e1
  | loopDecide r hi =>
    refine ⟨h1, h2, ?_, ?_, ?_⟩ <;> intros <;> simp only at * <;> split_ifs at *
  | loopOptimise ceres b solver scans hi ho =>
    have hl : (if s.epoch = s.epoch then scans else s.heap s.epoch).length = s.scans.length := by
      rw [if_pos rfl, (optimize_same ho).length]
    refine ⟨?_, fun c scan' odom h => ?_, fun q h => by simp at h, fun q c h => by simp at h, fun q c h => by simp at h⟩
    · show EndsValid ((if s.epoch = s.epoch then scans else s.heap s.epoch).length + _) _
      rw [hl]; exact h1
    · show _ < (if s.epoch = s.epoch then scans else s.heap s.epoch).length ∧
        _ = (if s.epoch = s.epoch then scans else s.heap s.epoch).length
      rw [hl]; exact h2 c scan' odom h
  | pubTf hi =>
    obtain ⟨x, e⟩ := pubTf_frame s
    rw [e]; exact ⟨h1, h2, h3, h4, h5⟩
  | _ => exact ⟨h1, h2, h3, h4, h5⟩

/-- With valid ends the solver never reads beyond the scans. -/
theorem addConstraints_in_range (scans : List Scan) (cs : List Constraint) (h : EndsValid scans.length cs) (s : Solver) :
    cs.foldlM (fun s c => Solver.addConstraint s scans c) s ≠ .error .outOfBounds := by
  induction cs generalizing s with
  | nil => intro h; cases h
  | cons c cs ih =>
    rw [List.foldlM_cons]
    obtain ⟨hb, he⟩ := h c (by simp)
    have hc : Solver.addConstraint s scans c = .error .abort ∨ ∃ s', Solver.addConstraint s scans c = .ok s' := by
      unfold Solver.addConstraint
      rw [List.getElem?_eq_getElem hb, List.getElem?_eq_getElem he]
      simp only
      split
      · exact Or.inl rfl
      · exact Or.inr ⟨_, rfl⟩
    rcases hc with hc | ⟨s', hc⟩
    · rw [hc]; intro h; cases h
    · rw [hc]; exact ih (fun c hc => h c (List.mem_cons_of_mem _ hc)) s'

theorem optimize_in_range (ceres : Solver → Solver.Outcome) (s : Solver) (cs : List Constraint) (scans : List Scan)
    (h : EndsValid scans.length cs) : s.optimize ceres cs scans ≠ .error .outOfBounds := by
  unfold Solver.optimize
  split
  · intro h; cases h
  · rename_i first rest
    have hd : EndsValid (first :: rest).length (cs.drop s.numConstraints) := fun c hc => h c (List.mem_of_mem_drop hc)
    have := addConstraints_in_range (first :: rest) _ hd { s with nodes := Solver.setNodes s.nodes (first :: rest) }
    unfold Solver.prepare
    simp only
    cases hf : (cs.drop s.numConstraints).foldlM (fun s c => Solver.addConstraint s (first :: rest) c)
        { s with nodes := Solver.setNodes s.nodes (first :: rest) } with
    | error x =>
      rw [hf] at this
      intro h
      apply this
      have : (Except.error x : Res (Bool × Solver × List Scan)) = .error .outOfBounds := h
      cases this; rfl
    | ok s1 =>
      intro h
      rw [Res.ok_bind] at h
      split at h
      · rw [Res.ok_bind] at h
        split at h <;> cases h
      · cases h

end

end Ndt
