import Verif.Proof.Agree
import Mathlib.Algebra.Order.Star.Real

/-! # Helper lemmas: maps whose loop closures agree with them -/

namespace Ndt

noncomputable section

open Spec Solver Mapper Real

/-- A covariance of a match that says something about every direction. -/
def SureCov (cov : Mat3) : Prop := ∃ a : Matrix (Fin 3) (Fin 3) ℝ, IsReal cov a ∧ a.PosDef

theorem sure_make (a b : Scan) {cov : Mat3} (h : SureCov cov) : Sure (makeConstraint a b cov) := by
  obtain ⟨m, h1, h2⟩ := h
  obtain ⟨inf, h3, h4, -⟩ := c33_information_definite a b h1 h2
  exact ⟨inf, h3, h4⟩

/-- What is asked of the surroundings: matches are sure, loop closures find the robot where it is already, initial poses come
with variances, no map is loaded, Ceres makes nothing worse. -/
def Agreeable (t : Sys) : Event → Prop
  | .localMatched _ _ cov => SureCov cov
  | .loopMatched _ correction cov => SureCov cov ∧ correction = Pose2d.zero
  | .pose m _ _ => 0 < m.covX ∧ 0 < m.covY ∧ 0 < m.covTheta
  | .configure action _ => action &&& 4#32 = 0#32
  | .loopOptimise ceres => NotWorse ceres ∧ t.scans.length ≤ 2 ^ 31
  | _ => True

theorem sureCov_pose (m : PoseMsg) (h : 0 < m.covX ∧ 0 < m.covY ∧ 0 < m.covTheta) : SureCov (poseCovariance m) := by
  refine ⟨Matrix.diagonal ![m.covX, m.covY, m.covTheta], ?_, ?_⟩
  · intro i j
    by_cases e : i = j
    · subst e; simp [poseCovariance]
    · simp [poseCovariance, e, Matrix.diagonal_apply_ne _ e]
  · refine Matrix.PosDef.diagonal ?_
    intro i
    fin_cases i
    · exact h.1
    · exact h.2.1
    · exact h.2.2

/-- The pose of the scan with index `i`, in the graph or about to be put there. -/
def PoseAt (s : Sys) (i : ℕ) (q : Pose2d) : Prop :=
  (∃ sc, s.scans[i]? = some sc ∧ sc.pose = q) ∨ (i = s.scans.length ∧ ∃ sc o, s.spin = .append sc o ∧ sc.pose = q)

structure FitInv (s : Sys) : Prop where
  fits : ∀ c ∈ s.constraints, Sure c ∧ ∃ a b, PoseAt s c.begin_ a ∧ PoseAt s c.end_ b ∧ Leads c.transform a b
  made : ∀ c scan odom, s.spin = .constraint c scan odom → Sure c ∧ c.end_ = s.scans.length ∧
    ∃ sc, s.scans[c.begin_]? = some sc ∧ Leads c.transform sc.pose scan.pose
  pushing : ∀ q c, s.loop = .pushing q c → Sure c ∧ ∃ a b : Scan, s.scans[c.begin_]? = some a ∧
    s.scans[c.end_]? = some b ∧ Leads c.transform a.pose b.pose

/-- The problem of the solver is that of the first constraints. -/
def SolverInv (s : Sys) : Prop := InSync s.solver (s.constraints.take s.solver.numConstraints) s.scans

theorem samePlaces_get {a b : List Scan} (h : SamePlaces a b) {i : ℕ} {x : Scan} (hx : a[i]? = some x) :
    ∃ y, b[i]? = some y ∧ SamePlace x.pose y.pose := by
  have hi : i < b.length := by rw [h.1]; exact (List.getElem?_eq_some_iff.mp hx).1
  exact ⟨b[i], List.getElem?_eq_getElem hi, h.2 i x b[i] hx (List.getElem?_eq_getElem hi)⟩

/-- Steps that leave the executor, the constraints and the places of the scans alone. -/
theorem FitInv.keep {s t : Sys} (h : FitInv s) (hs : t.spin = s.spin) (hc : t.constraints = s.constraints)
    (hp : SamePlaces s.scans t.scans)
    (hl : ∀ q c, t.loop = .pushing q c → s.loop = .pushing q c) : FitInv t := by
  refine ⟨?_, ?_, ?_⟩
  · intro c hcm
    rw [hc] at hcm
    obtain ⟨h1, a, b, ha, hb, hL⟩ := h.fits c hcm
    have tr : ∀ i q, PoseAt s i q → ∃ q', PoseAt t i q' ∧ SamePlace q q' := by
      rintro i q (⟨sc, h1, rfl⟩ | ⟨h1, sc, o, h2, rfl⟩)
      · obtain ⟨y, hy, hyp⟩ := samePlaces_get hp h1
        exact ⟨y.pose, Or.inl ⟨y, hy, rfl⟩, hyp⟩
      · exact ⟨sc.pose, Or.inr ⟨by rw [hp.1]; exact h1, sc, o, by rw [hs]; exact h2, rfl⟩, SamePlace.refl _⟩
    obtain ⟨a', ha', pa⟩ := tr _ _ ha
    obtain ⟨b', hb', pb⟩ := tr _ _ hb
    exact ⟨h1, a', b', ha', hb', hL.move pa pb⟩
  · intro c scan odom h1
    rw [hs] at h1
    obtain ⟨h2, h3, sc, h4, h5⟩ := h.made c scan odom h1
    obtain ⟨y, hy, hyp⟩ := samePlaces_get hp h4
    exact ⟨h2, by rw [hp.1]; exact h3, y, hy, h5.move hyp (SamePlace.refl _)⟩
  · intro q c h1
    obtain ⟨h2, a, b, ha, hb, hL⟩ := h.pushing q c (hl q c h1)
    obtain ⟨a', ha', pa⟩ := samePlaces_get hp ha
    obtain ⟨b', hb', pb⟩ := samePlaces_get hp hb
    exact ⟨h2, a', b', ha', hb', hL.move pa pb⟩

theorem SamePlaces.rfl' (a : List Scan) : SamePlaces a a :=
  ⟨rfl, fun i x y hx hy => by rw [hx] at hy; cases hy; exact SamePlace.refl _⟩

/-- Steps of the executor between idle and putting a scan in. -/
theorem FitInv.move {s t : Sys} (h : FitInv s) (hs : ∀ sc o, s.spin ≠ .append sc o)
    (ht : ∀ c sc o, t.spin ≠ .constraint c sc o) (hc : t.constraints = s.constraints) (hp : t.scans = s.scans)
    (hl : t.loop = s.loop) : FitInv t := by
  refine ⟨?_, fun c scan odom h1 => absurd h1 (ht _ _ _), ?_⟩
  · intro c hcm
    rw [hc] at hcm
    obtain ⟨h1, a, b, ha, hb, hL⟩ := h.fits c hcm
    have tr : ∀ i q, PoseAt s i q → PoseAt t i q := by
      rintro i q (⟨sc, h1, rfl⟩ | ⟨h1, sc, o, h2, rfl⟩)
      · exact Or.inl ⟨sc, by rw [hp]; exact h1, rfl⟩
      · exact absurd h2 (hs _ _)
    exact ⟨h1, a, b, tr _ _ ha, tr _ _ hb, hL⟩
  · intro q c h1
    rw [hl] at h1
    rw [hp]
    exact h.pushing q c h1

theorem inSync_grow {v : Solver} {cs : List Constraint} {a b : List Scan} {ids : List ℕ}
    (hids : b.map (·.id) = a.map (·.id) ++ ids) (h : InSync v cs a) : InSync v cs b := by
  refine ⟨?_, h.2⟩
  rw [← h.1]
  apply List.map_congr_left
  intro c hc
  have : blockOf a c ∈ v.blocks.map some := by rw [← h.1]; exact List.mem_map.mpr ⟨c, hc, rfl⟩
  obtain ⟨blk, -, hb⟩ := List.mem_map.mp this
  rw [← hb]
  exact blockOf_ids hids hb.symm

theorem solverInv_grow {s t : Sys} (h : SolverInv s) (hv : t.solver = s.solver)
    (hc : ∃ extra, t.constraints = s.constraints ++ extra) (hi : ∃ ids, t.scans.map (·.id) = s.scans.map (·.id) ++ ids) :
    SolverInv t := by
  obtain ⟨extra, hc⟩ := hc
  obtain ⟨ids, hi⟩ := hi
  unfold SolverInv at *
  have hn : s.solver.numConstraints ≤ s.constraints.length := by
    have := h.2
    rw [List.length_take] at this
    omega
  rw [hv, hc, List.take_append_of_le_length hn]
  exact inSync_grow hi h

theorem sameButPoses_ids {a b : List Scan} (h : SameButPoses a b) : a.map (·.id) = b.map (·.id) := by
  have := congrArg (List.map Prod.fst) h
  simpa [List.map_map, Function.comp_def] using this

theorem solverInv_step {p : Params} {s s' : Sys} {e : Event} (hI : SolverInv s) (ha : Agreeable s e)
    (ht : Trans p s e s') : SolverInv s' := by
  have same : ∀ t : Sys, t.solver = s.solver → t.constraints = s.constraints → t.scans = s.scans → SolverInv t :=
    fun t h1 h2 h3 => solverInv_grow hI h1 ⟨[], by simp [h2]⟩ ⟨[], by simp [h3]⟩
  cases ht with
  | laserIgnored msg mount odom odomEnd hi =>
    obtain ⟨r, l, g, m, e, -⟩ := setup_cases p msg mount s
    rw [e]; exact same _ rfl rfl rfl
  | laserScan msg mount odom odomEnd points hi hgo hinit ht =>
    obtain ⟨r, l, g, m, e, -⟩ := setup_cases p msg mount s
    rw [e]; exact same _ rfl rfl rfl
  | pushConstraint c scan odom hi => exact solverInv_grow hI rfl ⟨[c], rfl⟩ ⟨[], by simp [Sys.scans]⟩
  | pushScan scan odom hi => exact solverInv_grow hI rfl ⟨[], by simp⟩ ⟨[scan.id], by simp [Sys.scans]⟩
  | poseScan m odom visit near i rest hi he hn hf hnear hv hfind =>
    exact solverInv_grow hI rfl ⟨_, rfl⟩ ⟨[s.scans.length], by simp [Sys.scans, Scan.setPose, Scan.new]⟩
  | configureFlags action bag hi hl =>
    obtain ⟨en, ini, e, -⟩ := configureMapping_frame action s
    rw [e]; exact same _ rfl rfl rfl
  | load action bag g hi hl hg => exact absurd ha hl
  | loopReject score correction cov q cand hi hs =>
    obtain ⟨n, l, e⟩ := afterAttempt_frame q s
    rw [e]; exact same _ rfl rfl rfl
  | loopAccept score correction cov q cand scan candidate hi hf hs h1 h2 =>
    refine solverInv_grow hI rfl ⟨[], by simp⟩ ⟨[], ?_⟩
    rw [List.append_nil]
    exact sameButPoses_ids (setPoseAt_same s.heap q.scan _ s.epoch)
  | loopPush q c hi =>
    obtain ⟨n, l, e⟩ := afterAttempt_frame q { s with constraints := s.constraints ++ [c], update := true }
    rw [e]; exact solverInv_grow hI rfl ⟨[c], rfl⟩ ⟨[], by simp [Sys.scans]⟩
  | loopOptimise ceres b solver scans hi ho =>
    have hids := sameButPoses_ids (optimize_same ho)
    by_cases hne : s.scans = []
    · rw [hne] at ho hids
      unfold optimize at ho
      simp only at ho
      injection ho with ho
      obtain ⟨-, rfl, rfl⟩ := Prod.mk.inj ho |>.imp id Prod.mk.inj
      exact same _ rfl rfl (by simp only [Sys.scans] at hne ⊢; simp [hne])
    · have hsplit : s.constraints = s.constraints.take s.solver.numConstraints ++ s.constraints.drop s.solver.numConstraints :=
        (List.take_append_drop _ _).symm
      rw [hsplit] at ho
      have h2 := inSync_optimize ceres (ids := []) hne (by simp) hI ho
      rw [← hsplit] at h2
      have h3 : InSync solver s.constraints scans := inSync_grow (ids := []) (by rw [hids]; simp) h2
      unfold SolverInv
      show InSync solver (s.constraints.take solver.numConstraints) (if s.epoch = s.epoch then scans else _)
      rw [if_pos rfl, h3.2, List.take_length]
      exact h3
  | pubTf hi =>
    obtain ⟨x, e⟩ := pubTf_frame s
    rw [e]; exact same _ rfl rfl rfl
  | _ => exact same _ rfl rfl rfl

/-- After a successful optimisation all constraints join scans of the graph. -/
theorem optimize_ends {ceres : Solver → Outcome} {v v' : Solver} {cs : List Constraint} {scans scans' : List Scan} {r : Bool}
    (hne : scans ≠ []) (hs : InSync v (cs.take v.numConstraints) scans) (h : v.optimize ceres cs scans = .ok (r, v', scans')) :
    ∀ c ∈ cs, c.begin_ < scans.length ∧ c.end_ < scans.length := by
  have hsplit : cs = cs.take v.numConstraints ++ cs.drop v.numConstraints := (List.take_append_drop _ _).symm
  rw [hsplit] at h
  have h2 := inSync_optimize ceres (ids := []) hne (by simp) hs h
  rw [← hsplit] at h2
  intro c hc
  obtain ⟨a, b, ha, hb, -⟩ := (block_of h2.1).1 c hc
  exact ⟨(List.getElem?_eq_some_iff.mp ha).1, (List.getElem?_eq_some_iff.mp hb).1⟩

theorem keys_nodup {scans : List Scan} (h : IdsAreIndices scans) (hl : scans.length ≤ 2 ^ 31) : (scans.map key).Nodup := by
  refine c37_distinct_ids_distinct_keys scans ?_ ?_
  · rw [List.nodup_iff_getElem?_ne_getElem?]
    intro i j hij hj
    rw [List.length_map] at hj
    rw [List.getElem?_map, List.getElem?_map, List.getElem?_eq_getElem (by omega), List.getElem?_eq_getElem hj]
    simp only [Option.map_some, ne_eq, Option.some.injEq]
    rw [h i _ (List.getElem?_eq_getElem (by omega)), h j _ (List.getElem?_eq_getElem hj)]
    omega
  · intro x hx
    obtain ⟨i, hi⟩ := List.getElem?_of_mem hx
    rw [h i x hi]
    have := (List.getElem?_eq_some_iff.mp hi).1
    omega

theorem poseAt_grow {s t : Sys} (hs : ∀ sc o, s.spin ≠ .append sc o) (hp : s.scans <+: t.scans) {i : ℕ} {q : Pose2d}
    (h : PoseAt s i q) : PoseAt t i q := by
  rcases h with ⟨sc, h1, rfl⟩ | ⟨h1, sc, o, h2, rfl⟩
  · refine Or.inl ⟨sc, ?_, rfl⟩
    obtain ⟨l, hl⟩ := hp
    rw [← hl, List.getElem?_append_left (List.getElem?_eq_some_iff.mp h1).1]
    exact h1
  · exact absurd h2 (hs _ _)

theorem prefix_get {a b : List Scan} (hp : a <+: b) {i : ℕ} {x : Scan} (h : a[i]? = some x) : b[i]? = some x := by
  obtain ⟨l, hl⟩ := hp
  rw [← hl, List.getElem?_append_left (List.getElem?_eq_some_iff.mp h).1]
  exact h

theorem samePlaces_set (heap : ℕ → List Scan) (a : Ptr) (scan : Scan) (h : (heap a.epoch)[a.idx]? = some scan) (e : ℕ) :
    SamePlaces (heap e) (setPoseAt heap a (addCorrection Pose2d.zero scan.getPose) e) := by
  refine ⟨(setPoseAt_same heap a _ e).length, fun i x y hx hy => ?_⟩
  unfold setPoseAt at hy
  split_ifs at hy with he
  · subst he
    rw [List.getElem?_modify, hx] at hy
    by_cases hi : a.idx = i
    · rw [hi, hx] at h
      cases h
      simp only [hi, if_true, Option.map_eq_map, Option.map_some, Option.some.injEq] at hy
      rw [← hy]
      have : (scan.setPose (addCorrection Pose2d.zero scan.getPose)).pose = scan.pose := by
        simp [Scan.setPose, addCorrection, Pose2d.zero, Scan.getPose]
      rw [this]
      exact SamePlace.refl _
    · simp only [hi, if_false, Option.map_eq_map, Option.map_some, Option.some.injEq, id] at hy
      rw [← hy]
      exact SamePlace.refl _
  · rw [hx] at hy
    cases hy
    exact SamePlace.refl _

theorem optimise_fits {s : Sys} (hG : GraphInv s) (hL : LinkInv s) (hV : SolverInv s) (hI : FitInv s)
    {ceres : Solver → Outcome} (ha : NotWorse ceres ∧ s.scans.length ≤ 2 ^ 31) {b : Bool} {solver : Solver} {scans : List Scan}
    (ho : s.solver.optimize ceres s.constraints s.scans = .ok (b, solver, scans)) : SamePlaces s.scans scans := by
  by_cases hne : s.scans = []
  · have := (optimize_same ho).length
    rw [hne] at this ⊢
    rw [List.length_eq_zero_iff.mp this]
    exact SamePlaces.rfl' _
  · have hends := optimize_ends hne hV ho
    refine optimize_places ha.1 (keys_nodup (hG.ids s.epoch) ha.2) hV (fun c hc => (hI.fits c hc).1) ?_ hL.linked ho
    intro c hc
    obtain ⟨-, x, y, hx, hy, hl⟩ := hI.fits c hc
    obtain ⟨b1, b2⟩ := hends c hc
    rcases hx with ⟨sc, hx, rfl⟩ | ⟨hx, -⟩
    · rcases hy with ⟨sd, hy, rfl⟩ | ⟨hy, -⟩
      · exact ⟨sc, sd, hx, hy, hl⟩
      · omega
    · omega

theorem fitInv_step {p : Params} {s s' : Sys} {e : Event} (hG : GraphInv s) (hE : EndsInv s) (hL : LinkInv s)
    (hV : SolverInv s) (hI : FitInv s) (ha : Agreeable s e) (ht : Trans p s e s') : FitInv s' := by
  have loop : ∀ t : Sys, t.spin = s.spin → t.constraints = s.constraints → t.scans = s.scans →
      (∀ q c, t.loop = .pushing q c → s.loop = .pushing q c) → FitInv t :=
    fun t h1 h2 h3 h4 => hI.keep h1 h2 (by rw [h3]; exact SamePlaces.rfl' _) h4
  have spin : ∀ t : Sys, (∀ sc o, s.spin ≠ .append sc o) → (∀ c sc o, t.spin ≠ .constraint c sc o) →
      t.constraints = s.constraints → t.scans = s.scans → t.loop = s.loop → FitInv t := fun t => hI.move
  cases ht with
  | laserIgnored msg mount odom odomEnd hi =>
    obtain ⟨r, l, g, m, e, -⟩ := setup_cases p msg mount s
    rw [e]; exact loop _ rfl rfl rfl fun _ _ h => h
  | laserScan msg mount odom odomEnd points hi hgo hinit ht =>
    obtain ⟨r, l, g, m, e, -⟩ := setup_cases p msg mount s
    rw [e]
    refine spin _ (by rw [hi]; intro a o h; cases h) ?_ rfl rfl rfl
    intro c sc o h
    simp only [branch] at h
    split_ifs at h
  | filtered mean scan odom hi =>
    exact spin _ (by rw [hi]; intro a o h; cases h) (by intro c a o h; cases h) rfl rfl rfl
  | addWindow scan odom w hi hl hw =>
    exact spin _ (by rw [hi]; intro a o h; cases h) (by intro c a o h; cases h) rfl rfl rfl
  | globalMatched correction scan odom hi =>
    exact spin _ (by rw [hi]; intro a o h; cases h) (by intro c a o h; cases h) rfl rfl rfl
  | finishScan robot odom hi =>
    exact spin _ (by rw [hi]; intro a o h; cases h) (by intro c a o h; cases h) rfl rfl rfl
  | announce a odom scan hi hs =>
    exact spin _ (by rw [hi]; intro a o h; cases h) (by intro c a o h; cases h) rfl rfl rfl
  | poseKept m odom visit hi he =>
    exact spin _ (by rw [hi]; intro a o h; cases h) (by intro c a o h; cases h) rfl rfl rfl
  | setRobot robot odom hi =>
    exact spin _ (by rw [hi]; intro a o h; cases h) (by intro c a o h; cases h) rfl rfl rfl
  | setOdom odom hi =>
    exact spin _ (by rw [hi]; intro a o h; cases h) (by intro c a o h; cases h) rfl rfl rfl
  | localMatched score correction cov scan back odom hi hb =>
    have hns : ∀ sc o, s.spin ≠ .append sc o := by rw [hi]; intro a o h; cases h
    refine ⟨?_, ?_, hI.pushing⟩
    · intro c hc
      obtain ⟨h1, a, b, ha', hb', hl⟩ := hI.fits c hc
      exact ⟨h1, a, b, poseAt_grow hns (by exact List.prefix_refl _) ha', poseAt_grow hns (by exact List.prefix_refl _) hb', hl⟩
    · intro c sc o h
      simp only [Spin.constraint.injEq] at h
      obtain ⟨rfl, rfl, -⟩ := h
      have hlast : s.scans[s.scans.length - 1]? = some back := by rw [← List.getLast?_eq_getElem?]; exact hb
      refine ⟨sure_make _ _ ha, ?_, back, ?_, leads_fresh _ _ _⟩
      · show scan.id = s.scans.length
        exact hG.pend scan (by rw [hi]; rfl)
      · show s.scans[back.id]? = some back
        rw [hG.ids s.epoch _ _ hlast]
        exact hlast
  | pushConstraint c scan odom hi =>
    have hns : ∀ sc o, s.spin ≠ .append sc o := by rw [hi]; intro a o h; cases h
    refine ⟨?_, fun c sc o h => (by cases h), hI.pushing⟩
    intro d hd
    rcases List.mem_append.mp hd with hd | hd
    · obtain ⟨h1, a, b, ha', hb', hl⟩ := hI.fits d hd
      exact ⟨h1, a, b, poseAt_grow hns (by exact List.prefix_refl _) ha', poseAt_grow hns (by exact List.prefix_refl _) hb', hl⟩
    · rw [List.mem_singleton] at hd
      subst hd
      obtain ⟨h1, h2, sc, h3, h4⟩ := hI.made d scan odom hi
      exact ⟨h1, sc.pose, scan.pose, Or.inl ⟨sc, h3, rfl⟩, Or.inr ⟨h2, scan, odom, rfl, rfl⟩, h4⟩
  | pushScan scan odom hi =>
    have hpre : s.scans <+: (s.scans ++ [scan]) := List.prefix_append _ _
    generalize ht : ({ s with
      heap := fun e => if e = s.epoch then s.scans ++ [scan] else s.heap e,
      spin := .announce ⟨s.epoch, s.scans.length⟩ odom } : Sys) = t
    have hsc : t.scans = s.scans ++ [scan] := by rw [← ht]; simp [Sys.scans]
    have hcs : t.constraints = s.constraints := by rw [← ht]
    have hlp : t.loop = s.loop := by rw [← ht]
    have hsp : t.spin = .announce ⟨s.epoch, s.scans.length⟩ odom := by rw [← ht]
    have tr : ∀ i q, PoseAt s i q → PoseAt t i q := by
      rintro i q (⟨sc, h1, rfl⟩ | ⟨rfl, sc, o, h2, rfl⟩)
      · exact Or.inl ⟨sc, by rw [hsc]; exact prefix_get hpre h1, rfl⟩
      · rw [hi] at h2
        cases h2
        exact Or.inl ⟨scan, by rw [hsc]; simp, rfl⟩
    refine ⟨?_, fun c sc o h => (by rw [hsp] at h; cases h), ?_⟩
    · intro d hd
      rw [hcs] at hd
      obtain ⟨h1, a, b, ha', hb', hl⟩ := hI.fits d hd
      exact ⟨h1, a, b, tr _ _ ha', tr _ _ hb', hl⟩
    · intro q c h
      rw [hlp] at h
      obtain ⟨h1, a, b, ha', hb', hl⟩ := hI.pushing q c h
      exact ⟨h1, a, b, by rw [hsc]; exact prefix_get hpre ha', by rw [hsc]; exact prefix_get hpre hb', hl⟩
  | poseScan m odom visit near i rest hi he hn hf hnear hv hfind =>
    have hns : ∀ sc o, s.spin ≠ .append sc o := by rw [hi]; intro a o h; cases h
    have hpre : s.scans <+: (s.scans ++ [(Scan.new s.scans.length).setPose m.pose]) := List.prefix_append _ _
    generalize ht : ({ s with
      heap := fun e => if e = s.epoch then s.scans ++ [(Scan.new s.scans.length).setPose m.pose] else s.heap e,
      constraints := s.constraints ++ [makeConstraint near ((Scan.new s.scans.length).setPose m.pose) (poseCovariance m)],
      spin := .poseRobot m.pose odom } : Sys) = t
    have hsc : t.scans = s.scans ++ [(Scan.new s.scans.length).setPose m.pose] := by rw [← ht]; simp [Sys.scans]
    have hcs : t.constraints = s.constraints ++
      [makeConstraint near ((Scan.new s.scans.length).setPose m.pose) (poseCovariance m)] := by rw [← ht]
    have hlp : t.loop = s.loop := by rw [← ht]
    have hsp : t.spin = .poseRobot m.pose odom := by rw [← ht]
    refine ⟨?_, fun c sc o h => (by rw [hsp] at h; cases h), ?_⟩
    · intro d hd
      rw [hcs] at hd
      rcases List.mem_append.mp hd with hd | hd
      · obtain ⟨h1, a, b, ha', hb', hl⟩ := hI.fits d hd
        exact ⟨h1, a, b, poseAt_grow hns (by rw [hsc]; exact hpre) ha', poseAt_grow hns (by rw [hsc]; exact hpre) hb', hl⟩
      · rw [List.mem_singleton] at hd
        subst hd
        refine ⟨sure_make _ _ (sureCov_pose m ha), near.pose, ((Scan.new s.scans.length).setPose m.pose).pose,
          Or.inl ⟨near, ?_, rfl⟩, Or.inl ⟨_, ?_, rfl⟩, leads_fresh _ _ _⟩
        · rw [hsc]
          apply prefix_get hpre
          show s.scans[near.id]? = some near
          rw [hG.ids s.epoch _ _ hnear]
          exact hnear
        · rw [hsc]
          show (s.scans ++ [(Scan.new s.scans.length).setPose m.pose])[s.scans.length]? = _
          simp
    · intro q c h
      rw [hlp] at h
      obtain ⟨h1, a, b, ha', hb', hl⟩ := hI.pushing q c h
      exact ⟨h1, a, b, by rw [hsc]; exact prefix_get hpre ha', by rw [hsc]; exact prefix_get hpre hb', hl⟩
  | configureFlags action bag hi hl =>
    obtain ⟨en, ini, e, -⟩ := configureMapping_frame action s
    rw [e]; exact loop _ rfl rfl rfl fun _ _ h => h
  | load action bag g hi hl hg => exact absurd ha hl
  | loopNext q hi hr => exact loop _ rfl rfl rfl fun _ _ h => by simp [nextScan] at h
  | loopReject score correction cov q cand hi hs =>
    rcases afterAttempt_cases q s with ⟨-, e⟩ | ⟨-, e⟩
    · rw [e]; exact loop _ rfl rfl rfl fun _ _ h => by simp [nextScan] at h
    · rw [e]; exact loop _ rfl rfl rfl fun _ _ h => by cases h
  | loopAccept score correction cov q cand scan candidate hi hf hs h1 h2 =>
    obtain ⟨hcov, rfl⟩ := ha
    obtain ⟨e1, e2⟩ := hE.matching q cand hi
    have hsp := samePlaces_set s.heap q.scan scan h1 s.epoch
    rw [e1] at h1
    rw [e2] at h2
    have hk := hI.keep (t := { s with heap := setPoseAt s.heap q.scan (addCorrection Pose2d.zero scan.getPose), loop := .asleep })
      rfl rfl hsp (fun _ _ h => by cases h)
    refine ⟨hk.fits, hk.made, ?_⟩
    intro q' c h
    simp only [Loop.pushing.injEq] at h
    obtain ⟨-, rfl⟩ := h
    obtain ⟨a, ha', pa⟩ := samePlaces_get hsp h2
    obtain ⟨b, hb', pb⟩ := samePlaces_get hsp h1
    refine ⟨sure_make candidate (scan.setPose (addCorrection Pose2d.zero scan.getPose)) hcov, a, b, ?_, ?_, ?_⟩
    · show (setPoseAt s.heap q.scan _ s.epoch)[candidate.id]? = some a
      rw [hG.ids s.epoch _ _ h2]
      exact ha'
    · show (setPoseAt s.heap q.scan _ s.epoch)[scan.id]? = some b
      rw [hG.ids s.epoch _ _ h1]
      exact hb'
    · have hz : (scan.setPose (addCorrection Pose2d.zero scan.getPose)).pose = scan.pose := by
        simp [Scan.setPose, addCorrection, Pose2d.zero, Scan.getPose]
      have := leads_fresh candidate (scan.setPose (addCorrection Pose2d.zero scan.getPose)) cov
      rw [hz] at this
      exact this.move pa pb
  | loopPush q c hi =>
    obtain ⟨h1, a, b, ha', hb', hl⟩ := hI.pushing q c hi
    have hfit : ∀ d ∈ s.constraints ++ [c], Sure d ∧ ∃ a b, PoseAt s d.begin_ a ∧ PoseAt s d.end_ b ∧
        Leads d.transform a b := by
      intro d hd
      rcases List.mem_append.mp hd with hd | hd
      · exact hI.fits d hd
      · rw [List.mem_singleton] at hd
        subst hd
        exact ⟨h1, a.pose, b.pose, Or.inl ⟨a, ha', rfl⟩, Or.inl ⟨b, hb', rfl⟩, hl⟩
    rcases afterAttempt_cases q { s with constraints := s.constraints ++ [c], update := true } with ⟨-, e⟩ | ⟨-, e⟩
    · rw [e]; exact ⟨hfit, hI.made, fun _ _ h => by simp [nextScan] at h⟩
    · rw [e]; exact ⟨hfit, hI.made, fun _ _ h => by cases h⟩
  | loopOptimise ceres b solver scans hi ho =>
    refine hI.keep rfl rfl ?_ (fun _ _ h => by cases h)
    show SamePlaces s.scans (if s.epoch = s.epoch then scans else _)
    rw [if_pos rfl]
    exact optimise_fits hG hL hV hI ha ho
  | pubTf hi =>
    obtain ⟨x, e⟩ := pubTf_frame s
    rw [e]; exact loop _ rfl rfl rfl fun _ _ h => h
  | loopWake hi he => exact loop _ rfl rfl rfl fun _ _ h => by cases h
  | loopShort hi hn => exact loop _ rfl rfl rfl fun _ _ h => by cases h
  | loopCount hi hn => exact loop _ rfl rfl rfl fun _ _ h => by cases h
  | loopPick visit r scan near hi hn hs hv hf => exact loop _ rfl rfl rfl fun _ _ h => by cases h
  | loopLeave visit r hi hn => exact loop _ rfl rfl rfl fun _ _ h => by cases h
  | loopSkip q i rest cand hi hr hc hp => exact loop _ rfl rfl rfl fun _ _ h => by cases h
  | loopCandidate q i rest cand hi hr hc hg => exact loop _ rfl rfl rfl fun _ _ h => by cases h
  | loopDecide r hi => exact loop _ rfl rfl rfl fun _ _ h => by simp only at h; split_ifs at h
  | _ => exact loop _ rfl rfl rfl fun _ _ h => h

end

end Ndt
