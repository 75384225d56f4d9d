import Verif.Spec.Progress
import Verif.Proof.NodeInv
import Verif.Props.LoadProps
import Verif.Props.EndsProps
import Verif.Props.NodeProps

/-! # Helper lemmas: what keeps the work of a mapping node defined -/

namespace Ndt

open Spec Mapper

noncomputable section

/-! ### The mapper -/

/-- Constraints point forward. -/
def OrderInv (s : Sys) : Prop := ∀ c ∈ s.constraints, c.begin_ < c.end_

theorem order_snoc {cs : List Constraint} {c : Constraint} (h : ∀ c ∈ cs, c.begin_ < c.end_) (hc : c.begin_ < c.end_) :
    ∀ d ∈ cs ++ [c], d.begin_ < d.end_ := by
  intro d hd
  rcases List.mem_append.mp hd with hd | hd
  · exact h d hd
  · rw [List.mem_singleton] at hd; rw [hd]; exact hc

theorem orderInv_step {p : Params} {s s' : Sys} {e : Event} (hG : GraphInv s) (hE : EndsInv s) (hL : LoopInv p s)
    (hI : OrderInv s) (hl : ¬ Loads e) (ht : Trans p s e s') : OrderInv s' := by
  cases ht with
  | laserIgnored msg mount odom odomEnd hi =>
    obtain ⟨r, l, g, m, e, -⟩ := setup_cases p msg mount s
    rw [e]; exact hI
  | laserScan msg mount odom odomEnd points hi hgo hinit ht =>
    obtain ⟨r, l, g, m, e, -⟩ := setup_cases p msg mount s
    rw [e]; exact hI
  | configureFlags action bag hi hl =>
    obtain ⟨en, ini, e, -⟩ := configureMapping_frame action s
    rw [e]; exact hI
  | load action bag g hi hl' hg => exact absurd ⟨action, bag, rfl, hl'⟩ hl
  | pubTf hi =>
    obtain ⟨x, e⟩ := pubTf_frame s
    rw [e]; exact hI
  | loopReject score correction cov q cand hi hs =>
    obtain ⟨n, l, e⟩ := afterAttempt_frame q s
    rw [e]; exact hI
  | loopPush q c hi =>
    obtain ⟨n, l, e⟩ := afterAttempt_frame q { s with constraints := s.constraints ++ [c], update := true }
    rw [e]
    have := (hL.pushing q c hi).2.2
    exact order_snoc hI (by omega)
  | pushConstraint c scan odom hi =>
    obtain ⟨h1, h2⟩ := hE.made c scan odom hi
    exact order_snoc hI (by omega)
  | poseScan m odom visit near i rest hi he hn hf hnear hv hfind =>
    refine order_snoc hI ?_
    show near.id < s.scans.length
    rw [hG.ids s.epoch i near hnear]
    exact (List.getElem?_eq_some_iff.mp hnear).1
  | _ => exact hI

/-- The first scan is part of the problem once there was one. -/
def ProblemInv (s : Sys) : Prop := s.solver.numConstraints = 0 ∨ s.solver.inProblem 0

theorem optimize_inProblem {ceres : Solver → Solver.Outcome} {s s' : Solver} {cs : List Constraint}
    {scans scans' : List Scan} {b : Bool} (hid : IdsAreIndices scans) (h0 : s.numConstraints = 0 ∨ s.inProblem 0)
    (h : s.optimize ceres cs scans = .ok (b, s', scans')) : s'.numConstraints = 0 ∨ s'.inProblem 0 := by
  unfold Solver.optimize at h
  split at h
  · cases h; exact h0
  · rename_i first rest
    obtain ⟨s1, h1, h⟩ := bind_ok h
    obtain ⟨bs, -, -, -, -, -, hin⟩ := Solver.prepare_ok h1
    have hk : Solver.key first = 0 := by
      unfold Solver.key Scan.getId
      rw [hid 0 first rfl]; rfl
    rw [hk] at hin
    right
    simp only at h
    split at h <;> cases h <;> exact hin

theorem problemInv_step {p : Params} {s s' : Sys} {e : Event} (hG : GraphInv s) (hI : ProblemInv s)
    (ht : Trans p s e s') : ProblemInv s' := by
  cases ht with
  | laserIgnored msg mount odom odomEnd hi =>
    obtain ⟨r, l, g, m, e, -⟩ := setup_cases p msg mount s
    rw [e]; exact hI
  | laserScan msg mount odom odomEnd points hi hgo hinit ht =>
    obtain ⟨r, l, g, m, e, -⟩ := setup_cases p msg mount s
    rw [e]; exact hI
  | configureFlags action bag hi hl =>
    obtain ⟨en, ini, e, -⟩ := configureMapping_frame action s
    rw [e]; exact hI
  | load action bag g hi hl' hg =>
    obtain ⟨en, ini, e, -⟩ := configureMapping_frame action s
    rw [e]; exact hI
  | pubTf hi =>
    obtain ⟨x, e⟩ := pubTf_frame s
    rw [e]; exact hI
  | loopReject score correction cov q cand hi hs =>
    obtain ⟨n, l, e⟩ := afterAttempt_frame q s
    rw [e]; exact hI
  | loopPush q c hi =>
    obtain ⟨n, l, e⟩ := afterAttempt_frame q { s with constraints := s.constraints ++ [c], update := true }
    rw [e]; exact hI
  | loopOptimise ceres b solver scans hi ho => exact optimize_inProblem (hG.ids s.epoch) hI ho
  | _ => exact hI

/-- The loop closure thread is in a round only if there are more scans than in the window. -/
def LongInv (p : Params) (s : Sys) : Prop := s.loop ≠ .asleep → s.loop ≠ .counting → p.rollingDepth < s.scans.length

theorem longInv_step {p : Params} {s s' : Sys} {e : Event} (hI : LongInv p s) (hl : ¬ Loads e) (ht : Trans p s e s') :
    LongInv p s' := by
  have hgrow := scans_grow hl ht
  intro h1 h2
  suffices h : p.rollingDepth < s.scans.length from lt_of_lt_of_le h hgrow
  cases ht with
  | laserIgnored msg mount odom odomEnd hi =>
    obtain ⟨r, l, g, m, e, -⟩ := setup_cases p msg mount s
    rw [e] at h1 h2; exact hI h1 h2
  | laserScan msg mount odom odomEnd points hi hgo hinit ht =>
    obtain ⟨r, l, g, m, e, -⟩ := setup_cases p msg mount s
    rw [e] at h1 h2; exact hI h1 h2
  | configureFlags action bag hi hl =>
    obtain ⟨en, ini, e, -⟩ := configureMapping_frame action s
    rw [e] at h1 h2; exact hI h1 h2
  | load action bag g hi hl' hg => exact absurd ⟨action, bag, rfl, hl'⟩ hl
  | pubTf hi =>
    obtain ⟨x, e⟩ := pubTf_frame s
    rw [e] at h1 h2; exact hI h1 h2
  | loopWake hi he => exact absurd rfl h2
  | loopShort hi hn => exact absurd rfl h1
  | loopCount hi hn => exact hn
  | loopOptimise ceres b solver scans hi ho => exact absurd rfl h1
  | loopPick visit r scan near hi => exact hI (by rw [hi]; simp) (by rw [hi]; simp)
  | loopLeave visit r hi => exact hI (by rw [hi]; simp) (by rw [hi]; simp)
  | loopNext q hi => exact hI (by rw [hi]; simp) (by rw [hi]; simp)
  | loopSkip q i rest cand hi => exact hI (by rw [hi]; simp) (by rw [hi]; simp)
  | loopCandidate q i rest cand hi => exact hI (by rw [hi]; simp) (by rw [hi]; simp)
  | loopAccept score correction cov q cand scan candidate hi => exact hI (by rw [hi]; simp) (by rw [hi]; simp)
  | loopReject score correction cov q cand hi => exact hI (by rw [hi]; simp) (by rw [hi]; simp)
  | loopPush q c hi => exact hI (by rw [hi]; simp) (by rw [hi]; simp)
  | loopDecide r hi => exact hI (by rw [hi]; simp) (by rw [hi]; simp)
  | _ => exact hI h1 h2

/-- What the executor is in the middle of makes sense. -/
structure SpinInv (s : Sys) : Prop where
  window : ∀ scan odom, s.spin = .window scan odom → s.scans ≠ []
  matching : ∀ scan odom, s.spin = .matching scan odom → s.scans ≠ []
  announce : ∀ a odom, s.spin = .announce a odom → PtrOK s a
  noFilter : ∀ scan odom, s.spin ≠ .filter scan odom

theorem spinInv_step {p : Params} {s s' : Sys} {e : Event} (hf : p.useFilter = false) (hI : SpinInv s) (hl : ¬ Loads e)
    (ht : Trans p s e s') : SpinInv s' := by
  have hgrow := scans_grow hl ht
  have hne : s.scans ≠ [] → s'.scans ≠ [] := by
    intro h h'
    rw [h', List.length_nil, Nat.le_zero, List.length_eq_zero_iff] at hgrow
    exact h hgrow
  have hptr : ∀ a, PtrOK s a → PtrOK s' a := fun a h => ptrOK_step h ht
  have keep : s'.spin = s.spin → SpinInv s' := fun h =>
    ⟨fun a b c => hne (hI.window a b (h ▸ c)), fun a b c => hne (hI.matching a b (h ▸ c)),
      fun a b c => hptr a (hI.announce a b (h ▸ c)), fun a b c => hI.noFilter a b (h ▸ c)⟩
  cases ht with
  | laserIgnored msg mount odom odomEnd hi =>
    obtain ⟨r, l, g, m, e, -⟩ := setup_cases p msg mount s
    exact keep (by rw [e])
  | laserScan msg mount odom odomEnd points hi hgo hinit ht =>
    obtain ⟨r, l, g, m, e, -⟩ := setup_cases p msg mount s
    rw [e] at hne ⊢
    refine ⟨fun a b c => ?_, fun a b c => ?_, fun a b c => ?_, fun a b c => ?_⟩ <;>
      (simp only [branch, hf, Bool.false_eq_true, if_false] at c; split_ifs at c)
    exact hne (by assumption)
  | configureFlags action bag hi hl =>
    obtain ⟨en, ini, e, -⟩ := configureMapping_frame action s
    exact keep (by rw [e])
  | load action bag g hi hl' hg => exact absurd ⟨action, bag, rfl, hl'⟩ hl
  | pubTf hi =>
    obtain ⟨x, e⟩ := pubTf_frame s
    exact keep (by rw [e])
  | loopReject score correction cov q cand hi hs =>
    obtain ⟨n, l, e⟩ := afterAttempt_frame q s
    exact keep (by rw [e])
  | loopPush q c hi =>
    obtain ⟨n, l, e⟩ := afterAttempt_frame q { s with constraints := s.constraints ++ [c], update := true }
    exact keep (by rw [e])
  | addWindow scan odom w hi hl hw =>
    exact ⟨fun _ _ h => by (cases h), fun _ _ _ => hI.window scan odom hi, fun _ _ h => by (cases h), fun _ _ h => by (cases h)⟩
  | pushScan scan odom hi =>
    refine ⟨fun _ _ h => by (cases h), fun _ _ h => by (cases h), fun a b h => ?_, fun _ _ h => by (cases h)⟩
    cases h
    exact ⟨le_refl _, by simp⟩
  | _ => first
    | exact keep rfl
    | exact ⟨fun _ _ h => by (cases h), fun _ _ h => by (cases h), fun _ _ h => by (cases h), fun _ _ h => by (cases h)⟩

/-! ### The maps of the matchers -/

/-- The map lies within the bounds. -/
structure GridIn (b : Bounds) (res : ℝ) (g : NdtGrid) : Prop where
  wf : g.WF
  cell : g.cellSize = res
  ox : -(b.place + b.range) ≤ g.originX
  oy : -(b.place + b.range) ≤ g.originY

theorem likelihood_near {g : NdtGrid} (hw : g.WF) {p : Point} (hn : Near g.originX g.originY g.cellSize p) :
    ∃ v, g.likelihood p = .ok v := by
  unfold NdtGrid.likelihood
  by_cases h : InExtents g.originX g.originY g.cellSize g.sizeX g.sizeY p
  · obtain ⟨x, y, -, hx, hy, e⟩ := NdtGrid.getIndex_inside hw hn h
    rw [e]
    have hlt : y * g.sizeX + x < g.cells.length := by rw [hw.len]; exact index_lt hx hy
    simp only [Res.ok_bind]
    rw [if_pos (by positivity), Int.toNat_natCast, List.getElem?_eq_getElem hlt]
    exact ⟨_, rfl⟩
  · rw [NdtGrid.getIndex_outside hw.cellPos hn h]
    exact ⟨.fin 0, rfl⟩

theorem likelihoodPoints_near {g : NdtGrid} (hw : g.WF) (ps : List Point)
    (hn : ∀ p ∈ ps, Near g.originX g.originY g.cellSize p) : ∃ v, g.likelihoodPoints ps = .ok v := by
  unfold NdtGrid.likelihoodPoints
  generalize (Fl.fin 0) = a
  induction ps generalizing a with
  | nil => exact ⟨a, rfl⟩
  | cons p ps ih =>
    obtain ⟨v, hv⟩ := likelihood_near hw (hn p (by simp))
    rw [List.foldlM_cons, hv]
    exact ih (fun q hq => hn q (by simp [hq])) (a + v)

theorem bbox_within (r : ℝ) (scans : List Scan) (b0 : BBox) (B : ℝ)
    (h1 : -B ≤ b0.minX) (h2 : b0.maxX ≤ B) (h3 : -B ≤ b0.minY) (h4 : b0.maxY ≤ B)
    (hs : ∀ s ∈ scans, -B ≤ s.pose.x - r ∧ s.pose.x + r ≤ B ∧ -B ≤ s.pose.y - r ∧ s.pose.y + r ≤ B) :
    let r' := scans.foldl (fun b s =>
      ({ minX := min (s.getPose.x - r) b.minX, maxX := max (s.getPose.x + r) b.maxX,
         minY := min (s.getPose.y - r) b.minY, maxY := max (s.getPose.y + r) b.maxY } : BBox)) b0;
    -B ≤ r'.minX ∧ r'.maxX ≤ B ∧ -B ≤ r'.minY ∧ r'.maxY ≤ B := by
  induction scans generalizing b0 with
  | nil => exact ⟨h1, h2, h3, h4⟩
  | cons s ss ih =>
    obtain ⟨a1, a2, a3, a4⟩ := hs s (by simp)
    exact ih _ (le_min a1 h1) (max_le a2 h2) (le_min a3 h3) (max_le a4 h4) fun t ht => hs t (by simp [ht])

theorem rotate_le {R : ℝ} (hR : 0 ≤ R) {q : Point} (hq : q.x ^ 2 + q.y ^ 2 ≤ R ^ 2) (a b : ℝ) (hab : a ^ 2 + b ^ 2 = 1) :
    |a * q.x + b * q.y| ≤ R := by
  apply abs_le_of_sq_le_sq _ hR
  nlinarith [sq_nonneg (a * q.y - b * q.x), mul_comm a b]

theorem GridIn.near {b : Bounds} {res : ℝ} {g : NdtGrid} (h : GridIn b res g) {L : ℝ} (hR : 0 ≤ b.reach)
    (hL : 2 * b.place + b.range + b.reach + L < 2 ^ 32 * res) {pose : Pose2d} (hx : pose.x ≤ b.place + L)
    (hy : pose.y ≤ b.place + L) {q : Point} (hq : q.x ^ 2 + q.y ^ 2 ≤ b.reach ^ 2) :
    Near g.originX g.originY g.cellSize (move pose q) := by
  have d1 := (abs_le.mp (rotate_le hR hq (Real.cos pose.theta) (-Real.sin pose.theta)
    (by rw [neg_sq]; exact Real.cos_sq_add_sin_sq _))).2
  have d2 := (abs_le.mp (rotate_le hR hq (Real.sin pose.theta) (Real.cos pose.theta) (Real.sin_sq_add_cos_sq _))).2
  have o1 := h.ox
  have o2 := h.oy
  unfold Near
  rw [h.cell]
  constructor
  · simp only [move]; linarith
  · simp only [move]; linarith

theorem mem_samples {ps : List Point} {m : ℕ} {q : Point} (h : q ∈ samples ps m) : q ∈ ps := by
  unfold samples at h
  obtain ⟨i, -, hi⟩ := List.mem_filterMap.mp h
  exact List.mem_of_getElem? hi

theorem cols_le {s c : ℝ} (hc : 0 < c) (hs : 0 ≤ s) : (cols s c : ℝ) ≤ s / c + 1 := by
  unfold cols
  have h0 : 0 ≤ s / c := div_nonneg hs hc.le
  have h1 : 0 ≤ ⌊s / c⌋ := Int.floor_nonneg.mpr h0
  have h2 : ((⌊s / c⌋.toNat : ℕ) : ℝ) = (⌊s / c⌋ : ℝ) := by exact_mod_cast Int.toNat_of_nonneg h1
  push_cast
  rw [h2]
  linarith [Int.floor_le (s / c)]

theorem mem_mapPoints {scans : List Scan} {p : Point} (h : p ∈ mapPoints (scans.map .addScan ++ [.compute])) :
    ∃ s ∈ scans, ∃ q ∈ s.points, p = move s.pose q := by
  induction scans with
  | nil => simp [mapPoints] at h
  | cons a l ih =>
    simp only [List.map_cons, List.cons_append, mapPoints, List.mem_append, List.mem_map] at h
    rcases h with ⟨q, hq, rfl⟩ | h
    · exact ⟨a, by simp, q, hq, rfl⟩
    · obtain ⟨s, hs, q, hq, e⟩ := ih h
      exact ⟨s, by simp [hs], q, hq, e⟩

/-- A map of scans within the bounds is built, and lies within the bounds. -/
theorem addScans_in {b : Bounds} (hb : 1 ≤ b.place) (hR : 0 ≤ b.reach) {mt : Matcher} (hf : Fits b mt)
    (h0 : 0 ≤ mt.rangeMax) (h1 : mt.rangeMax ≤ b.range) {scans : List Scan} (hne : scans ≠ [])
    (hin : ∀ s ∈ scans, ScanIn b s) :
    ∃ g, mt.addScans scans = .ok { mt with ndt := some g } ∧ GridIn b mt.resolution g := by
  set bb := Matcher.bbox mt.rangeMax scans with hbb
  have hbounds : ∀ s ∈ scans, bb.minX ≤ s.pose.x - mt.rangeMax ∧ s.pose.x + mt.rangeMax ≤ bb.maxX ∧
      bb.minY ≤ s.pose.y - mt.rangeMax ∧ s.pose.y + mt.rangeMax ≤ bb.maxY := fun s hs =>
    bbox_bounds mt.rangeMax scans { minX := dblMax, maxX := dblMin, minY := dblMax, maxY := dblMin } s hs
  have hdm := dblMin_le_one
  have hdM := dblMax_nonneg
  obtain ⟨w1, w2, w3, w4⟩ : -(b.place + b.range) ≤ bb.minX ∧ bb.maxX ≤ b.place + b.range ∧
      -(b.place + b.range) ≤ bb.minY ∧ bb.maxY ≤ b.place + b.range :=
    bbox_within mt.rangeMax scans { minX := dblMax, maxX := dblMin, minY := dblMax, maxY := dblMin } (b.place + b.range)
      (by simp only; linarith) (by simp only; linarith) (by simp only; linarith) (by simp only; linarith)
      (fun s hs => by
        obtain ⟨p1, p2, -⟩ := hin s hs
        have p1 := abs_le.mp p1
        have p2 := abs_le.mp p2
        refine ⟨?_, ?_, ?_, ?_⟩ <;> linarith [p1.1, p1.2, p2.1, p2.2])
  obtain ⟨s0, hs0⟩ := List.exists_mem_of_ne_nil _ hne
  obtain ⟨b1, b2, b3, b4⟩ := hbounds s0 hs0
  have hw : 0 ≤ bb.maxX - bb.minX := by linarith
  have hh : 0 ≤ bb.maxY - bb.minY := by linarith
  have hres := hf.res
  have hsm : cols (bb.maxX - bb.minX) mt.resolution * cols (bb.maxY - bb.minY) mt.resolution ≤ 2 ^ 31 := by
    have hc : ∀ s : ℝ, 0 ≤ s → s ≤ 2 * (b.place + b.range) →
        (cols s mt.resolution : ℝ) ≤ 2 * (b.place + b.range) / mt.resolution + 1 := by
      intro s hs hs'
      refine (cols_le hres hs).trans ?_
      have := div_le_div_of_nonneg_right hs' hres.le
      linarith
    have k1 := hc _ hw (by linarith)
    have k2 := hc _ hh (by linarith)
    have k3 := mul_le_mul k1 k2 (by positivity) (le_trans (by positivity) k1)
    have k4 := hf.cells
    rw [sq] at k4
    exact_mod_cast k3.trans k4
  obtain ⟨g0, hg0, hwf, e0, e1, e2, -, -, -⟩ := NdtGrid.new_wf (ox := bb.minX) (oy := bb.minY) hres hw hh hsm
  have hgin : GridIn b mt.resolution g0 := ⟨hwf, e0, by rw [e1]; exact w1, by rw [e2]; exact w3⟩
  obtain ⟨g, hg, hgeo, -⟩ := NdtGrid.run_spec (scans.map .addScan ++ [.compute]) hwf (by
    intro p hp
    obtain ⟨s, hs, q, hq, rfl⟩ := mem_mapPoints hp
    obtain ⟨p1, p2, -, p3⟩ := hin s hs
    have p1 := abs_le.mp p1
    have p2 := abs_le.mp p2
    have := hf.near
    have hl := abs_nonneg mt.linearSize
    exact hgin.near (L := 0) hR (by linarith) (by linarith [p1.2]) (by linarith [p2.2]) (p3 q hq))
  refine ⟨g, ?_, hgeo.wf hwf, ?_, ?_, ?_⟩
  · rw [addScans_eq]
    rw [← hbb, hg0]
    simp only [Res.ok_bind]
    rw [hg]
    rfl
  · rw [hgeo.cellSize]; exact e0
  · rw [hgeo.originX]; exact hgin.ox
  · rw [hgeo.originY]; exact hgin.oy

/-- Scoring and matching a scan within the bounds is defined. -/
theorem match_in {b : Bounds} (hR : 0 ≤ b.reach) {mt : Matcher} (hf : Fits b mt)
    (hg : ∀ g, mt.ndt = some g → GridIn b mt.resolution g) {scan : Scan} (hs : ScanIn b scan) (pose : Pose2d) (cov : Mat3F) :
    (∃ v, mt.scoreScan scan = .ok v) ∧ ∃ r, mt.matchScan scan pose cov = .ok r := by
  cases hn : mt.ndt with
  | none =>
    unfold Matcher.scoreScan Matcher.scorePoints Matcher.matchScan
    rw [hn]
    exact ⟨⟨_, rfl⟩, ⟨_, rfl⟩⟩
  | some g =>
    obtain ⟨p1, p2, p3, p4⟩ := hs
    have p1 := (abs_le.mp p1).2
    have p2 := (abs_le.mp p2).2
    have hgi := hg g hn
    have hnear := hf.near
    have hcand : ∀ o : Pose2d, o.x ≤ |mt.linearSize| → o.y ≤ |mt.linearSize| → ∃ v, g.likelihoodPoints
        ((samples scan.points (min mt.laserMaxBeams scan.points.length)).map (move (offset scan.pose o))) = .ok v := by
      intro o ho1 ho2
      refine likelihoodPoints_near hgi.wf _ fun p hp => ?_
      obtain ⟨q, hq, rfl⟩ := List.mem_map.mp hp
      refine hgi.near (L := |mt.linearSize|) hR (by linarith) ?_ ?_ (p4 q (mem_samples hq))
      · simp only [offset]; linarith
      · simp only [offset]; linarith
    have hl0 := abs_nonneg mt.linearSize
    constructor
    · unfold Matcher.scoreScan Scan.getPoints Scan.getPose
      rw [scorePoints_eq mt g hn _ p3]
      obtain ⟨v, hv⟩ := hcand ⟨0, 0, 0⟩ hl0 hl0
      rw [show offset scan.pose ⟨0, 0, 0⟩ = scan.pose by simp [offset]] at hv
      rw [hv]
      exact ⟨_, rfl⟩
    · refine c13_match_defined hn hf.linear hf.angular scan p3 pose cov fun o ho => ?_
      obtain ⟨⟨-, -, o1⟩, ⟨-, -, o2⟩, -⟩ := ho
      exact hcand o (o1.le.trans (le_abs_self _)) (o2.le.trans (le_abs_self _))

/-- Scoring points at a pose within the bounds is defined. -/
theorem score_in {b : Bounds} (hR : 0 ≤ b.reach) {mt : Matcher} (hf : Fits b mt)
    (hg : ∀ g, mt.ndt = some g → GridIn b mt.resolution g) {scan : Scan} (hs : ScanIn b scan) {pose : Pose2d}
    (hx : |pose.x| ≤ b.place) (hy : |pose.y| ≤ b.place) : ∃ v, mt.scorePoints scan.points pose = .ok v :=
  (match_in hR hf hg (scan := scan.setPose pose) ⟨hx, hy, hs.2.2.1, hs.2.2.2⟩ Pose2d.zero
    (fun _ _ => .nan)).1

end

end Ndt
