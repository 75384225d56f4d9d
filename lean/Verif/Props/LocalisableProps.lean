import Verif.Spec.Announce
import Verif.Proof.Built
import Verif.Proof.DemoLoop

/-! # C96 A robot can be localised by hand; C39 in every state of the mapper -/

namespace Ndt

noncomputable section

open Spec Mapper

/-- **C39** (in every state) The candidates the loop closure thread goes through are exactly the scans before the rolling window
that lie within the search radius of the scan, nearest first. -/
theorem c39_loop_candidates (p : Params) (W : Graph → Prop) (A : Sys → Event → Prop) (s s' : Sys) (visit : List ℕ)
    (r : Round) (q : Search) (h : Reach p W A s) (hl : s.loop = .picking r) (hd : p.rollingDepth < s.processed)
    (hb : s.processed - p.rollingDepth < 2 ^ 31) (hst : step p s (.loopPick visit) = .ok s') (hq : s'.loop = .candidates q) :
    ∃ scan, s.scans[s.processed]? = some scan ∧ q.rest.Nodup ∧
      (∀ i, i ∈ q.rest ↔ i < s.processed - p.rollingDepth ∧ ∃ x, s.scans[i]? = some x ∧
        Spec.dist (refPoint p.useBarycenter scan) (refPoint p.useBarycenter x) ^ 2 < p.searchSize) ∧
      ∀ (i j a b : ℕ) (x y : Scan), i < j → q.rest[i]? = some a → q.rest[j]? = some b → s.scans[a]? = some x →
        s.scans[b]? = some y →
        Spec.dist (refPoint p.useBarycenter scan) (refPoint p.useBarycenter x) ≤
        Spec.dist (refPoint p.useBarycenter scan) (refPoint p.useBarycenter y) := by
  have hB := (built_reach h).1 s.epoch
  have hw : wrapI32 (s.processed - p.rollingDepth : ℕ) = (s.processed - p.rollingDepth : ℕ) := wrapI32_of_lt hb
  have hpos : (0 : ℤ) < (s.processed - p.rollingDepth : ℕ) := by omega
  cases step_trans hst with
  | stutter => rw [hl] at hq; cases hq
  | loopLeave visit r' hi hn => cases hq
  | loopPick visit r' scan near hi hn hs hv hf =>
    cases hq
    rw [hw] at hv hf
    have key := c39_find_nearest_exact (s.graph p) visit scan p.searchSize _ hB (hB scan (List.mem_of_getElem? hs)) hv hf
    obtain ⟨k1, k2, k3, -⟩ := key
    rw [if_pos hpos, Int.toNat_natCast] at k2
    exact ⟨scan, hs, k1, k2, k3⟩

/-- **C96** What becomes of a pose given to a node that is not localised: it takes it exactly if it does not map, or uses the
particle filter, or the pose is near enough to a scan of the map. -/
theorem c96_localised_iff (p : Params) (W : Graph → Prop) (A : Sys → Event → Prop) (s : Sys) (m : PoseMsg) (odom : Pose2d)
    (visit : List ℕ) (h : Reach p W A s) (hi : s.spin = .idle) (hn : s.initialized = false) (hm : m.inMap = true)
    (hv : visit.Perm (List.range s.scans.length)) :
    (∃ t, run p s [.pose m (some odom) visit, .setRobot, .setOdom] = .ok t ∧ t.initialized = true ∧ t.prevRobot = m.pose ∧
      t.prevOdom = odom ∧ t.spin = .idle) ↔ p.useFilter = true ∨ s.enable = false ∨ NearMap p s m.pose := by
  have hB := (built_reach h).1 s.epoch
  have hs : step p s (.pose m (some odom) visit) = poseCallback p m (some odom) visit s := by
    unfold step
    rw [hi]
    exact if_pos hv
  have hkept : ∀ s1 : Sys, step p s (.pose m (some odom) visit) = .ok s1 → s1.spin = .poseRobot m.pose odom →
      ∃ t, run p s [.pose m (some odom) visit, .setRobot, .setOdom] = .ok t ∧ t.initialized = true ∧ t.prevRobot = m.pose ∧
        t.prevOdom = odom ∧ t.spin = .idle := by
    intro s1 e1 hs1
    refine ⟨{ s1 with prevRobot := m.pose, prevOdom := odom, initialized := true, spin := .idle }, ?_, rfl, rfl, rfl, rfl⟩
    rw [run_cons, e1, Res.ok_bind]
    simp [run_cons, run, step, hs1]
  unfold poseCallback at hs
  rw [if_neg (by simp [hn]), if_neg (by simp [hm])] at hs
  dsimp only at hs
  by_cases hf : p.useFilter = true
  · rw [if_pos hf] at hs
    exact ⟨fun _ => Or.inl hf, fun _ => hkept _ hs rfl⟩
  rw [if_neg hf] at hs
  by_cases he : s.enable = true
  swap
  · rw [if_neg he] at hs
    exact ⟨fun _ => Or.inr (Or.inl (by simpa using he)), fun _ => hkept _ hs rfl⟩
  rw [if_pos he] at hs
  obtain ⟨near, hnear⟩ := (c39_find_nearest_defined_iff (s.graph p) visit ((Scan.new s.scans.length).setPose m.pose) 10
    (-1)).mpr (by omega)
  have hq : BuiltByCalls ((Scan.new s.scans.length).setPose m.pose) := (BuiltByCalls.new _).setPose _
  obtain ⟨-, k2, -, k4⟩ := c39_find_nearest_exact (s.graph p) visit _ 10 (-1) hB hq (by rw [if_neg (by omega)]; exact hv) hnear
  have href : refPoint p.useBarycenter ((Scan.new s.scans.length).setPose m.pose) = ⟨m.pose.x, m.pose.y⟩ := by
    unfold refPoint
    split <;> simp [Scan.setPose, Scan.new, barycenter]
  have hmem : near ≠ [] ↔ NearMap p s m.pose := by
    constructor
    · intro hne
      obtain ⟨i, hi⟩ := List.exists_mem_of_ne_nil near hne
      obtain ⟨-, x, hx, hd⟩ := (k2 i).mp hi
      refine ⟨x, List.mem_of_getElem? hx, ?_⟩
      rw [← href]; exact hd
    · rintro ⟨x, hx, hd⟩ hnil
      obtain ⟨i, hi, hx⟩ := List.mem_iff_getElem.mp hx
      have : i ∈ near := (k2 i).mpr ⟨by rw [if_neg (by omega)]; exact hi, x, by rw [← hx]; exact List.getElem?_eq_getElem hi, by
        show Spec.dist (refPoint p.useBarycenter _) _ ^ 2 < 10
        rw [href]; exact hd⟩
      rw [hnil] at this; cases this
  rw [hnear, Res.ok_bind] at hs
  cases near with
  | nil =>
    constructor
    · rintro ⟨t, ht, h1, -⟩
      rw [run_cons, hs, Res.ok_bind] at ht
      simp [run_cons, run, step, hi] at ht
      rw [← ht, hn] at h1; cases h1
    · rintro (h | h | h)
      · exact absurd h hf
      · rw [he] at h; cases h
      · exact absurd rfl (hmem.mpr h)
  | cons i rest =>
    have hx : (s.scans)[i]? = some (s.scans[i]'(k4 i (by simp))) := List.getElem?_eq_getElem _
    dsimp only at hs
    rw [hx] at hs
    exact ⟨fun _ => Or.inr (Or.inr (hmem.mp (by simp))), fun _ => hkept _ hs rfl⟩

/-- **C96** (refuted for an empty map) A node that is switched off and on before its first scan can not be localised any more: no
pose, no laser message and no further request to enable helps, as long as mapping is not switched off again and no map
is loaded. -/
theorem c96_empty_map_never_localised (p : Params) (hf : p.useFilter = false) : ∃ s : Sys,
    Reach p (fun _ => True) Any s ∧ s.enable = true ∧ s.initialized = false ∧ s.scans = [] ∧
    ∀ es t, Exec p (fun _ e => ¬ Disables e ∧ ¬ Loads e) s es t → t.initialized = false ∧ t.scans = [] := by
  let s : Sys := { demoStart p true with initialized := false }
  refine ⟨s, ⟨true, none, demoStart p true, [.configure 2#32 [], .configure 1#32 []], rfl, by simp, ?_⟩, rfl, rfl, rfl, ?_⟩
  · refine Exec.mono (A := fun _ _ => True) (by intros; exact ⟨trivial, by intros; trivial⟩)
      ((exec_iff_run _ (fun _ => True) _ _ _).mpr ⟨?_, by simp⟩)
    simp [run, step, configure, configureMapping, configureFile, s, demoStart, startWith]
  · intro es t hex
    suffices H : t.initialized = false ∧ t.scans = [] ∧ t.enable = true ∧ t.spin = .idle from ⟨H.1, H.2.1⟩
    induction hex with
    | nil => exact ⟨rfl, rfl, rfl, rfl⟩
    | @snoc es u u' e hex ha hst ih =>
      obtain ⟨h1, h2, h3, h4⟩ := ih
      have h2' : u.heap u.epoch = [] := h2
      have nospin : ∀ {x : Spin}, u.spin = x → x ≠ .idle → u'.initialized = false ∧ u'.scans = [] ∧ u'.enable = true ∧
          u'.spin = .idle := fun h hx => absurd (h.symm.trans h4) hx
      cases step_trans hst with
      | laserIgnored msg mount odom odomEnd hi =>
        obtain ⟨r, l, g, m, e, -⟩ := setup_cases p msg mount u
        rw [e]; exact ⟨h1, h2, h3, h4⟩
      | laserScan msg mount odom odomEnd points hi hgo hinit ht => rw [h1] at hinit; cases hinit
      | poseKept m odom visit hi he =>
        rcases he with he | he
        · rw [h3] at he; cases he
        · rw [hf] at he; cases he
      | poseScan m odom visit near i rest hi he hn hf hnear hv hfind => rw [h2] at hnear; simp at hnear
      | configureFlags action bag hi hl =>
        have hd : action &&& 2#32 = 0#32 := by
          by_contra h
          exact ha.1 ⟨action, bag, rfl, h⟩
        unfold configureMapping
        split
        · exact ⟨h1, h2, rfl, h4⟩
        · rw [if_neg (by simp [hd])]
          exact ⟨h1, h2, h3, h4⟩
      | load action bag g hi hl hg => exact absurd ⟨action, bag, rfl, hl⟩ ha.2
      | loopAccept score correction cov q cand scan candidate hi hf hs e1 e2 =>
        refine ⟨h1, ?_, h3, h4⟩
        have := (setPoseAt_same u.heap q.scan (addCorrection correction scan.getPose) u.epoch).length
        rw [h2'] at this
        exact List.length_eq_zero_iff.mp this
      | loopReject score correction cov q cand hi hs =>
        obtain ⟨n, l, e⟩ := afterAttempt_frame q u
        rw [e]; exact ⟨h1, h2, h3, h4⟩
      | loopPush q c hi =>
        obtain ⟨n, l, e⟩ := afterAttempt_frame q { u with constraints := u.constraints ++ [c], update := true }
        rw [e]; exact ⟨h1, h2, h3, h4⟩
      | loopOptimise ceres b solver scans hi ho =>
        refine ⟨h1, ?_, h3, h4⟩
        have := (optimize_same ho).length
        rw [h2] at this
        show (if u.epoch = u.epoch then scans else u.heap u.epoch) = []
        rw [if_pos rfl]
        exact List.length_eq_zero_iff.mp this
      | pubTf hi =>
        obtain ⟨x, e⟩ := pubTf_frame u
        rw [e]; exact ⟨h1, h2, h3, h4⟩
      | _ => first
        | exact ⟨h1, h2, h3, h4⟩
        | exact nospin ‹u.spin = _› (by simp)

/-- **C96** (the way out) Whatever the map, a node that is idle can be localised at any pose by switching mapping off, giving the
pose, and switching mapping on again. -/
theorem c96_way_out (p : Params) (s : Sys) (m : PoseMsg) (odom : Pose2d) (visit : List ℕ) (hi : s.spin = .idle)
    (hm : m.inMap = true) (hv : visit.Perm (List.range s.scans.length)) :
    ∃ t, run p s [.configure 2#32 [], .pose m (some odom) visit, .setRobot, .setOdom, .configure 1#32 []] = .ok t ∧
      t.enable = true ∧ t.initialized = true ∧ t.prevRobot = m.pose ∧ t.prevOdom = odom ∧ SameMap s t := by
  let s1 : Sys := { s with enable := false, initialized := false }
  refine ⟨{ s with enable := true, initialized := true, prevRobot := m.pose, prevOdom := odom }, ?_, rfl, rfl, rfl, rfl, rfl, rfl⟩
  have e1 : step p s (.configure 2#32 []) = .ok s1 := by
    simp [step, hi, configure, configureMapping, configureFile, s1]
  have e2 : step p s1 (.pose m (some odom) visit) = .ok { s1 with spin := .poseRobot m.pose odom } := by
    unfold step
    rw [show s1.spin = .idle from hi]
    dsimp only
    rw [if_pos (show Visits visit s1.scans.length from hv)]
    unfold poseCallback
    rw [if_neg (by simp [s1]), if_neg (by simp [hm])]
    dsimp only
    split
    · rfl
    · rw [if_neg (by simp [s1])]
  rw [run_cons, e1, Res.ok_bind, run_cons, e2, Res.ok_bind]
  simp [run, step, configure, configureMapping, configureFile, s1, hi]

/-- Example for `c96_localised_iff`: in the small map (two scans at the origin) a mapping node takes a pose one metre away and not
one ten metres away. -/
example : NearMap (demoParams 10 3) (demoLoaded (demoParams 10 3) true) ⟨1, 0, 0⟩ ∧
    ¬ NearMap (demoParams 10 3) (demoLoaded (demoParams 10 3) true) ⟨10, 0, 0⟩ := by
  have hs : (demoLoaded (demoParams 10 3) true).scans = [mapDot 0 Pose2d.zero, mapDot 1 Pose2d.zero] := by
    simp [demoLoaded, startWith, Sys.scans, demoMap]
  have hr : ∀ i, refPoint (demoParams 10 3).useBarycenter (mapDot i Pose2d.zero) = ⟨0, 0⟩ := by
    intro i
    simp [refPoint, demoParams, mapDot, Scan.setPose, Scan.setPoints, Pose2d.zero]
  constructor
  · refine ⟨mapDot 0 Pose2d.zero, by rw [hs]; simp, ?_⟩
    rw [hr]
    norm_num [Spec.dist]
  · rintro ⟨x, hx, hd⟩
    rw [hs] at hx
    have : refPoint (demoParams 10 3).useBarycenter x = ⟨0, 0⟩ := by
      simp only [List.mem_cons, List.not_mem_nil, or_false] at hx
      rcases hx with rfl | rfl
      · exact hr 0
      · exact hr 1
    rw [this] at hd
    norm_num [Spec.dist] at hd

end

end Ndt
