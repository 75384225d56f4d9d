import Verif.Props.LoopProps
import Verif.Props.LoadProps
import Verif.Props.LocaliseProps
import Verif.Props.TransformProps

/-! # What the global matcher holds: candidate regions (C72) and the map for localisation (C73) -/

namespace Ndt

noncomputable section

open Spec Mapper

/-! ## C72 A candidate is matched together with its neighbours on both sides -/

theorem take_drop_two {l : List Scan} {i : ℕ} {a b : Scan} (ha : l[i]? = some a) (hb : l[i + 1]? = some b) :
    (l.take (i + 1 + 1)).drop i = [a, b] := by
  obtain ⟨h1, rfl⟩ := List.getElem?_eq_some_iff.mp ha
  obtain ⟨h2, rfl⟩ := List.getElem?_eq_some_iff.mp hb
  apply List.ext_getElem
  · simp; omega
  · intro n hn hn'
    simp at hn'
    have : n = 0 ∨ n = 1 := by omega
    rcases this with rfl | rfl <;> simp

/-- **C72** (candidate and the scan before) In every reachable state and schedule: the map built for a candidate is the
candidate and the scan before it if there is one. Missing: the scan after it, see `c72_the_scan_after_is_left_out`. -/
theorem c72_region_partial (p : Params) (s s' : Sys) (h : Reach p (FarMap p.rollingDepth) SmallGraph s) (q : Search)
    (cand : Ptr) (hq : ∃ q0, s.loop = .candidates q0) (hst : step p s .loopCandidate = .ok s')
    (hm : s'.loop = .matching q cand) :
    (cand.idx = 0 → ∃ a, s.scans[0]? = some a ∧ s'.globalM = some [a]) ∧
    (0 < cand.idx → ∃ a b, s.scans[cand.idx - 1]? = some a ∧ s.scans[cand.idx]? = some b ∧ s'.globalM = some [a, b]) := by
  obtain ⟨-, -, hL⟩ := loopInv_reach h
  obtain ⟨q0, hq⟩ := hq
  generalize he : Event.loopCandidate = e at hst
  cases step_trans hst with
  | stutter => rw [hq] at hm; cases hm
  | loopCandidate q1 i rest c hi hr hc hg =>
    have hrest := (hL.candidates _ hi).rest i (by rw [hr]; exact List.mem_cons_self)
    simp only [Loop.matching.injEq] at hm
    obtain ⟨-, rfl⟩ := hm
    dsimp only
    rw [if_pos hrest]
    constructor
    · rintro rfl
      refine ⟨c, hc, ?_⟩
      rw [if_neg (by omega)]
      congr 1
      obtain ⟨hl, rfl⟩ := List.getElem?_eq_some_iff.mp hc
      apply List.ext_getElem
      · simp; omega
      · intro n hn hn'
        simp at hn'
        subst hn'
        simp
    · intro h0
      obtain ⟨j, rfl⟩ : ∃ j, i = j + 1 := ⟨i - 1, by omega⟩
      have hl := (List.getElem?_eq_some_iff.mp hc).1
      refine ⟨s.scans[j], c, by simp, hc, ?_⟩
      rw [if_pos h0]
      congr 1
      exact take_drop_two (by simp) hc
  | loopNext q1 hi hr => simp [nextScan] at hm
  | loopSkip q1 i rest c hi hr hc hp => simp at hm
  | _ => cases he

/-- **C72** Refuted ("Take one additional scan on either side of candidate"): in no reachable state is the scan after
the candidate in the map, however many scans follow before the rolling window: there are never more than two scans in
it, and the last is the candidate. -/
theorem c72_the_scan_after_is_left_out (p : Params) (s s' : Sys) (h : Reach p (FarMap p.rollingDepth) SmallGraph s)
    (q : Search) (cand : Ptr) (hq : ∃ q0, s.loop = .candidates q0) (hst : step p s .loopCandidate = .ok s')
    (hm : s'.loop = .matching q cand) :
    ∃ l, s'.globalM = some l ∧ l.length ≤ 2 ∧ l.getLast? = s.scans[cand.idx]? := by
  obtain ⟨h1, h2⟩ := c72_region_partial p s s' h q cand hq hst hm
  rcases Nat.eq_zero_or_pos cand.idx with h0 | h0
  · obtain ⟨a, ha, hg⟩ := h1 h0
    exact ⟨_, hg, by simp, by rw [h0, ha]; rfl⟩
  · obtain ⟨a, b, ha, hb, hg⟩ := h2 h0
    exact ⟨_, hg, by simp, by rw [hb]; rfl⟩

/-- Steps of the examples, which leave the scans alone. -/
def QuietEvent : Event → Prop
  | .laser .. | .loopWake | .loopCount | .loopPick .. | .loopCandidate => True
  | _ => False

theorem quiet_scans {p : Params} {s s' : Sys} {e : Event} (hq : QuietEvent e) (ht : Trans p s e s') : s'.scans = s.scans := by
  cases ht with
  | laserIgnored msg mount odom odomEnd hi =>
    obtain ⟨r, l, g, m, e, -⟩ := setup_cases p msg mount s
    rw [e]; rfl
  | laserScan msg mount odom odomEnd points hi hgo hinit ht =>
    obtain ⟨r, l, g, m, e, -⟩ := setup_cases p msg mount s
    rw [e]; rfl
  | _ => first
    | exact hq.elim
    | rfl

theorem exec_quiet {p : Params} {W : Graph → Prop} {s t : Sys} {es : List Event} (h : run p s es = .ok t)
    (hq : ∀ e ∈ es, QuietEvent e) (hn : s.scans.length < 2 ^ 31) :
    Exec p (fun s e => SmallGraph s e ∧ ∀ action bag, e = .configure action bag → ∀ g,
      Graph.load p.useBarycenter bag = .ok g → W g) s es t := by
  suffices H : Exec p (fun s e => SmallGraph s e ∧ ∀ action bag, e = .configure action bag → ∀ g,
      Graph.load p.useBarycenter bag = .ok g → W g) s es t ∧ t.scans = s.scans from H.1
  induction es using List.reverseRecOn generalizing t with
  | nil => cases h; exact ⟨.nil, rfl⟩
  | append_singleton es e ih =>
    rw [run_append] at h
    obtain ⟨u, h1, h2⟩ := bind_ok h
    rw [run_cons] at h2
    obtain ⟨v, h3, h4⟩ := bind_ok h2
    cases h4
    obtain ⟨i1, i2⟩ := ih h1 fun e he => hq e (by simp [he])
    have he := hq e (by simp)
    refine ⟨.snoc i1 ⟨by unfold SmallGraph; rw [i2]; exact hn, ?_⟩ h3, (quiet_scans he (step_trans h3)).trans i2⟩
    rintro action bag rfl
    exact he.elim

theorem demoMap_far (use : Bool) : FarMap 0 (demoMap use) := by
  refine ⟨?_, ?_⟩
  · intro i s h
    have : i < 2 := by have := (List.getElem?_eq_some_iff.mp h).1; simpa [demoMap] using this
    interval_cases i
    · simp [demoMap] at h; rw [← h]; rfl
    · simp [demoMap] at h; rw [← h]; rfl
  · intro c hc hs
    simp [demoMap] at hc
    subst hc; cases hs

/-- A case: the small map of the examples. -/
example : ∃ s s' q cand, Reach (demoParams 0 3) (FarMap 0) SmallGraph s ∧ (∃ q0, s.loop = .candidates q0) ∧
    step (demoParams 0 3) s .loopCandidate = .ok s' ∧ s'.loop = .matching q cand := by
  have hs : (demoSetUp (demoParams 0 3) (demoLoaded (demoParams 0 3) true)).scans =
      [mapDot 0 Pose2d.zero, mapDot 1 Pose2d.zero] := by
    simp [demoSetUp, demoLoaded, startWith, Sys.scans, demoMap]
  refine ⟨_, _, _, _, ?_, ⟨_, rfl⟩,
    step_demoMatching (demoParams 0 3) (demoSetUp (demoParams 0 3) (demoLoaded (demoParams 0 3) true)) 3 hs (by simp [demoSetUp]), rfl⟩
  refine ⟨true, some demoBag, demoLoaded (demoParams 0 3) true,
    [demoLaser Pose2d.zero] ++ [.loopWake, .loopCount, .loopPick [0]], demoLoaded_start _ _, ?_, exec_quiet ?_ ?_ ?_⟩
  · rintro bag rfl' g hg
    cases rfl'
    rw [demoBag_load] at hg
    cases hg
    exact demoMap_far _
  · rw [run_append, run_cons, step_demoSetUp _ _ _ rfl rfl rfl, Res.ok_bind]
    exact run_demoSearch (demoParams 0 3) _ rfl (by norm_num [demoParams]) rfl hs rfl rfl rfl
  · simp [demoLaser, QuietEvent]
  · simp [demoLoaded, startWith, Sys.scans, demoMap]

/-! ## C73 While localising, scans are matched against the whole map -/

theorem globalM_step {p : Params} {s s' : Sys} {e : Event} (hd : s.enable = false) (hw : ¬ IsLoopWork e)
    (ht : Trans p s e s') : s'.globalM = s.globalM ∨ s'.globalM = some s.scans := by
  cases ht with
  | laserIgnored msg mount odom odomEnd hi =>
    unfold laserSetup
    cases s.laser <;> cases mount <;> simp [hd]
  | laserScan msg mount odom odomEnd points hi hgo hinit ht =>
    unfold laserSetup
    cases s.laser <;> cases mount <;> simp [hd]
  | configureFlags action bag hi hl =>
    obtain ⟨en, ini, e, -⟩ := configureMapping_frame action s
    rw [e]; exact Or.inl rfl
  | load action bag g hi hl hg =>
    obtain ⟨en, ini, e, -⟩ := configureMapping_frame action s
    rw [e]; exact Or.inl rfl
  | pubTf hi =>
    obtain ⟨x, e⟩ := pubTf_frame s
    rw [e]; exact Or.inl rfl
  | loopCandidate => exact absurd trivial hw
  | loopReject => exact absurd trivial hw
  | loopPush => exact absurd trivial hw
  | _ => exact Or.inl rfl

/-- **C73** (map at start, mapping never enabled) If mapping is disabled from the start and stays so, and no map is loaded
at run time, then in every execution and schedule a scan that is about to be matched is matched against all scans of
the graph. Missing: maps loaded at run time and mapping that is disabled later, see below. -/
theorem c73_whole_map_partial (p : Params) (file : Option (List BagMsg)) (s t : Sys) (es : List Event)
    (hs : Mapper.start p false file = .ok s) (h : Exec p (fun _ e => ¬ Loads e ∧ ¬ Enables e) s es t) :
    (t.globalM = none ∨ t.globalM = some t.scans) ∧
    ∀ scan odom, t.spin = .localise scan odom → t.globalM = some t.scans := by
  have hr : Reach p (fun _ => True) Any s := ⟨false, file, s, [], hs, fun _ _ _ _ => trivial, .nil⟩
  have h0 : s.enable = false ∧ s.loop = .asleep ∧ s.globalM = none := by
    rcases start_cases hs with ⟨-, e⟩ | ⟨bag, g, -, -, e⟩ <;> (rw [e]; exact ⟨rfl, rfl, rfl⟩)
  have H : MapInv p t ∧ MatcherInv t ∧ t.enable = false ∧ t.loop = .asleep ∧
      (t.globalM = none ∨ t.globalM = some t.scans) := by
    clear hs
    induction h with
    | nil => exact ⟨mapInv_reach hr, matcherInv_reach hr, h0.1, h0.2.1, Or.inl h0.2.2⟩
    | @snoc es u u' e _ ha hst ih =>
      obtain ⟨i1, i2, i3, i4, i5⟩ := ih
      by_cases hw : IsLoopWork e
      · rw [asleep_work i3 i4 hw hst]; exact ⟨i1, i2, i3, i4, i5⟩
      · have ht := step_trans hst
        obtain ⟨j1, j2⟩ := asleep_step i3 i4 ha.2 ht
        refine ⟨mapInv_step i1 ht, matcherInv_step i2 ht, j1, j2, ?_⟩
        rw [(sameMap_step i1 ha.1 hw (Or.inl i3) ht).1]
        rcases globalM_step i3 hw ht with h | h
        · rw [h]; exact i5
        · exact Or.inr h
  obtain ⟨-, hM, -, -, hg⟩ := H
  refine ⟨hg, fun scan odom hsp => hg.resolve_left ?_⟩
  exact (hM.1 (hM.2 (by rw [hsp]; trivial))).1

/-- The robot is localised in a graph of one scan after mapping was disabled, and a scan is about to be matched. -/
theorem run_demoLost (p : Params) (hf : p.useFilter = false) (hm : p.minDist = 0) :
    ∃ t scan, run p (demoOff p) [demoPose Pose2d.zero Pose2d.zero, .setRobot, .setOdom, demoLaser ⟨1, 0, 0⟩] = .ok t ∧
      t.spin = .localise scan ⟨1, 0, 0⟩ ∧ t.enable = false ∧ t.globalM = some [] ∧ t.scans = [blank 0 Pose2d.zero] := by
  have hv : Visits [0] 1 := by unfold Visits; simp
  have hsc : (demoOff p).scans = [blank 0 Pose2d.zero] := by simp [demoOff, demoOne, Sys.scans]
  have h1 : step p (demoOff p) (demoPose Pose2d.zero Pose2d.zero) =
      .ok { demoOff p with spin := .poseRobot Pose2d.zero Pose2d.zero } := by
    unfold step demoPose
    rw [show (demoOff p).spin = .idle from rfl]
    dsimp only
    rw [if_pos (by rw [hsc]; exact hv)]
    simp [poseCallback, demoOff, hf]
  let s1 : Sys := { demoOff p with spin := .idle, prevRobot := Pose2d.zero, prevOdom := Pose2d.zero, initialized := true }
  have h2 : run p { demoOff p with spin := .poseRobot Pose2d.zero Pose2d.zero } [.setRobot, .setOdom] = .ok s1 := rfl
  have h3 : ¬ tooLittle p s1 ⟨1, 0, 0⟩ := by
    rintro ⟨h, -⟩
    simp [s1, hm, Pose2d.zero] at h
    linarith
  have h4 := step_demoLaser p s1 ⟨1, 0, 0⟩ rfl rfl rfl (Or.inr h3)
  refine ⟨{ s1 with
      rangeMax := Laser.latchRangeMax s1.rangeMax noBeams,
      spin := branch p s1 (blank s1.scans.length (firstPose s1 ⟨1, 0, 0⟩)) ⟨1, 0, 0⟩ },
    blank s1.scans.length (firstPose s1 ⟨1, 0, 0⟩), ?_, ?_, rfl, rfl, hsc⟩
  · rw [run_cons, h1, Res.ok_bind, show ([.setRobot, .setOdom, demoLaser ⟨1, 0, 0⟩] : List Event) =
      [.setRobot, .setOdom] ++ [demoLaser ⟨1, 0, 0⟩] from rfl, run_append, h2, Res.ok_bind, run_cons, h4]
    rfl
  · simp only [branch]
    rw [if_neg (by simp [hf]), if_neg (by simp [s1, demoOff])]

/-- **C73** Refuted when mapping is disabled at run time: the scan is matched against what loop closure left in the
global matcher (here nothing) instead of the map. -/
theorem c73_not_after_disabling : ∃ (p : Params) (t : Sys) (scan : Scan) (odom : Pose2d), Reach p (fun _ => True) Any t ∧
    t.enable = false ∧ t.spin = .localise scan odom ∧ t.globalM = some [] ∧ t.scans ≠ [] := by
  let p : Params := { demoParams 10 3 with minDist := 0 }
  obtain ⟨t, scan, h1, h2, h3, h4, h5⟩ := run_demoLost p rfl rfl
  refine ⟨p, t, scan, _, ?_, h3, h2, h4, by rw [h5]; simp⟩
  refine ⟨true, none, demoStart p true,
    [.pubCheck, demoLaser Pose2d.zero, .pushScan, .finishScan, .configure 2#32 []] ++
      [demoPose Pose2d.zero Pose2d.zero, .setRobot, .setOdom, demoLaser ⟨1, 0, 0⟩], rfl, by simp, ?_⟩
  refine Exec.mono (A := fun _ _ => True) (fun _ _ _ => ⟨trivial, fun _ _ _ _ _ => trivial⟩)
    ((exec_iff_run p (fun _ => True) _ _ _).mpr ⟨?_, fun _ _ => trivial⟩)
  rw [run_append, run_demoOff p rfl, Res.ok_bind, h1]

/-- **C73** Refuted when a map is loaded at run time: the global matcher keeps what it had. Whatever map is loaded once the
first laser message has been seen, and however the robot is localised, laser messages are matched against the old map
as long as mapping stays disabled. -/
theorem c73_not_after_loading (p : Params) (W : Graph → Prop) (A : Sys → Event → Prop) (s t : Sys) (es : List Event)
    (h : Reach p W A s) (hd : s.enable = false) (hs : s.loop = .asleep) (hl : s.laser ≠ none)
    (he : Exec p (fun _ e => ¬ Enables e) s es t) : t.globalM = s.globalM := by
  have hM := matcherInv_reach h
  suffices H : t.enable = false ∧ t.loop = .asleep ∧ t.laser ≠ none ∧ t.globalM = s.globalM from H.2.2.2
  induction he with
  | nil => exact ⟨hd, hs, hl, rfl⟩
  | @snoc es u u' e _ ha hst ih =>
    obtain ⟨i1, i2, i3, i4⟩ := ih
    by_cases hw : IsLoopWork e
    · rw [asleep_work i1 i2 hw hst]; exact ⟨i1, i2, i3, i4⟩
    · have ht := step_trans hst
      obtain ⟨j1, j2⟩ := asleep_step i1 i2 ha ht
      refine ⟨j1, j2, ?_⟩
      rw [← i4]
      cases ht with
      | laserIgnored msg mount odom odomEnd hi =>
        unfold laserSetup
        cases hlas : u.laser with
        | none => exact absurd hlas i3
        | some x => simp [hlas]
      | laserScan msg mount odom odomEnd points hi hgo hinit ht =>
        unfold laserSetup
        cases hlas : u.laser with
        | none => exact absurd hlas i3
        | some x => simp [hlas]
      | configureFlags action bag hi hl =>
        obtain ⟨en, ini, e, -⟩ := configureMapping_frame action u
        rw [e]; exact ⟨i3, rfl⟩
      | load action bag g hi hl hg =>
        obtain ⟨en, ini, e, -⟩ := configureMapping_frame action u
        rw [e]; exact ⟨i3, rfl⟩
      | pubTf hi =>
        obtain ⟨x, e⟩ := pubTf_frame u
        rw [e]; exact ⟨i3, rfl⟩
      | loopCandidate => exact absurd trivial hw
      | loopReject => exact absurd trivial hw
      | loopPush => exact absurd trivial hw
      | _ => exact ⟨i3, rfl⟩

/-- A case: the first laser message of a mapper that has no map and is not mapping; then a map of two scans is loaded. -/
example : ∃ (p : Params) (s t : Sys), Reach p (fun _ => True) Any s ∧ s.enable = false ∧ s.loop = .asleep ∧ s.laser ≠ none ∧
    run p s [.configure 4#32 demoBag] = .ok t ∧ t.scans.length = 2 ∧ t.globalM = some [] := by
  let p := demoParams 10 3
  let s0 : Sys := { demoStart p false with initialized := false }
  have h0 : step p (demoStart p false) (.configure 2#32 []) = .ok s0 := by
    simp [step, demoStart, startWith, configure, configureMapping, configureFile, s0]
  have h1 : step p s0 (demoLaser Pose2d.zero) = .ok (demoSetUp p s0) := step_demoSetUp p s0 _ rfl rfl rfl
  refine ⟨p, demoSetUp p s0,
    { demoSetUp p s0 with
      epoch := 1, heap := fun e => if e = 1 then (demoMap p.useBarycenter).scans else (demoSetUp p s0).heap e,
      constraints := (demoMap p.useBarycenter).constraints, update := true, initialized := false }, ?_, rfl, rfl,
    by simp [demoSetUp], ?_, ?_, ?_⟩
  · refine ⟨false, none, demoStart p false, [.configure 2#32 [], demoLaser Pose2d.zero], rfl, by simp, ?_⟩
    refine Exec.mono (A := fun _ _ => True) (fun _ _ _ => ⟨trivial, fun _ _ _ _ _ => trivial⟩)
      ((exec_iff_run p (fun _ => True) _ _ _).mpr ⟨?_, fun _ _ => trivial⟩)
    rw [run_cons, h0, Res.ok_bind, run_cons, h1]
    rfl
  · rw [run_cons]
    unfold step
    rw [show (demoSetUp p s0).spin = .idle from rfl]
    have hc : configureMapping 4#32 (demoSetUp p s0) = demoSetUp p s0 := by simp [configureMapping]
    simp only [configure, configureFile, hc]
    rw [if_pos (by decide), demoBag_load]
    rfl
  · simp [Sys.scans, demoMap]
  · simp [demoSetUp, s0, Sys.scans, demoStart, startWith, Graph.new]

end

end Ndt
