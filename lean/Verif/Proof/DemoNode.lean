import Verif.Proof.NodeInv
import Verif.Proof.Scores
import Verif.Proof.Demo
import Mathlib.Data.List.Induction

/-! # A node with default parameters, used in examples and counterexamples -/

namespace Ndt

open Spec Mapper

noncomputable section

/-- The default parameters of a matcher (src/scan_matcher_ndt.cpp:37-44). -/
def defaultMatcher : Matcher := ⟨0.25, 0.0025, 0.1, 0.005, 0.05, 100, 0, none⟩

/-- Default parameters but for the barycentre. -/
def demoNode (useFilter : Bool) : NodeParams :=
  ⟨{ demoParams 10 3 with useFilter := useFilter }, defaultMatcher, defaultMatcher, ⟨0.2, 0.2, 0.2, 0.2, 0.2⟩, 100, 500, 0.01,
    2.3⟩

theorem dblMax_nonneg : 0 ≤ dblMax := by
  unfold dblMax
  have : (2⁻¹ : ℝ) ^ 52 ≤ 1 := pow_le_one₀ (by norm_num) (by norm_num)
  exact mul_nonneg (by linarith) (by positivity)

theorem dblMin_le_one : dblMin ≤ 1 := pow_le_one₀ (by norm_num) (by norm_num)

/-- The same with other parameters of the matchers. -/
def demoNodeWith (mt : Matcher) : NodeParams := { demoNode false with globalCfg := mt, localCfg := mt }

/-- A map of one scan without points at the origin, seen with a range of 10 m. -/
theorem addScans_blank_with (mt : Matcher) (hmt : mt.resolution = 0.25) (i : ℕ) :
    ∃ m, Matcher.addScans { mt with rangeMax := 10, ndt := none } [blank i Pose2d.zero] = .ok m := by
  have hbox : Matcher.bbox 10 [blank i Pose2d.zero] = ⟨-10, 10, -10, 10⟩ := by
    have h1 := dblMax_nonneg
    have h2 := dblMin_le_one
    simp only [Matcher.bbox, List.foldl_cons, List.foldl_nil, blank, Scan.getPose, Scan.setPose, Scan.setPoints, Pose2d.zero,
      zero_sub, zero_add]
    rw [min_eq_left (by linarith), max_eq_left (by linarith)]
  have h81 : toU64F (Fl.fin (10 - -10) / Fl.fin (0.25 : ℝ) + Fl.fin 1) = .ok 81 := by
    rw [Fl.fin_div (by norm_num), Fl.fin_add]
    show toU64 _ = _
    rw [toU64_of_nonneg (by norm_num) (by norm_num)]
    have : ⌊((10 - -10) / 0.25 + 1 : ℝ)⌋ = 81 := by rw [Int.floor_eq_iff]; norm_num
    rw [this]
    rfl
  unfold Matcher.addScans
  simp only [hbox]
  unfold NdtGrid.new
  simp only [hmt]
  rw [h81]
  exact ⟨_, rfl⟩

theorem addScans_blank (i : ℕ) :
    ∃ m, Matcher.addScans { defaultMatcher with rangeMax := 10, ndt := none } [blank i Pose2d.zero] = .ok m :=
  addScans_blank_with defaultMatcher rfl i

namespace Node

theorem run_cons (np : NodeParams) (n : Node) (i : Input) (is : List Input) :
    run np n (i :: is) = (n.step np i >>= fun n' => run np n' is) := rfl

theorem run_append (np : NodeParams) (n : Node) (is js : List Input) :
    run np n (is ++ js) = (run np n is >>= fun n' => run np n' js) := by
  unfold run; rw [List.foldlM_append]

theorem exec_of_run {np : NodeParams} {A : Node → Input → Prop} {n t : Node} (is : List Input) (h : run np n is = .ok t)
    (hA : ∀ n, ∀ i ∈ is, A n i) : NodeExec np A n is t := by
  induction is using List.reverseRecOn generalizing t with
  | nil => cases h; exact .nil
  | append_singleton is i ih =>
    rw [run_append] at h
    obtain ⟨m, hm, h⟩ := bind_ok h
    rw [run_cons] at h
    obtain ⟨m', hm', h⟩ := bind_ok h
    cases h
    exact .snoc (ih hm fun n i hi => hA n i (List.mem_append_left _ hi)) (hA _ _ (by simp)) hm'

theorem reach_of_run {np : NodeParams} {A : Node → Input → Prop} (W : Graph → Prop) {enable : Bool} {n t : Node}
    (is : List Input) (h0 : start np enable none = .ok n) (h : run np n is = .ok t)
    (hc : ∀ i ∈ is, ∀ action bag, i ≠ .plain (.configure action bag)) (hA : ∀ n, ∀ i ∈ is, A n i) :
    NodeReach np W A t :=
  ⟨enable, none, n, is, h0, by simp, exec_of_run is h fun n i hi => ⟨hA n i hi, fun action bag e => absurd e (hc i hi action bag)⟩⟩

/-- A laser message without a usable beam arrives at a node that has no matchers yet and is mapping. -/
theorem step_first_laser (np : NodeParams) (n : Node) (o : Pose2d) (hf : np.map.useFilter = false) (he : n.sys.enable = true)
    (hi : n.sys.spin = .idle) (hl : n.sys.laser = none) (hr : n.sys.rangeMax = .fin (-1)) :
    n.step np (.plain (demoLaser o)) = (Mapper.step np.map n.sys (demoLaser o) >>= fun s =>
      .ok ⟨s, some { np.globalCfg with rangeMax := 10, ndt := none }, some { np.localCfg with rangeMax := 10, ndt := none },
        n.filter⟩) := by
  have hr' : Laser.latchRangeMax n.sys.rangeMax noBeams = .fin 10 := by
    rw [hr]; simp [Laser.latchRangeMax, noBeams]
  have hm : n.makesMatchers (some (Pose2d.zero, false)) := ⟨hi, hl, by simp⟩
  show (if n.makesMatchers (some (Pose2d.zero, false)) then _ else _) = _
  rw [if_pos hm]
  unfold makeMatchers
  rw [hr', hf, he]
  rfl

/-- A laser message arrives at a node that has matchers. -/
theorem step_laser (np : NodeParams) (n : Node) (o : Pose2d) (hl : n.sys.laser ≠ none) :
    n.step np (.plain (demoLaser o)) = n.mapper np (demoLaser o) := by
  show (if n.makesMatchers (some (Pose2d.zero, false)) then _ else _) = _
  rw [if_neg]
  · rfl
  · rintro ⟨-, h, -⟩
    exact hl h

end Node

/-- The second laser message has no beams either, and has to be matched. -/
theorem demo_matches_blank_with (mt : Matcher) (hmt : mt.resolution = 0.25) (W : Graph → Prop) :
    ∃ n o, NodeReach (demoNodeWith mt) W (fun _ _ => True) n ∧ n.sys.spin = .matching (blank 1 o) ⟨1, 0, 0⟩ ∧
      n.sys.scans = [blank 0 Pose2d.zero] ∧ n.sys.constraints = [] ∧ n.sys.typical = .fin (-0.5) := by
  obtain ⟨m, hm⟩ := addScans_blank_with mt hmt 0
  set np := demoNodeWith mt with hnp
  set n0 : Node := ⟨demoStart np.map true, none, none, none⟩ with hn0
  have h0 : Node.start np true none = .ok n0 := rfl
  set g : Matcher := { mt with rangeMax := 10, ndt := none } with hg
  have h1 : Node.run np n0 [.plain (demoLaser Pose2d.zero), .plain .pushScan, .plain .finishScan] =
      .ok ⟨demoOne np.map (demoStart np.map true) Pose2d.zero, some g, some g, none⟩ := by
    have hr := run_demoOne np.map Pose2d.zero rfl
    rw [Ndt.run_cons] at hr
    obtain ⟨s1, e1, hr⟩ := bind_ok hr
    rw [Ndt.run_cons] at hr
    obtain ⟨s2, e2, hr⟩ := bind_ok hr
    rw [Ndt.run_cons] at hr
    obtain ⟨s3, e3, hr⟩ := bind_ok hr
    cases hr
    rw [Node.run_cons, Node.step_first_laser np n0 Pose2d.zero rfl rfl rfl rfl rfl]
    rw [show n0.sys = demoStart np.map true from rfl, e1]
    simp only [Res.ok_bind]
    rw [Node.run_cons]
    show (Node.mapper _ _ _ >>= _) = _
    unfold Node.mapper
    rw [e2]
    simp only [Res.ok_bind]
    rw [Node.run_cons]
    show (Node.mapper _ _ _ >>= _) = _
    unfold Node.mapper
    rw [e3]
    rfl
  set s := demoOne np.map (demoStart np.map true) Pose2d.zero with hs
  have hscans : s.scans = [blank 0 Pose2d.zero] := by simp [hs, demoOne, Sys.scans]
  have ht : ¬ tooLittle np.map s ⟨1, 0, 0⟩ := by
    rintro ⟨h, -⟩
    norm_num [hs, demoOne, Pose2d.zero, hnp, demoNodeWith, demoNode, demoParams] at h
  set o := predict s.prevOdom s.prevRobot ⟨1, 0, 0⟩
  have hb : branch np.map s (blank s.scans.length (firstPose s ⟨1, 0, 0⟩)) ⟨1, 0, 0⟩ = .window (blank 1 o) ⟨1, 0, 0⟩ := by
    unfold branch firstPose
    rw [if_neg (by simp [hnp, demoNodeWith, demoNode]), if_pos (show s.enable = true from rfl), if_neg (by simp [hscans]), if_neg (by simp [hscans]), hscans]
    rfl
  set s2 : Sys := { s with rangeMax := Laser.latchRangeMax s.rangeMax noBeams, spin := .window (blank 1 o) ⟨1, 0, 0⟩ } with hs2
  have h2 : Mapper.step np.map s (demoLaser ⟨1, 0, 0⟩) = .ok s2 := by
    rw [step_demoLaser np.map s ⟨1, 0, 0⟩ rfl rfl rfl (Or.inr ht), hb]
  set s3 : Sys := { s2 with localM := some s2.scans, spin := .matching (blank 1 o) ⟨1, 0, 0⟩ } with hs3
  have h3 : Mapper.step np.map s2 .addWindow = .ok s3 := by
    unfold Mapper.step addWindow
    simp only [hs2]
    rw [if_neg (by simp [hs, demoOne]), if_pos]
    show s.scans.length ≤ _
    rw [hscans]
    simp [hnp, demoNodeWith, demoNode, demoParams]
  refine ⟨⟨s3, some g, some m, none⟩, o, Node.reach_of_run W
    ([.plain (demoLaser Pose2d.zero), .plain .pushScan, .plain .finishScan] ++ [.plain (demoLaser ⟨1, 0, 0⟩), .plain .addWindow])
    h0 ?_ (by simp [demoLaser]) (by simp), rfl, hscans, rfl, rfl⟩
  rw [Node.run_append, h1, Res.ok_bind, Node.run_cons, Node.step_laser _ _ _ (by simp [hs, demoOne])]
  unfold Node.mapper
  simp only
  rw [h2]
  simp only [Res.ok_bind]
  rw [Node.run_cons]
  have hst : Node.step np ⟨s2, some g, some g, none⟩ (.plain .addWindow) = .ok ⟨s3, some g, some m, none⟩ := by
    simp only [Node.step, hs2]
    rw [← hs2, h3]
    simp only [Res.ok_bind, hs3]
    rw [show s2.scans = [blank 0 Pose2d.zero] from hscans]
    rw [show g.reset = g from rfl, hm]
    rfl
  rw [hst]
  rfl

theorem demo_matches_blank (W : Graph → Prop) :
    ∃ n o, NodeReach (demoNode false) W (fun _ _ => True) n ∧ n.sys.spin = .matching (blank 1 o) ⟨1, 0, 0⟩ ∧
      n.sys.scans = [blank 0 Pose2d.zero] ∧ n.sys.constraints = [] ∧ n.sys.typical = .fin (-0.5) :=
  demo_matches_blank_with defaultMatcher rfl W

end

end Ndt
