import Verif.Proof.NearLoop
import Verif.Props.PlacedProps

/-! # C127: loops are closed between near scans -/

namespace Ndt

open Spec Mapper

noncomputable section

/-- **C127** (mapper) In every reachable state in which a candidate is tried - and no map has been loaded since the scan was
picked - scan and candidate are near each other: within the square root of the search size, plus the distance of each scan
from the barycentre of its points if those are searched, plus √2 times the largest correction for each attempt already made.
For every map, message, score and schedule.
Missing from the full claim: a map loaded in between, see `c127_not_after_loading`. -/
theorem c127_candidates_near_partial (p : Params) (L : ℝ) (hL : 0 ≤ L) (hpos : 0 < p.searchLimit) (hlim : p.searchLimit < 2 ^ 64)
    (s : Sys) (h : Reach p (FarMap p.rollingDepth) (SmallSteps L) s) (q : Search) (cand : Ptr)
    (hm : s.loop = .matching q cand) (he : cand.epoch = q.scan.epoch) (scan candidate : Scan)
    (h1 : (s.heap q.scan.epoch)[q.scan.idx]? = some scan) (h2 : (s.heap cand.epoch)[cand.idx]? = some candidate) :
    1 ≤ q.left ∧ q.left ≤ p.searchLimit ∧ Spec.dist (position scan) (position candidate) ≤
      Apart p.useBarycenter (Real.sqrt p.searchSize) L (p.searchLimit - q.left) scan candidate := by
  obtain ⟨-, hN⟩ := nearInv_reach hL hpos hlim h
  obtain ⟨h3, -, h4⟩ := hN.matching q cand hm
  obtain ⟨x, y, e1, e2, e3⟩ := h4 he
  rw [h1] at e1
  cases e1
  rw [h2] at e2
  cases e2
  exact ⟨h3.1, h3.2, e3⟩

/-- **C127** (mapper) The constraint of a loop closure is no longer than the search size and the corrections allow. Missing:
a map loaded since the scan was picked. -/
theorem c127_loops_near_partial (p : Params) (L : ℝ) (hpos : 0 < p.searchLimit) (hlim : p.searchLimit < 2 ^ 64)
    (s s' : Sys) (h : Reach p (FarMap p.rollingDepth) (SmallSteps L) s) (q : Search) (cand : Ptr)
    (hm : s.loop = .matching q cand) (he : cand.epoch = q.scan.epoch) (score : Fl) (correction : Pose2d) (cov : Mat3)
    (hx : |correction.x| ≤ L) (hy : |correction.y| ≤ L)
    (hst : step p s (.loopMatched score correction cov) = .ok s') (q' : Search) (c : Constraint)
    (hp : s'.loop = .pushing q' c) :
    ∃ scan candidate, (s'.heap q.scan.epoch)[q.scan.idx]? = some scan ∧ (s'.heap cand.epoch)[cand.idx]? = some candidate ∧
      scan.id = c.end_ ∧ candidate.id = c.begin_ ∧
      reachOf c.transform ≤ Apart p.useBarycenter (Real.sqrt p.searchSize) L p.searchLimit scan candidate := by
  have hL : 0 ≤ L := le_trans (abs_nonneg _) hx
  obtain ⟨⟨-, -, hLp⟩, hN⟩ := nearInv_reach hL hpos hlim h
  obtain ⟨h3, -, h4⟩ := hN.matching q cand hm
  have hS := hLp.matching q cand hm
  generalize hev : Event.loopMatched score correction cov = e at hst
  cases step_trans hst with
  | stutter => rw [hm] at hp; cases hp
  | loopReject score correction cov q2 cand2 hi2 hs2 =>
    exfalso
    unfold afterAttempt nextScan at hp
    split at hp <;> cases hp
  | loopAccept score2 correction2 cov2 q2 cand2 scan candidate hi2 hf hlt e1 e2 =>
    cases hev
    rw [hm] at hi2
    cases hi2
    simp only [Loop.pushing.injEq] at hp
    obtain ⟨-, rfl⟩ := hp
    obtain ⟨y, d1, d2, d3, d4⟩ := (h4 he).corrected e1 (c := correction)
      (fun _ => by rw [hS.1.scan]; have := hS.1.rolling; have := hS.2; omega) hx hy rfl
    rw [e2] at d3
    cases d3
    refine ⟨_, candidate, d1, d2, rfl, rfl, ?_⟩
    show reachOf (makeConstraint candidate _ cov).transform ≤ _
    rw [reachOf_make]
    refine d4.trans (Apart.mono hL ?_ _ _)
    have := h3.1
    have := h3.2
    omega
  | _ => cases hev

/-- Nothing is so large that it cannot be counted, in loop closing either. -/
def SizedLoops (n : Node) (i : Input) : Prop :=
  n.sys.scans.length < 2 ^ 31 ∧
  ∀ junk q cand s, i = .loopMatch junk → n.sys.loop = .matching q cand →
    (n.sys.heap q.scan.epoch)[q.scan.idx]? = some s → s.points.length < 2 ^ 64

/-- What the NDT matcher returns for a candidate lies in the search window. -/
theorem loop_correction_small {np : NodeParams} {n : Node} (hgl : 0 < np.globalCfg.linearRes)
    (hga : 0 < np.globalCfg.angularRes) (hT : Node.Tied np n) {q : Search} {cand : Ptr} (hm : n.sys.loop = .matching q cand)
    {g : Matcher} (hg : n.globalN = some g) {scan : Scan} (hn : scan.points.length < 2 ^ 64) {junk : Mat3F}
    {r : Matcher.MatchResult} (hr : g.matchScan scan Pose2d.zero junk = .ok r) :
    |r.pose.x| ≤ |np.globalCfg.linearSize| ∧ |r.pose.y| ≤ |np.globalCfg.linearSize| := by
  obtain ⟨g1, w, hg1, -, rng, hbu⟩ := hT.region q cand hm
  rw [hg] at hg1
  cases hg1
  obtain ⟨gr, e', -⟩ := addScans_computed hbu
  have := correction_within (mt := g) (g := gr) (by rw [e']) (by rw [e']; exact hgl) (by rw [e']; exact hga) scan
    hn junk hr Pose2d.zero
  rw [e'] at this
  simpa [WithinWindow, addCorrection, Pose2d.zero] using And.intro this.1 this.2.1

/-- **C127** (node) In a node with NDT matchers, whatever the maps, messages and schedule: when a loop is closed and no map was
loaded since the scan was picked, the constraint is at most as long as the square root of the search size, plus the distances
of the two scans from the barycentres of their points if those are searched, plus √2 times the size of the search window for
each attempt allowed. Missing: a map loaded since the scan was picked. -/
theorem c127_node_loops_near_partial (np : NodeParams) (n n' : Node)
    (h : NodeReach np (FarMap np.map.rollingDepth) SizedLoops n)
    (hgl : 0 < np.globalCfg.linearRes) (hga : 0 < np.globalCfg.angularRes)
    (hpos : 0 < np.map.searchLimit) (hlim : np.map.searchLimit < 2 ^ 64)
    (q : Search) (cand : Ptr) (hm : n.sys.loop = .matching q cand) (he : cand.epoch = q.scan.epoch)
    (hsize : ∀ s, (n.sys.heap q.scan.epoch)[q.scan.idx]? = some s → s.points.length < 2 ^ 64)
    (junk : Mat3F) (hst : n.step np (.loopMatch junk) = .ok n') (q' : Search) (c : Constraint)
    (hp : n'.sys.loop = .pushing q' c) :
    ∃ scan candidate, (n'.sys.heap q.scan.epoch)[q.scan.idx]? = some scan ∧
      (n'.sys.heap cand.epoch)[cand.idx]? = some candidate ∧ scan.id = c.end_ ∧ candidate.id = c.begin_ ∧
      reachOf c.transform ≤
        Apart np.map.useBarycenter (Real.sqrt np.map.searchSize) |np.globalCfg.linearSize| np.map.searchLimit scan candidate := by
  have hR := Node.refines (B := SmallSteps |np.globalCfg.linearSize|)
    (fun n i n' e hT ha hd => ⟨ha.1, fun score c cov he => by
      obtain ⟨junk, q, cand, scan, g, r, hi, hm, hsc, hg, hr, -, rfl, -⟩ := hd.loopMatched score c cov he
      exact loop_correction_small hgl hga hT hm hg (ha.2 junk q cand scan hi hm hsc) hr⟩) h
  have hT := Node.tied_reach h
  cases Node.step_ntrans hst with
  | stutter => rw [hm] at hp; cases hp
  | loopMatch _ q1 c1 g1 scan r s hi hg1 hscan hr hs =>
    rw [hm] at hi
    cases hi
    obtain ⟨hx, hy⟩ := loop_correction_small hgl hga hT hm hg1 (hsize scan hscan) hr
    exact c127_loops_near_partial np.map _ hpos hlim n.sys s hR q cand hm he _ _ _ hx hy hs q' c hp

/-- **C127** (default parameters) Where scans are searched by their poses, with the default search size (0.2), limit (3) and
window (0.05 m), no loop is closed between scans more than 0.66 m apart: a robot that has drifted further never closes its
loop. Missing: a map loaded since the scan was picked. -/
theorem c127_default_loops_near_partial (np : NodeParams) (n n' : Node)
    (h : NodeReach np (FarMap np.map.rollingDepth) SizedLoops n)
    (hgl : 0 < np.globalCfg.linearRes) (hga : 0 < np.globalCfg.angularRes)
    (hb : np.map.useBarycenter = false) (hz : np.map.searchSize = 0.2) (hlim : np.map.searchLimit = 3)
    (hw : np.globalCfg.linearSize = 0.05)
    (q : Search) (cand : Ptr) (hm : n.sys.loop = .matching q cand) (he : cand.epoch = q.scan.epoch)
    (hsize : ∀ s, (n.sys.heap q.scan.epoch)[q.scan.idx]? = some s → s.points.length < 2 ^ 64)
    (junk : Mat3F) (hst : n.step np (.loopMatch junk) = .ok n') (q' : Search) (c : Constraint)
    (hp : n'.sys.loop = .pushing q' c) : reachOf c.transform < 0.66 := by
  obtain ⟨scan, candidate, -, -, -, -, h1⟩ := c127_node_loops_near_partial np n n' h hgl hga (by omega) (by omega) q cand hm he hsize
    junk hst q' c hp
  refine lt_of_le_of_lt h1 ?_
  simp only [Apart, overhang, hb, hz, hlim, hw]
  have h2 : Real.sqrt 0.2 < 0.4473 := by
    rw [Real.sqrt_lt' (by norm_num)]; norm_num
  have h3 : Real.sqrt 2 < 1.4143 := by
    rw [Real.sqrt_lt' (by norm_num)]; norm_num
  rw [abs_of_pos (by norm_num)]
  norm_num at h2 h3 ⊢
  linarith

/-- Non-vacuity: a node with default matchers, started from a file with two scans of a wall, closes the loop; all conditions
of `c127_default_loops_near_partial` hold. -/
example : ∃ n n' q cand, NodeReach closeNode (FarMap closeNode.map.rollingDepth) SizedLoops n ∧
    0 < closeNode.globalCfg.linearRes ∧ 0 < closeNode.globalCfg.angularRes ∧ closeNode.map.useBarycenter = false ∧
    closeNode.map.searchSize = 0.2 ∧ closeNode.map.searchLimit = 3 ∧ closeNode.globalCfg.linearSize = 0.05 ∧
    n.sys.loop = .matching q cand ∧ cand.epoch = q.scan.epoch ∧
    (∀ s, (n.sys.heap q.scan.epoch)[q.scan.idx]? = some s → s.points.length < 2 ^ 64) ∧
    ∃ junk, n.step closeNode (.loopMatch junk) = .ok n' ∧ ∃ q' c, n'.sys.loop = .pushing q' c := by
  obtain ⟨n, q, cand, mt, hr, hm, hs, he, hq, hc, ht, hg, hmt⟩ := closing_reached (FarMap closeNode.map.rollingDepth) SizedLoops
    ⟨fun i s h => by
      match i, h with
      | 0, h => cases h; rfl
      | 1, h => cases h; rfl
      | i + 2, h => simp at h, fun c hc => by simp at hc⟩
    (fun n i h2 _ hno => ⟨by rw [h2]; norm_num, fun junk _ _ _ h => absurd h (hno junk)⟩)
  obtain ⟨junk, n', hst, hpu⟩ := closing_pushed hm hs he hq hc ht hg hmt
  refine ⟨n, n', q, cand, hr, by norm_num [closeNode, demoNode, defaultMatcher], by norm_num [closeNode, demoNode, defaultMatcher],
    rfl, rfl, rfl, rfl, hm, by rw [hq, hc], ?_, junk, hst, hpu⟩
  intro s hs1
  have hs' : n.sys.heap 0 = [wallScanAt 0, wallScanAt 1] := by
    have h := hs
    unfold Sys.scans at h
    rwa [he] at h
  rw [hq] at hs1
  simp only [hs', List.getElem?_cons_succ, List.getElem?_cons_zero] at hs1
  cases hs1
  norm_num [wallScanAt, wallPts]

/-- A file with two scans far from the origin. -/
def farBag (x : ℝ) : List BagMsg :=
  [⟨"scans", .scan ⟨0, x, 0, 0, [⟨1, 0⟩]⟩⟩, ⟨"scans", .scan ⟨1, x, 0, 0, [⟨1, 0⟩]⟩⟩]

theorem farBag_load (use : Bool) (x : ℝ) :
    Graph.load use (farBag x) = .ok ⟨use, [mapDot 0 ⟨x, 0, 0⟩, mapDot 1 ⟨x, 0, 0⟩], []⟩ := by
  simp [Graph.load, farBag, Graph.loadMsg, Graph.new, Graph.scanOfMsg, mapDot]

/-- **C127** Refuted where a map is loaded between picking the scan and trying a candidate: the scan of the old map is tied to
a scan of the new map, at any distance. -/
theorem c127_not_after_loading (D : ℝ) : ∃ (p : Params) (s s' : Sys) (q q' : Search) (cand : Ptr) (c : Constraint),
    Reach p (FarMap p.rollingDepth) (SmallSteps 0) s ∧ 0 < p.searchLimit ∧ p.searchLimit < 2 ^ 64 ∧
    s.loop = .matching q cand ∧
    step p s (.loopMatched (.fin (-1)) Pose2d.zero fun _ _ => .fin 0) = .ok s' ∧ s'.loop = .pushing q' c ∧
    D < reachOf c.transform := by
  set p := demoParams 0 3 with hp
  set x : ℝ := |D| + 1 with hx
  set s0 : Sys := demoLoaded p true with hs0
  set s1 : Sys := demoSetUp p s0 with hs1
  have e0 : step p s0 (demoLaser Pose2d.zero) = .ok s1 := step_demoSetUp p s0 _ rfl rfl rfl
  have hsc : s1.scans = [mapDot 0 Pose2d.zero, mapDot 1 Pose2d.zero] := by
    simp [hs1, hs0, demoSetUp, demoLoaded, startWith, Sys.scans, demoMap]
  obtain ⟨f1, f2, f3, -⟩ := run_pairMatching p s1 (mapDot 0 Pose2d.zero) (mapDot 1 Pose2d.zero) rfl
    (by norm_num [hp, demoParams]) rfl hsc rfl (by simp [mapDot, Scan.setPoints]) rfl rfl rfl [] rfl
  set far : List Scan := [mapDot 0 ⟨x, 0, 0⟩, mapDot 1 ⟨x, 0, 0⟩] with hfar
  set s3 : Sys := { demoSearch s1 3 with
    epoch := 1, heap := fun e => if e = 1 then far else s1.heap e, constraints := [], update := true,
    initialized := false } with hs3
  have e3 : step p (demoSearch s1 3) (.configure 4#32 (farBag x)) = .ok s3 := by
    unfold step
    rw [show (demoSearch s1 3).spin = .idle from rfl]
    have hc : configureMapping 4#32 (demoSearch s1 3) = demoSearch s1 3 := by simp [configureMapping]
    simp only [configure, configureFile, hc]
    rw [if_pos (by decide), farBag_load]
    rfl
  set s4 : Sys := { s3 with
    globalM := some [mapDot 0 ⟨x, 0, 0⟩], loop := .matching ⟨⟨2, false⟩, 1, ⟨0, 1⟩, [], 3⟩ ⟨1, 0⟩ } with hs4
  have e4 : step p s3 .loopCandidate = .ok s4 := by
    unfold step
    rw [show s3.loop = .candidates ⟨⟨2, false⟩, 1, ⟨0, 1⟩, [0], 3⟩ from rfl]
    dsimp only
    unfold loopCandidate
    have h5 : s3.scans = far := rfl
    have h6 : s3.globalM = some [] := rfl
    simp [h5, h6, hfar, mapDot, Scan.getPoints, Scan.setPoints, hs4]
    rfl
  have hlen : ∀ t : Sys, t.scans = s1.scans → t.scans.length < 2 ^ 31 := by
    intro t ht; rw [ht, hsc]; norm_num
  have h0 : Mapper.start p true (some demoBag) = .ok s0 := demoLoaded_start p true
  have hW0 : FarMap p.rollingDepth (demoMap p.useBarycenter) := by
    refine ⟨fun i s h => ?_, fun c hc hs => ?_⟩
    · match i, h with
      | 0, h => cases h; rfl
      | 1, h => cases h; rfl
      | i + 2, h => simp [demoMap] at h
    · simp [demoMap] at hc
      subst hc; cases hs
  have hW1 : FarMap p.rollingDepth ⟨p.useBarycenter, far, []⟩ := by
    refine ⟨fun i s h => ?_, fun c hc hs => by simp at hc⟩
    match i, h with
    | 0, h => cases h; rfl
    | 1, h => cases h; rfl
    | i + 2, h => simp [hfar] at h
  have hR : Reach p (FarMap p.rollingDepth) (SmallSteps 0) s4 := by
    refine ⟨true, some demoBag, s0, [] ++ [demoLaser Pose2d.zero] ++ [.loopWake] ++ [.loopCount] ++ [.loopPick [0]] ++
      [.configure 4#32 (farBag x)] ++ [.loopCandidate], h0, ?_, ?_⟩
    · intro bag hb g hg
      cases hb
      rw [demoBag_load] at hg
      cases hg
      exact hW0
    · refine .snoc (.snoc (.snoc (.snoc (.snoc (.snoc .nil ?_ e0) ?_ f1) ?_ f2) ?_ f3) ?_ e3) ?_ e4
      · exact ⟨⟨hlen _ rfl, by simp [demoLaser]⟩, by simp [demoLaser]⟩
      · exact ⟨⟨hlen _ rfl, by simp⟩, by simp⟩
      · exact ⟨⟨hlen _ rfl, by simp⟩, by simp⟩
      · exact ⟨⟨hlen _ rfl, by simp⟩, by simp⟩
      · refine ⟨⟨hlen _ rfl, by simp⟩, fun action bag hb g hg => ?_⟩
        cases hb
        rw [farBag_load] at hg
        cases hg
        exact hW1
      · exact ⟨⟨by show far.length < 2 ^ 31; norm_num [hfar], by simp⟩, by simp⟩
  have h1 : s4.heap 0 = [mapDot 0 Pose2d.zero, mapDot 1 Pose2d.zero] := hsc
  have h2 : s4.heap 1 = far := rfl
  have e5 : step p s4 (.loopMatched (.fin (-1)) Pose2d.zero fun _ _ => .fin 0) = .ok { s4 with
      heap := setPoseAt s4.heap ⟨0, 1⟩ (addCorrection Pose2d.zero (mapDot 1 Pose2d.zero).getPose),
      loop := .pushing ⟨⟨2, true⟩, 1, ⟨0, 1⟩, [], 3⟩ { makeConstraint (mapDot 0 ⟨x, 0, 0⟩) ((mapDot 1 Pose2d.zero).setPose
        (addCorrection Pose2d.zero (mapDot 1 Pose2d.zero).getPose)) (fun _ _ => .fin 0) with switchable := true } } := by
    unfold step
    rw [show s4.loop = .matching ⟨⟨2, false⟩, 1, ⟨0, 1⟩, [], 3⟩ ⟨1, 0⟩ from rfl]
    dsimp only
    unfold loopMatched
    rw [if_pos ⟨trivial, by show (-1 : ℝ) < -0.5; norm_num⟩, h1, h2, hfar]
    rfl
  refine ⟨p, s4, _, _, _, _, _, hR, by norm_num [hp, demoParams], by norm_num [hp, demoParams], rfl, e5, rfl, ?_⟩
  show D < reachOf (makeConstraint (mapDot 0 ⟨x, 0, 0⟩) ((mapDot 1 Pose2d.zero).setPose
    (addCorrection Pose2d.zero (mapDot 1 Pose2d.zero).getPose)) fun _ _ => .fin 0).transform
  rw [reachOf_make]
  simp only [position, mapDot, Scan.setPose, Scan.setPoints, addCorrection, Pose2d.zero, Scan.getPose, Spec.dist]
  norm_num
  rw [Real.sqrt_sq_eq_abs]
  have := le_abs_self D
  have := le_abs_self x
  linarith

end

end Ndt
