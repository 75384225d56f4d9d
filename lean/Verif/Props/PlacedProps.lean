import Verif.Proof.Overlap
import Verif.Proof.LoopRegion
import Verif.Props.NodeProps
import Verif.Proof.DemoClosing

/-! # C125: a loop is closed only where the scan has its place in the map -/

namespace Ndt

open Spec Mapper

noncomputable section

theorem Fl.div_zero_ne (a : Fl) (v : ℝ) : a / Fl.fin 0 ≠ .fin v := by
  cases a <;> simp [HDiv.hDiv, Div.div, Fl.div]
  all_goals try (split_ifs <;> simp)

/-- **C125** A score counts places: the share of the beams used that have a place in the map, at the pose the matcher
returns, is at least the magnitude of the score. For every map, scan and parameters. -/
theorem c125_score_counts_places {mt mt' : Matcher} {w : List Scan} {g : NdtGrid} (h : mt.addScans w = .ok mt')
    (hg : mt'.ndt = some g) (hres : 0 < mt.resolution) (hl : 0 < mt.linearRes) (ha : 0 < mt.angularRes)
    (hsmall : g.sizeX * g.sizeY ≤ 2 ^ 31) (scan : Scan) (hn : scan.points.length < 2 ^ 64) (pose : Pose2d) (cov : Mat3F)
    {r : Matcher.MatchResult} (hr : mt'.matchScan scan pose cov = .ok r) (v : ℝ) (hv : r.score = .fin v) :
    0 < beamCount mt.laserMaxBeams scan.points.length ∧
    -v * (beamCount mt.laserMaxBeams scan.points.length : ℕ) ≤
      (placed mt.resolution w ((samples scan.points (beamCount mt.laserMaxBeams scan.points.length)).map
        (move (offset scan.pose r.pose)))).length := by
  obtain ⟨g', e, -⟩ := addScans_computed h
  have hl' : 0 < mt'.linearRes := by rw [e]; exact hl
  have ha' : 0 < mt'.angularRes := by rw [e]; exact ha
  have hbm : mt'.laserMaxBeams = mt.laserMaxBeams := by rw [e]
  obtain ⟨best, e1, -, h3⟩ := c13_match_returns_best_candidate hg hl' ha' scan hn pose cov hr
  rw [hbm] at e1
  set m : ℕ := beamCount mt.laserMaxBeams scan.points.length with hm
  rw [hv] at e1
  by_cases hm0 : m = 0
  · rw [hm0, Nat.cast_zero] at e1
    exact absurd e1.symm (Fl.div_zero_ne _ _)
  refine ⟨Nat.pos_of_ne_zero hm0, ?_⟩
  have hmpos : (0 : ℝ) < m := by exact_mod_cast Nat.pos_of_ne_zero hm0
  rcases h3 with ⟨e2, -⟩ | ⟨hlt, -, x, hx, e2⟩
  · rw [e2, Fl.fin_div hmpos.ne', zero_div] at e1
    injection e1 with e1
    rw [e1]; simp
  · obtain ⟨y, hy⟩ : ∃ y, x = .fin y := by
      cases x with
      | fin y => exact ⟨y, rfl⟩
      | nan => rw [e2] at hlt; exact absurd hlt (Fl.nan_lt _)
      | pinf => rw [e2] at e1; simp [HDiv.hDiv, Div.div, Fl.div, Neg.neg, Fl.neg] at e1; try (split at e1 <;> cases e1)
      | ninf => rw [e2] at e1; simp [HDiv.hDiv, Div.div, Fl.div, Neg.neg, Fl.neg] at e1; try (split at e1 <;> cases e1)
    rw [hy] at hx e2
    have := likelihoodPoints_le_placed hres h hg hsmall _ hx
    rw [hbm] at this
    rw [e2, Fl.fin_neg, Fl.fin_div hmpos.ne'] at e1
    injection e1 with e1
    rw [e1]
    have e4 : -(-y / (m : ℝ)) * m = y := by field_simp
    rw [e4]
    exact this

/-- Nothing is so large that it cannot be counted. -/
def Sized (n : Node) (i : Input) : Prop :=
  n.sys.scans.length < 2 ^ 31 ∧
  ∀ junk scan odom, i = .localMatch junk → n.sys.spin = .matching scan odom → scan.points.length < 2 ^ 64

/-- A typical response that is between -1 and 0, or spoilt (C58). -/
theorem typical_or_nan (np : NodeParams) (W : Graph → Prop) (n : Node) (hl : 0 < np.localCfg.linearRes)
    (ha : 0 < np.localCfg.angularRes) (hb : 0 < np.localCfg.laserMaxBeams) (h : NodeReach np W Sized n) :
    n.sys.typical = .nan ∨ GoodScore n.sys.typical := by
  have hR : Reach np.map W (fun _ e => ∀ score correction cov, e = .localMatched score correction cov →
      score = .nan ∨ GoodScore score) n.sys := by
    refine Node.refines ?_ h
    intro n i n' e hT ha' hd score c cov he
    obtain ⟨junk, scan, odom, l, r, hi, hs, hl', hr, rfl, -, -⟩ := hd.localMatched score c cov he
    obtain ⟨l1, w, h1, -, rng, hbu⟩ := hT.window scan odom hs
    rw [hl'] at h1
    cases h1
    have hlen := ha'.2 junk scan odom hi hs
    obtain ⟨g, rfl, -⟩ := addScans_computed hbu
    by_cases hne : scan.points = []
    · left
      obtain ⟨-, r', hr', e', -⟩ := c18_empty_scan_scores_nan (mt := { np.localCfg with rangeMax := rng, ndt := some g }) rfl hl ha scan hne
        Pose2d.zero junk
      rw [hr] at hr'
      cases hr'
      exact e'
    · right
      obtain ⟨v, e1, e2, e3⟩ := c18_match_normalised_any_map hbu hl ha scan hlen
        (lt_min hb (List.length_pos_of_ne_nil hne)) Pose2d.zero junk hr
      exact ⟨v, e1, e2, e3⟩
  refine Reach.inv (I := fun s => s.typical = .nan ∨ GoodScore s.typical) hR ?_ ?_
  · intro enable file s0 hst _
    have e : s0.typical = .fin (-0.5) := by
      rcases start_cases hst with ⟨-, rfl⟩ | ⟨bag, g, -, -, rfl⟩ <;> rfl
    exact Or.inr ⟨-0.5, e, by norm_num, by norm_num⟩
  · intro s e s' hI ha _ ht
    cases ht with
    | localMatched score correction cov scan back odom hi hb =>
      rcases hI with hI | ⟨r, hr, h1, h2⟩
      · left; simp [typicalResponse, hI]
      rcases ha score correction cov rfl with hx | ⟨x, hx, h3, h4⟩
      · left; simp [typicalResponse, hx, hr]
      right
      refine ⟨0.95 * r + 0.05 * x, ?_, ?_, ?_⟩
      · simp only [typicalResponse, hr, hx, Fl.fin_mul, Fl.fin_add]
      · norm_num; linarith
      · norm_num; linarith
    | laserIgnored msg mount odom odomEnd hi =>
      obtain ⟨r, l, g, m, e, -⟩ := setup_cases np.map msg mount s
      rw [e]; exact hI
    | laserScan msg mount odom odomEnd points hi hgo hinit ht =>
      obtain ⟨r, l, g, m, e, -⟩ := setup_cases np.map msg mount s
      rw [e]; exact hI
    | configureFlags action bag hi hl =>
      obtain ⟨en, ini, e, -⟩ := configureMapping_frame action s
      rw [e]; exact hI
    | load action bag g hi hl hg =>
      obtain ⟨en, ini, e, -⟩ := configureMapping_frame action s
      rw [e]; exact hI
    | loopReject score correction cov q cand hi hs =>
      obtain ⟨n, l, e⟩ := afterAttempt_frame q s
      rw [e]; exact hI
    | loopPush q c hi =>
      obtain ⟨n, l, e⟩ := afterAttempt_frame q { s with constraints := s.constraints ++ [c], update := true }
      rw [e]; exact hI
    | pubTf hi =>
      obtain ⟨x, e⟩ := pubTf_frame s
      rw [e]; exact hI
    | _ => exact hI

/-- **C125** A loop is closed only where the scan has its place in the map. In every reachable state of a node with NDT
matchers in which a candidate is tried and the closure accepted, the map it was tried on consists of the candidate and at
most the scan before it; the pose of the scan has been moved; and at the new pose the share of its beams (those used) that
have a place in that map - five of its points within one square - exceeds the magnitude of the typical response. -/
theorem c125_closed_where_it_has_its_place (np : NodeParams) (n n' : Node)
    (h : NodeReach np (FarMap np.map.rollingDepth) Sized n)
    (hl : 0 < np.localCfg.linearRes) (ha : 0 < np.localCfg.angularRes) (hb : 0 < np.localCfg.laserMaxBeams)
    (hres : 0 < np.globalCfg.resolution) (hgl : 0 < np.globalCfg.linearRes) (hga : 0 < np.globalCfg.angularRes)
    (hsmall : ∀ m g, n.globalN = some m → m.ndt = some g → g.sizeX * g.sizeY ≤ 2 ^ 31)
    (q : Search) (cand : Ptr) (hm : n.sys.loop = .matching q cand)
    (hsize : ∀ s, (n.sys.heap q.scan.epoch)[q.scan.idx]? = some s → s.points.length < 2 ^ 64)
    (junk : Mat3F) (hst : n.step np (.loopMatch junk) = .ok n') (q' : Search) (c : Constraint)
    (hp : n'.sys.loop = .pushing q' c) :
    ∃ t scan w, n.sys.typical = .fin t ∧ -1 ≤ t ∧ t ≤ 0 ∧
      (n'.sys.heap q.scan.epoch)[q.scan.idx]? = some scan ∧
      n.sys.globalM = some w ∧ w.length ≤ 2 ∧ w.getLast? = (n.sys.heap cand.epoch)[cand.idx]? ∧
      (∀ x ∈ w, (n.sys.heap cand.epoch)[cand.idx]? = some x ∨
        (0 < cand.idx ∧ (n.sys.heap cand.epoch)[cand.idx - 1]? = some x)) ∧
      -t * (beamCount np.globalCfg.laserMaxBeams scan.points.length : ℕ) <
        (placed np.globalCfg.resolution w ((samples scan.points
          (beamCount np.globalCfg.laserMaxBeams scan.points.length)).map (move scan.pose))).length := by
  have hT := Node.tied_reach h
  have hreg := regionInv_reach (Node.refines (B := SmallGraph) (fun n i n' e _ ha _ => ha.1) h)
  have htyp := typical_or_nan np _ n hl ha hb h
  obtain ⟨g, w, hg, hw, rng, hbu⟩ := hT.region q cand hm
  obtain ⟨-, h2, h3⟩ := hreg.region q cand hm
  rw [hw] at h3
  obtain ⟨m1, m2, m3⟩ := region_members h2
  obtain ⟨gr, hge, -⟩ := addScans_computed hbu
  have hndt : g.ndt = some gr := by rw [hge]
  cases Node.step_ntrans hst with
  | stutter => rw [hm] at hp; cases hp
  | loopMatch _ q1 c1 g1 scan r s hi hg1 hscan hr hs =>
    rw [hm] at hi
    cases hi
    rw [hg] at hg1
    cases hg1
    generalize he : Event.loopMatched r.score r.pose r.covariance = e at hs
    cases step_trans hs with
    | stutter => rw [hm] at hp; cases hp
    | loopReject score correction cov q2 cand2 hi2 hs2 =>
      exfalso
      dsimp only at hp
      unfold afterAttempt nextScan at hp
      split at hp <;> cases hp
    | loopAccept score correction cov q2 cand2 scan2 candidate hi2 hf hlt e1 e2 =>
      cases he
      rw [hm] at hi2
      cases hi2
      rw [hscan] at e1
      cases e1
      obtain ⟨t, ht, t1, t2⟩ : GoodScore n.sys.typical := by
        rcases htyp with h0 | h0
        · rw [h0] at hlt; exact absurd hlt (Fl.lt_nan _)
        · exact h0
      obtain ⟨v, hv⟩ : ∃ v, r.score = .fin v := by
        cases hsc : r.score with
        | fin v => exact ⟨v, rfl⟩
        | _ => rw [hsc] at hf; exact absurd hf (by simp)
      rw [hv, ht] at hlt
      have hlt' : v < t := hlt
      obtain ⟨hpos, key⟩ := c125_score_counts_places hbu hndt hres hgl hga (hsmall g gr hg hndt) scan (hsize scan hscan)
        Pose2d.zero junk hr v hv
      refine ⟨t, scan.setPose (addCorrection r.pose scan.getPose), w, ht, t1, t2, ?_, hw, ?_, ?_, ?_, ?_⟩
      · simp only [setPoseAt, if_true, List.getElem?_modify_eq, hscan]
        rfl
      · cases h3; exact m2
      · cases h3; exact m1
      · cases h3; exact m3
      · have hmv : addCorrection r.pose scan.getPose = offset scan.pose r.pose := by
          simp only [addCorrection, offset, Scan.getPose]; ext <;> simp <;> ring
        simp only [Scan.setPose, hmv]
        refine lt_of_lt_of_le ?_ key
        have hm0 : (0 : ℝ) < (beamCount np.globalCfg.laserMaxBeams scan.points.length : ℕ) := by exact_mod_cast hpos
        nlinarith
    | _ => cases he

/-- **C125** In particular at least one beam of a scan whose loop is closed ends, at its new pose, within one square of
five points of the candidate and the scan before it: a scan of another place closes no loop. -/
theorem c125_some_beam_has_a_place (np : NodeParams) (n n' : Node)
    (h : NodeReach np (FarMap np.map.rollingDepth) Sized n)
    (hl : 0 < np.localCfg.linearRes) (ha : 0 < np.localCfg.angularRes) (hb : 0 < np.localCfg.laserMaxBeams)
    (hres : 0 < np.globalCfg.resolution) (hgl : 0 < np.globalCfg.linearRes) (hga : 0 < np.globalCfg.angularRes)
    (hsmall : ∀ m g, n.globalN = some m → m.ndt = some g → g.sizeX * g.sizeY ≤ 2 ^ 31)
    (q : Search) (cand : Ptr) (hm : n.sys.loop = .matching q cand)
    (hsize : ∀ s, (n.sys.heap q.scan.epoch)[q.scan.idx]? = some s → s.points.length < 2 ^ 64)
    (junk : Mat3F) (hst : n.step np (.loopMatch junk) = .ok n') (q' : Search) (c : Constraint)
    (hp : n'.sys.loop = .pushing q' c) :
    ∃ scan w, ∃ p ∈ scan.points, (n'.sys.heap q.scan.epoch)[q.scan.idx]? = some scan ∧ n.sys.globalM = some w ∧
      5 ≤ (nearby np.globalCfg.resolution (pointsInMap w) (move scan.pose p)).length := by
  obtain ⟨t, scan, w, -, -, t2, e1, e2, -, -, -, h3⟩ := c125_closed_where_it_has_its_place np n n' h hl ha hb hres hgl hga
    hsmall q cand hm hsize junk hst q' c hp
  have h0 : (0 : ℝ) < (placed np.globalCfg.resolution w ((samples scan.points
      (beamCount np.globalCfg.laserMaxBeams scan.points.length)).map (move scan.pose))).length := by
    refine lt_of_le_of_lt ?_ h3
    exact mul_nonneg (by linarith) (Nat.cast_nonneg _)
  have h1 := List.exists_mem_of_length_pos (by exact_mod_cast h0)
  obtain ⟨x, hx⟩ := h1
  unfold placed at hx
  rw [List.mem_filter] at hx
  obtain ⟨hx, h5⟩ := hx
  obtain ⟨p, hp, rfl⟩ := List.mem_map.mp hx
  exact ⟨scan, w, p, (c12_samples_are_points _ _).2.1 p hp, e1, e2, @of_decide_eq_true _ (_) h5⟩

/-- Non-vacuity: a node with default matchers, started from a file with two scans of a wall, closes the loop. -/
example : ∃ n n' q cand, NodeReach closeNode (FarMap closeNode.map.rollingDepth) Sized n ∧
    0 < closeNode.localCfg.linearRes ∧ 0 < closeNode.localCfg.angularRes ∧ 0 < closeNode.localCfg.laserMaxBeams ∧
    0 < closeNode.globalCfg.resolution ∧ 0 < closeNode.globalCfg.linearRes ∧ 0 < closeNode.globalCfg.angularRes ∧
    (∀ m g, n.globalN = some m → m.ndt = some g → g.sizeX * g.sizeY ≤ 2 ^ 31) ∧
    n.sys.loop = .matching q cand ∧
    (∀ s, (n.sys.heap q.scan.epoch)[q.scan.idx]? = some s → s.points.length < 2 ^ 64) ∧
    ∃ junk, n.step closeNode (.loopMatch junk) = .ok n' ∧ ∃ q' c, n'.sys.loop = .pushing q' c := by
  obtain ⟨n, q, cand, mt, hr, hm, hs, he, hq, hc, ht, hg, hmt⟩ := closing_reached (FarMap closeNode.map.rollingDepth) Sized
    ⟨fun i s h => by
      match i, h with
      | 0, h => cases h; rfl
      | 1, h => cases h; rfl
      | i + 2, h => simp at h, fun c hc => by simp at hc⟩
    (fun n i h2 hno _ => ⟨by rw [h2]; norm_num, fun junk _ _ h => absurd h (hno junk)⟩)
  obtain ⟨gr, hgood, -, -, -, z1, z2⟩ := piece_goodMap { defaultMatcher with rangeMax := 10 }
    (by norm_num [defaultMatcher]) rfl (wallScanAt 0) (wallScanAt_sees 0)
  have h0 := hgood.ok
  rw [hmt] at h0
  have hs' : n.sys.heap 0 = [wallScanAt 0, wallScanAt 1] := by
    have h := hs
    unfold Sys.scans at h
    rwa [he] at h
  obtain ⟨junk, n', hst, hpu⟩ := closing_pushed hm hs he hq hc ht hg hmt
  refine ⟨n, n', q, cand, hr, by norm_num [closeNode, demoNode, defaultMatcher], by norm_num [closeNode, demoNode, defaultMatcher],
    by norm_num [closeNode, demoNode, defaultMatcher], by norm_num [closeNode, demoNode, defaultMatcher],
    by norm_num [closeNode, demoNode, defaultMatcher], by norm_num [closeNode, demoNode, defaultMatcher], ?_, hm, ?_, _, hst, hpu⟩
  · intro m g hm' hg'
    rw [hg] at hm'
    cases hm'
    injection h0 with h0
    rw [h0] at hg'
    cases hg'
    rw [z1, z2]; norm_num
  · intro s hs1
    rw [hq] at hs1
    simp only [hs', List.getElem?_cons_succ, List.getElem?_cons_zero] at hs1
    cases hs1
    norm_num [wallScanAt, wallPts]

end

end Ndt
