import Verif.Proof.DemoLoop
import Verif.Props.WallProps

/-! # A node that closes a loop, used in examples -/

namespace Ndt

open Spec Mapper

noncomputable section

/-- The loop closure thread takes the second of two scans at the same place and tries the first. -/
theorem run_pairMatching (p : Params) (s : Sys) (a b : Scan) (hd : p.rollingDepth = 0) (hz : 0 < p.searchSize)
    (hb : p.useBarycenter = false) (hs : s.scans = [a, b]) (hab : a.pose = b.pose) (hpts : a.points ≠ [])
    (hl : s.loop = .asleep) (he : s.enable = true) (hp : s.processed = 0) (w : List Scan) (hw : s.globalM = some w) :
    step p s .loopWake = .ok { s with loop := .counting } ∧
    step p { s with loop := .counting } .loopCount = .ok { s with processed := 1, loop := .picking ⟨2, false⟩ } ∧
    step p { s with processed := 1, loop := .picking ⟨2, false⟩ } (.loopPick [0]) =
      .ok (demoSearch s p.searchLimit) ∧
    step p (demoSearch s p.searchLimit) .loopCandidate = .ok { s with
      processed := 1, globalM := some [a], loop := .matching ⟨⟨2, false⟩, 1, ⟨s.epoch, 1⟩, [], p.searchLimit⟩ ⟨s.epoch, 0⟩ } := by
  have hs1 : s.heap s.epoch = [a, b] := hs
  refine ⟨?_, ?_, ?_, ?_⟩
  · unfold step; rw [hl]; simp [he]
  · have hlen : (({ s with loop := .counting } : Sys)).scans.length = 2 := by
      show s.scans.length = 2
      rw [hs]; rfl
    unfold step
    dsimp only
    unfold loopCount
    rw [hlen, if_neg (by simp [hd])]
    simp [hd, hp]
  · have hw : wrapI32 1 = 1 := by decide
    have hv : Visits [0] 1 := by unfold Visits; simp
    have hf : (({ s with processed := 1, loop := .picking ⟨2, false⟩ } : Sys).graph p).findNearest [0]
        b p.searchSize 1 = .ok [0] := by
      unfold Graph.findNearest
      simp only [Sys.graph, Sys.scans, hs1]
      rw [if_neg (by simp), List.filter_eq_self.mpr]
      · simp
      · intro i hi
        simp at hi
        subst hi
        simp [hb, Graph.refPose, Graph.sqDist, Scan.getPose, hab]
        exact hz
    unfold step
    dsimp only
    rw [if_neg (by simp [hd, hw, hv])]
    unfold loopPick
    dsimp only
    rw [if_pos (by norm_num)]
    simp only [Sys.scans, hs1]
    simp only [hd, Nat.sub_zero, hw]
    simp only [List.getElem?_cons_succ, List.getElem?_cons_zero]
    rw [hf]
    rfl
  · unfold step demoSearch
    dsimp only
    unfold loopCandidate
    simp [Sys.scans, hs1, hw, Scan.getPoints, hpts]

/-- A scan of the wall. -/
def wallScanAt (i : ℕ) : Scan := ⟨i, true, Pose2d.zero, Pose2d.zero, wallPts⟩

theorem wallScanAt_sees (i : ℕ) : SeesPiece (wallScanAt i) where
  x := rfl
  y := rfl
  on := wallScan_sees.on
  five := wallScan_sees.five
  few := wallScan_sees.few
  two := wallScan_sees.two

/-- A file with two scans of the wall. -/
def wallBag : List BagMsg :=
  [⟨"scans", .scan ⟨0, 0, 0, 0, wallPts⟩⟩, ⟨"scans", .scan ⟨1, 0, 0, 0, wallPts⟩⟩]

theorem wallBag_load (use : Bool) : Graph.load use wallBag = .ok ⟨use, [wallScanAt 0, wallScanAt 1], []⟩ := by
  simp [Graph.load, wallBag, Graph.loadMsg, Graph.new, Graph.scanOfMsg, wallScanAt, Pose2d.zero, Scan.setPose, Scan.setPoints, Scan.new]

/-- Default parameters but for the barycentre and a rolling window of one scan. -/
def closeNode : NodeParams := { demoNode false with map := demoParams 0 3 }

/-- A node that tries to close a loop, by inputs of which something is required that holds while the graph is small. -/
theorem closing_reached (W : Graph → Prop) (A : Node → Input → Prop)
    (hW : W ⟨closeNode.map.useBarycenter, [wallScanAt 0, wallScanAt 1], []⟩)
    (hA : ∀ n i, n.sys.scans.length = 2 → (∀ junk, i ≠ .localMatch junk) → (∀ junk, i ≠ .loopMatch junk) → A n i) :
    ∃ n q cand mt, NodeReach closeNode W A n ∧ n.sys.loop = .matching q cand ∧
      n.sys.scans = [wallScanAt 0, wallScanAt 1] ∧ n.sys.epoch = 0 ∧ q.scan = ⟨0, 1⟩ ∧ cand = ⟨0, 0⟩ ∧
      n.sys.typical = .fin (-0.5) ∧ n.globalN = some mt ∧
      Matcher.addScans { defaultMatcher with rangeMax := 10 } [wallScanAt 0] = .ok mt := by
  set p := closeNode.map with hp
  set s0 : Sys := startWith p true true ⟨p.useBarycenter, [wallScanAt 0, wallScanAt 1], []⟩ with hs0
  set n0 : Node := ⟨s0, none, none, none⟩ with hn0
  have h0 : Node.start closeNode true (some wallBag) = .ok n0 := by
    unfold Node.start Mapper.start
    simp only [wallBag_load, Res.ok_bind]
    rfl
  set g : Matcher := { defaultMatcher with rangeMax := 10, ndt := none } with hg
  set s1 : Sys := demoSetUp p s0 with hs1
  set n1 : Node := ⟨s1, some g, some g, none⟩ with hn1
  have e1 : n0.step closeNode (.plain (demoLaser Pose2d.zero)) = .ok n1 := by
    rw [Node.step_first_laser closeNode n0 Pose2d.zero rfl rfl rfl rfl rfl]
    rw [show n0.sys = s0 from rfl, step_demoSetUp p s0 Pose2d.zero rfl rfl rfl]
    rfl
  have hsc : s1.scans = [wallScanAt 0, wallScanAt 1] := rfl
  obtain ⟨f1, f2, f3, f4⟩ := run_pairMatching p s1 (wallScanAt 0) (wallScanAt 1) rfl (by norm_num [hp, closeNode, demoParams])
    rfl hsc rfl (by simp [wallScanAt, wallPts]) rfl rfl rfl [] rfl
  obtain ⟨mt, hmt, -⟩ := piece_pushed (wallScanAt 0) (wallScanAt 0) (wallScanAt_sees 0) (wallScanAt_sees 0)
  set t1 : Sys := { s1 with loop := .counting } with ht1
  set t2 : Sys := { s1 with processed := 1, loop := .picking ⟨2, false⟩ } with ht2
  set t3 : Sys := demoSearch s1 p.searchLimit with ht3
  set t4 : Sys := { s1 with processed := 1, globalM := some [wallScanAt 0], loop := .matching ⟨⟨2, false⟩, 1, ⟨s1.epoch, 1⟩, [], p.searchLimit⟩ ⟨s1.epoch, 0⟩ } with ht4
  have c1 : n1.step closeNode (.plain .loopWake) = .ok { n1 with sys := t1 } := by
    show (Mapper.step p s1 _ >>= _) = _
    rw [f1]; rfl
  have c2 : Node.step closeNode { n1 with sys := t1 } (.plain .loopCount) = .ok { n1 with sys := t2 } := by
    show (Mapper.step p t1 _ >>= _) = _
    rw [f2]; rfl
  have c3 : Node.step closeNode { n1 with sys := t2 } (.plain (.loopPick [0])) = .ok { n1 with sys := t3 } := by
    show (Mapper.step p t2 _ >>= _) = _
    rw [f3]; rfl
  have c4 : Node.step closeNode { n1 with sys := t3 } (.plain .loopCandidate) =
      .ok { n1 with sys := t4, globalN := some mt } := by
    show (Mapper.step p t3 _ >>= _) = _
    rw [f4]
    show (g.reset.addScans [wallScanAt 0] >>= _) = _
    rw [show g.reset = { defaultMatcher with rangeMax := 10 } from rfl, hmt]
    rfl
  refine ⟨{ n1 with sys := t4, globalN := some mt }, _, _, mt, ?_, rfl, hsc, rfl, rfl, rfl, rfl, rfl, hmt⟩
  refine ⟨true, some wallBag, n0, [] ++ [.plain (demoLaser Pose2d.zero)] ++ [.plain .loopWake] ++ [.plain .loopCount] ++
    [.plain (.loopPick [0])] ++ [.plain .loopCandidate], h0, ?_, ?_⟩
  · intro bag hb g hg
    cases hb
    rw [wallBag_load] at hg
    cases hg
    exact hW
  · refine .snoc (.snoc (.snoc (.snoc (.snoc .nil ?_ e1) ?_ c1) ?_ c2) ?_ c3) ?_ c4
    all_goals exact ⟨hA _ _ rfl (by simp) (by simp), by simp [demoLaser]⟩

/-- The loop is closed. -/
theorem closing_pushed {n : Node} {q : Search} {cand : Ptr} {mt : Matcher} (hm : n.sys.loop = .matching q cand)
    (hs : n.sys.scans = [wallScanAt 0, wallScanAt 1]) (he : n.sys.epoch = 0) (hq : q.scan = ⟨0, 1⟩) (hc : cand = ⟨0, 0⟩)
    (ht : n.sys.typical = .fin (-0.5)) (hg : n.globalN = some mt)
    (hmt : Matcher.addScans { defaultMatcher with rangeMax := 10 } [wallScanAt 0] = .ok mt) :
    ∃ junk n', n.step closeNode (.loopMatch junk) = .ok n' ∧ ∃ q' c, n'.sys.loop = .pushing q' c := by
  obtain ⟨mt2, h2, hpush⟩ := piece_pushed (wallScanAt 0) (wallScanAt 1) (wallScanAt_sees 0) (wallScanAt_sees 1)
  rw [hmt] at h2
  cases h2
  obtain ⟨r, hr1, hr2, hr3⟩ := hpush Pose2d.zero fun _ _ => .nan
  have hs' : n.sys.heap 0 = [wallScanAt 0, wallScanAt 1] := by
    have h := hs
    unfold Sys.scans at h
    rwa [he] at h
  refine ⟨fun _ _ => .nan, ?_⟩
  simp only [Node.step, hm, hg, hq, hs', List.getElem?_cons_succ, List.getElem?_cons_zero, hr1, Res.ok_bind]
  unfold Node.mapper
  unfold Mapper.step
  simp only [hm]
  unfold loopMatched
  rw [if_pos ⟨by rw [hr3]; trivial, by rw [hr3, ht]; show (-1 : ℝ) < -0.5; norm_num⟩, hq, hc]
  simp only [hs', List.getElem?_cons_succ, List.getElem?_cons_zero, Res.ok_bind]
  exact ⟨_, rfl, _, _, rfl⟩

end

end Ndt
