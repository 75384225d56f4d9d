import Verif.Model.Node
import Verif.Spec.Mapper
import Verif.Proof.Mapper

/-! # The steps of the node, as a list -/

namespace Ndt

open Spec Mapper

noncomputable section

namespace Node

/-- Events whose content the node computes itself. -/
def Computed : Event → Prop
  | .localMatched .. | .globalMatched .. | .loopMatched .. | .filtered .. | .pose .. => True
  | _ => False

/-- Every step of the node is one of these. -/
inductive NTrans (np : NodeParams) (n : Node) : Input → Node → Prop
  | stutter (i : Input) : NTrans np n i n
  | plain (e : Event) (s : Sys) (hc : ¬ Computed e) (hw : e = .addWindow → ∀ scan odom, n.sys.spin ≠ .window scan odom)
      (hl : e = .loopCandidate → ∀ q q' c, n.sys.loop = .candidates q → s.loop ≠ .matching q' c)
      (hm : ∀ msg mount odom odomEnd, e = .laser msg mount odom odomEnd → ¬ n.makesMatchers mount)
      (hs : Mapper.step np.map n.sys e = .ok s) : NTrans np n (.plain e) { n with sys := s }
  | makes (msg : LaserMsg) (mount : Option (Pose2d × Bool)) (odom odomEnd : Option Pose2d) (r : ℝ) (g : Matcher) (s : Sys)
      (hm : n.makesMatchers mount) (hr : Laser.latchRangeMax n.sys.rangeMax msg = .fin r)
      (hg : (if np.map.useFilter || !n.sys.enable then
        Matcher.addScans { np.globalCfg with rangeMax := r, ndt := none } n.sys.scans
        else .ok { np.globalCfg with rangeMax := r, ndt := none }) = .ok g)
      (hs : Mapper.step np.map n.sys (.laser msg mount odom odomEnd) = .ok s) :
      NTrans np n (.plain (.laser msg mount odom odomEnd))
        ⟨s, some g, some { np.localCfg with rangeMax := r, ndt := none }, n.filter⟩
  | addWindow (scan : Scan) (odom : Pose2d) (s : Sys) (l l' : Matcher) (w : List Scan) (hi : n.sys.spin = .window scan odom)
      (hl : n.localN = some l) (hw : s.localM = some w) (ha : l.reset.addScans w = .ok l')
      (hs : Mapper.step np.map n.sys .addWindow = .ok s) :
      NTrans np n (.plain .addWindow) { n with sys := s, localN := some l' }
  | loopMap (q q' : Search) (c : Ptr) (s : Sys) (g g' : Matcher) (w : List Scan) (hi : n.sys.loop = .candidates q)
      (hi' : s.loop = .matching q' c) (hg : n.globalN = some g) (hw : s.globalM = some w)
      (ha : g.reset.addScans w = .ok g') (hs : Mapper.step np.map n.sys .loopCandidate = .ok s) :
      NTrans np n (.plain .loopCandidate) { n with sys := s, globalN := some g' }
  | localMatch (junk : Mat3F) (scan : Scan) (odom : Pose2d) (l : Matcher) (sc : Fl) (r : Matcher.MatchResult) (s : Sys)
      (hi : n.sys.spin = .matching scan odom) (hl : n.localN = some l) (hsc : l.scoreScan scan = .ok sc)
      (hr : l.matchScan scan Pose2d.zero junk = .ok r)
      (hs : Mapper.step np.map n.sys (.localMatched r.score r.pose r.covariance) = .ok s) :
      NTrans np n (.localMatch junk) { n with sys := s }
  | globalMatch (junk : Mat3F) (scan : Scan) (odom : Pose2d) (g : Matcher) (sc : Fl) (r : Matcher.MatchResult) (s : Sys)
      (hi : n.sys.spin = .localise scan odom) (hg : n.globalN = some g) (hsc : g.scoreScan scan = .ok sc)
      (hr : g.matchScan scan Pose2d.zero junk = .ok r)
      (hs : Mapper.step np.map n.sys (.globalMatched r.pose) = .ok s) :
      NTrans np n (.globalMatch junk) { n with sys := s }
  | loopMatch (junk : Mat3F) (q : Search) (c : Ptr) (g : Matcher) (scan : Scan) (r : Matcher.MatchResult) (s : Sys)
      (hi : n.sys.loop = .matching q c) (hg : n.globalN = some g)
      (hscan : (n.sys.heap q.scan.epoch)[q.scan.idx]? = some scan) (hr : g.matchScan scan Pose2d.zero junk = .ok r)
      (hs : Mapper.step np.map n.sys (.loopMatched r.score r.pose r.covariance) = .ok s) :
      NTrans np n (.loopMatch junk) { n with sys := s }
  | filterScan (nrm : MotionModel.Draws) (draw : ℕ → ℕ) (scan : Scan) (odom : Pose2d) (f f1 f2 f3 : Filter) (g : Matcher)
      (mean : Pose2d) (s : Sys) (hi : n.sys.spin = .filter scan odom) (hf : n.filter = some f) (hg : n.globalN = some g)
      (h1 : f.update nrm (control n.sys.prevRobot scan.pose).x (control n.sys.prevRobot scan.pose).y
        (control n.sys.prevRobot scan.pose).theta = .ok f1)
      (h2 : f1.measure (fun p => g.scorePoints scan.points p) = .ok f2)
      (h3 : f2.resample np.kldErr np.kldZ draw = .ok f3) (h4 : meanPose f3 = .ok mean)
      (hs : Mapper.step np.map n.sys (.filtered mean) = .ok s) :
      NTrans np n (.filterScan nrm draw) { n with sys := s, filter := some f3 }
  | poseInit (msg : PoseMsg) (odom : Option Pose2d) (visit : List ℕ) (nrm : MotionModel.Draws) (f f' : Filter) (s : Sys)
      (hi : initsFilter np n msg odom visit) (hf : n.filter = some f)
      (h1 : f.init nrm msg.pose.x msg.pose.y msg.pose.theta (Real.sqrt msg.covX) (Real.sqrt msg.covY)
        (Real.sqrt msg.covTheta) = .ok f')
      (hs : Mapper.step np.map n.sys (.pose msg odom visit) = .ok s) :
      NTrans np n (.pose msg odom visit nrm) { n with sys := s, filter := some f' }
  | pose (msg : PoseMsg) (odom : Option Pose2d) (visit : List ℕ) (nrm : MotionModel.Draws) (s : Sys)
      (hi : ¬ initsFilter np n msg odom visit) (hs : Mapper.step np.map n.sys (.pose msg odom visit) = .ok s) :
      NTrans np n (.pose msg odom visit nrm) { n with sys := s }

theorem mapper_ok {np : NodeParams} {n n' : Node} {e : Event} (h : n.mapper np e = .ok n') :
    ∃ s, Mapper.step np.map n.sys e = .ok s ∧ n' = { n with sys := s } := by
  obtain ⟨s, hs, h⟩ := bind_ok h
  cases h
  exact ⟨s, hs, rfl⟩

theorem initMatcher_ok {cfg m : Matcher} {range : Fl} (h : initMatcher cfg range = .ok m) :
    ∃ r, range = .fin r ∧ m = { cfg with rangeMax := r, ndt := none } := by
  cases range <;> first | (cases h; done) | skip
  rename_i r
  cases h
  exact ⟨r, rfl, rfl⟩

theorem step_ntrans {np : NodeParams} {n n' : Node} {i : Input} (h : n.step np i = .ok n') : NTrans np n i n' := by
  have plain_ok : ∀ e, ¬ Computed e → e ≠ .addWindow → e ≠ .loopCandidate →
      (∀ msg mount odom odomEnd, e = .laser msg mount odom odomEnd → ¬ n.makesMatchers mount) →
      n.mapper np e = .ok n' → NTrans np n (.plain e) n' := by
    intro e h1 h2 h3 h4 h
    obtain ⟨s, hs, rfl⟩ := mapper_ok h
    exact .plain e s h1 (fun h => absurd h h2) (fun h => absurd h h3) h4 hs
  cases i with
  | plain e =>
    cases e with
    | laser msg mount odom odomEnd =>
      simp only [step] at h
      split at h
      · rename_i hm
        obtain ⟨n1, h1, h⟩ := bind_ok h
        obtain ⟨s, hs, rfl⟩ := mapper_ok h
        unfold makeMatchers at h1
        dsimp only at h1
        obtain ⟨g0, hg0, h1⟩ := bind_ok h1
        obtain ⟨g, hg, h1⟩ := bind_ok h1
        obtain ⟨l, hl, h1⟩ := bind_ok h1
        obtain ⟨r, hr, rfl⟩ := initMatcher_ok hg0
        obtain ⟨r', hr', rfl⟩ := initMatcher_ok hl
        rw [hr] at hr'
        cases hr'
        cases h1
        exact .makes msg mount odom odomEnd r g s hm hr hg hs
      · rename_i hm
        refine plain_ok _ id (by simp) (by simp) ?_ h
        intro _ _ _ _ he
        cases he
        exact hm
    | addWindow =>
      simp only [step] at h
      split at h
      · rename_i scan odom hi
        obtain ⟨s, hs, h⟩ := bind_ok h
        split at h
        · rename_i l w hl hw
          obtain ⟨l', ha, h⟩ := bind_ok h
          cases h
          exact .addWindow scan odom s l l' w hi hl hw ha hs
        · cases h
      · cases h; exact .stutter _
    | loopCandidate =>
      simp only [step] at h
      obtain ⟨s, hs, h⟩ := bind_ok h
      split at h
      · rename_i q q' c hi hi'
        split at h
        · rename_i g w hg hw
          obtain ⟨g', ha, h⟩ := bind_ok h
          cases h
          exact .loopMap q q' c s g g' w hi hi' hg hw ha hs
        · cases h
      · rename_i hno
        cases h
        refine .plain _ s id (by simp) ?_ (by simp) hs
        intro _ q q' c hq hc
        exact hno q q' c hq hc
    | localMatched _ _ _ => cases h; exact .stutter _
    | globalMatched _ => cases h; exact .stutter _
    | loopMatched _ _ _ => cases h; exact .stutter _
    | filtered _ => cases h; exact .stutter _
    | pose _ _ _ => cases h; exact .stutter _
    | _ => exact plain_ok _ id (by simp) (by simp) (by simp) h
  | localMatch junk =>
    simp only [step] at h
    split at h
    · rename_i scan odom hi
      split at h
      · rename_i l hl
        obtain ⟨sc, hsc, h⟩ := bind_ok h
        obtain ⟨r, hr, h⟩ := bind_ok h
        obtain ⟨s, hs, rfl⟩ := mapper_ok h
        exact .localMatch junk scan odom l sc r s hi hl hsc hr hs
      · cases h
    · cases h; exact .stutter _
  | globalMatch junk =>
    simp only [step] at h
    split at h
    · rename_i scan odom hi
      split at h
      · rename_i g hg
        obtain ⟨sc, hsc, h⟩ := bind_ok h
        obtain ⟨r, hr, h⟩ := bind_ok h
        obtain ⟨s, hs, rfl⟩ := mapper_ok h
        exact .globalMatch junk scan odom g sc r s hi hg hsc hr hs
      · cases h
    · cases h; exact .stutter _
  | loopMatch junk =>
    simp only [step] at h
    split at h
    · rename_i q c hi
      split at h
      · rename_i g scan hg hscan
        obtain ⟨r, hr, h⟩ := bind_ok h
        obtain ⟨s, hs, rfl⟩ := mapper_ok h
        exact .loopMatch junk q c g scan r s hi hg hscan hr hs
      · cases h
    · cases h; exact .stutter _
  | filterScan nrm draw =>
    simp only [step] at h
    split at h
    · rename_i scan odom hi
      split at h
      · rename_i f g hf hg
        split at h
        · cases h
        obtain ⟨f1, h1, h⟩ := bind_ok h
        obtain ⟨f2, h2, h⟩ := bind_ok h
        obtain ⟨f3, h3, h⟩ := bind_ok h
        obtain ⟨mean, h4, h⟩ := bind_ok h
        obtain ⟨n1, h5, h⟩ := bind_ok h
        obtain ⟨s, hs, rfl⟩ := mapper_ok h5
        cases h
        exact .filterScan nrm draw scan odom f f1 f2 f3 g mean s hi hf hg h1 h2 h3 h4 hs
      · cases h
    · cases h; exact .stutter _
  | pose msg odom visit nrm =>
    simp only [step] at h
    split at h
    · rename_i hi
      split at h
      · rename_i f hf
        split at h
        · cases h
        obtain ⟨f', h1, h⟩ := bind_ok h
        obtain ⟨n1, h5, h⟩ := bind_ok h
        obtain ⟨s, hs, rfl⟩ := mapper_ok h5
        cases h
        exact .poseInit msg odom visit nrm f f' s hi hf h1 hs
      · cases h
    · rename_i hi
      obtain ⟨s, hs, rfl⟩ := mapper_ok h
      exact .pose msg odom visit nrm s hi hs

end Node

end

end Ndt
