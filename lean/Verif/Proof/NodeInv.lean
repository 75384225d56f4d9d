import Verif.Proof.Node
import Verif.Proof.Exec
import Verif.Spec.Node

/-! # The matchers the mapper talks about are the matchers of the node -/

namespace Ndt

open Spec Mapper

noncomputable section

namespace Node

/-- What the matchers hold is what the mapper thinks they hold. -/
structure Tied (np : NodeParams) (n : Node) : Prop where
  global : n.sys.globalM = none ↔ n.globalN = none
  loc : n.sys.localM = none ↔ n.localN = none
  laser : n.sys.laser = none → n.globalN = none
  gcfg : ∀ g, n.globalN = some g → HasParams np.globalCfg g
  lcfg : ∀ l, n.localN = some l → HasParams np.localCfg l
  gmap : ∀ g, n.globalN = some g → g.ndt = none ∨ ∃ w, n.sys.globalM = some w ∧ BuiltOf np.globalCfg w g
  window : ∀ scan odom, n.sys.spin = .matching scan odom → ∃ l w, n.localN = some l ∧ n.sys.localM = some w ∧
    BuiltOf np.localCfg w l
  region : ∀ q c, n.sys.loop = .matching q c → ∃ g w, n.globalN = some g ∧ n.sys.globalM = some w ∧
    BuiltOf np.globalCfg w g

/-- What of the state of the mapper concerns the matchers. -/
def SameMatchers (s s' : Sys) : Prop :=
  s'.globalM = s.globalM ∧ s'.localM = s.localM ∧ (s'.laser = none → s.laser = none) ∧
  (∀ scan odom, s'.spin = .matching scan odom → s.spin = .matching scan odom) ∧
  ∀ q c, s'.loop = .matching q c → s.loop = .matching q c

theorem afterAttempt_loop (q : Search) (s : Sys) (q' : Search) (c : Ptr) : (afterAttempt q s).loop ≠ .matching q' c := by
  unfold afterAttempt nextScan
  split <;> simp

theorem branch_ne (p : Params) (s : Sys) (scan : Scan) (odom : Pose2d) (scan' : Scan) (odom' : Pose2d) :
    branch p s scan odom ≠ .matching scan' odom' := by
  unfold branch
  split
  · simp
  · split
    · split <;> simp
    · simp

/-- All steps but the three that build maps. -/
theorem sameMatchers_step {p : Params} {s s' : Sys} {e : Event} (ht : Trans p s e s')
    (hw : e = .addWindow → ∀ scan odom, s.spin ≠ .window scan odom)
    (hl : e = .loopCandidate → ∀ q q' c, s.loop = .candidates q → s'.loop ≠ .matching q' c)
    (hm : ∀ msg mount odom odomEnd, e = .laser msg mount odom odomEnd → s.spin = .idle → s.laser = none → mount = none) :
    SameMatchers s s' := by
  have setup : ∀ msg mount odom odomEnd, e = .laser msg mount odom odomEnd → s.spin = .idle →
      ∃ r, (laserSetup p msg mount s).1 = { s with rangeMax := r } := by
    intro msg mount odom odomEnd he hi
    cases hla : s.laser with
    | some l => exact ⟨Laser.latchRangeMax s.rangeMax msg, by simp [laserSetup, hla]⟩
    | none =>
      have := hm msg mount odom odomEnd he hi hla
      subst this
      exact ⟨Laser.latchRangeMax s.rangeMax msg, by simp [laserSetup, hla]⟩
  cases ht with
  | laserIgnored msg mount odom odomEnd hi =>
    obtain ⟨r, e⟩ := setup _ _ _ _ rfl hi
    rw [e]; exact ⟨rfl, rfl, id, fun _ _ h => h, fun _ _ h => h⟩
  | laserScan msg mount odom odomEnd points hi hgo hinit htl =>
    obtain ⟨r, e⟩ := setup _ _ _ _ rfl hi
    rw [e]
    exact ⟨rfl, rfl, id, fun scan odom h => absurd h (branch_ne _ _ _ _ _ _), fun _ _ h => h⟩
  | addWindow scan odom w hi hl' hw' => exact absurd hi (hw rfl scan odom)
  | loopCandidate q i rest cand hi hr hc hg => exact absurd rfl (hl rfl q _ _ hi)
  | loopReject score correction cov q cand hi hs =>
    have h0 := afterAttempt_loop q s
    obtain ⟨n, l, e⟩ := afterAttempt_frame q s
    rw [e] at h0 ⊢
    exact ⟨rfl, rfl, id, fun _ _ h => h, fun q c h => absurd h (h0 q c)⟩
  | loopPush q c hi =>
    have h0 := afterAttempt_loop q { s with constraints := s.constraints ++ [c], update := true }
    obtain ⟨n, l, e⟩ := afterAttempt_frame q { s with constraints := s.constraints ++ [c], update := true }
    rw [e] at h0 ⊢
    exact ⟨rfl, rfl, id, fun _ _ h => h, fun q c h => absurd h (h0 q c)⟩
  | configureFlags action bag hi hl' =>
    obtain ⟨en, ini, e, -⟩ := configureMapping_frame action s
    rw [e]; exact ⟨rfl, rfl, id, fun _ _ h => h, fun _ _ h => h⟩
  | load action bag g hi hl' hg =>
    obtain ⟨en, ini, e, -⟩ := configureMapping_frame action s
    rw [e]; exact ⟨rfl, rfl, id, fun _ _ h => h, fun _ _ h => h⟩
  | pubTf hi =>
    obtain ⟨x, e⟩ := pubTf_frame s
    rw [e]; exact ⟨rfl, rfl, id, fun _ _ h => h, fun _ _ h => h⟩
  | loopDecide r hi =>
    refine ⟨rfl, rfl, id, fun _ _ h => h, fun q c h => ?_⟩
    dsimp only at h
    split at h <;> cases h
  | _ => exact ⟨rfl, rfl, id, fun _ _ h => by first | exact h | (cases h; done),
      fun _ _ h => by first | exact h | (cases h; done)⟩

theorem Tied.same {np : NodeParams} {n : Node} (h : Tied np n) {s : Sys} (hs : SameMatchers n.sys s) (f : Option Filter) :
    Tied np { n with sys := s, filter := f } := by
  obtain ⟨h1, h2, h3, h4, h5⟩ := hs
  refine ⟨?_, ?_, fun hl => h.laser (h3 hl), h.gcfg, h.lcfg, ?_, ?_, ?_⟩
  · show s.globalM = none ↔ _; rw [h1]; exact h.global
  · show s.localM = none ↔ _; rw [h2]; exact h.loc
  · intro g hg; show _ ∨ ∃ w, s.globalM = some w ∧ _; rw [h1]; exact h.gmap g hg
  · intro scan odom hi
    obtain ⟨l, w, a, b, c⟩ := h.window scan odom (h4 _ _ hi)
    exact ⟨l, w, a, h2.trans b, c⟩
  · intro q c hi
    obtain ⟨g, w, a, b, d⟩ := h.region q c (h5 _ _ hi)
    exact ⟨g, w, a, h1.trans b, d⟩

theorem hasParams_of_built {cfg m : Matcher} {w : List Scan} (h : BuiltOf cfg w m) : HasParams cfg m := by
  obtain ⟨r, h⟩ := h
  unfold Matcher.addScans at h
  obtain ⟨g0, -, h⟩ := bind_ok h
  obtain ⟨g, -, h⟩ := bind_ok h
  cases h
  exact ⟨r, some g.compute, rfl⟩

theorem built_of_reset {cfg m m' : Matcher} {w : List Scan} (hp : HasParams cfg m) (h : m.reset.addScans w = .ok m') :
    BuiltOf cfg w m' := by
  obtain ⟨r, nd, rfl⟩ := hp
  exact ⟨r, h⟩

theorem tied_step {np : NodeParams} {n n' : Node} {i : Input} (hI : Tied np n) (h : n.step np i = .ok n') :
    Tied np n' := by
  have hl0 : n.sys.laser = none → ∀ q c, n.sys.loop ≠ .matching q c := by
    intro hl q c hq
    obtain ⟨g, w, hg, -⟩ := hI.region q c hq
    rw [hI.laser hl] at hg
    cases hg
  cases step_ntrans h with
  | stutter => exact hI
  | plain e s hc hw hl hm hs =>
    refine hI.same (sameMatchers_step (step_trans hs) hw hl ?_) _
    intro msg mount odom odomEnd he hi hla
    by_contra hne
    exact hm _ _ _ _ he ⟨hi, hla, hne⟩
  | makes msg mount odom odomEnd r g s hm hr hg hs =>
    obtain ⟨hi, hla, hmount⟩ := hm
    obtain ⟨m, rfl⟩ := Option.ne_none_iff_exists'.mp hmount
    have hgm : HasParams np.globalCfg g ∧ (g.ndt = none ∨ (np.map.useFilter || !n.sys.enable) = true ∧
        BuiltOf np.globalCfg n.sys.scans g) := by
      split at hg
      · rename_i hb
        have hbu : BuiltOf np.globalCfg n.sys.scans g := ⟨r, hg⟩
        exact ⟨hasParams_of_built hbu, Or.inr ⟨hb, hbu⟩⟩
      · cases hg; exact ⟨⟨r, none, rfl⟩, Or.inl rfl⟩
    have hfr : ∃ en, s.globalM = some (if np.map.useFilter || !n.sys.enable then n.sys.scans else []) ∧
        s.localM = some [] ∧ s.laser = some m ∧ s.loop = n.sys.loop ∧ s.spin = en ∧ ∀ scan odom, en ≠ .matching scan odom := by
      have hsetup : (laserSetup np.map msg (some m) n.sys).1 = { n.sys with
          rangeMax := Laser.latchRangeMax n.sys.rangeMax msg, laser := some m,
          globalM := some (if np.map.useFilter || !n.sys.enable then n.sys.scans else []), localM := some [] } := by
        simp [laserSetup, hla]
      have hgo : (laserSetup np.map msg (some m) n.sys).2 = true := by simp [laserSetup, hla]
      have hkey : s = (laserSetup np.map msg (some m) n.sys).1 ∨ ∃ scan o,
          s = { (laserSetup np.map msg (some m) n.sys).1 with
            spin := branch np.map (laserSetup np.map msg (some m) n.sys).1 scan o } := by
        simp only [Mapper.step, hi] at hs
        unfold laserCallback at hs
        simp only at hs
        split at hs
        · injection hs with hs; exact Or.inl hs.symm
        split at hs
        · injection hs with hs; exact Or.inl hs.symm
        split at hs
        · injection hs with hs; exact Or.inl hs.symm
        split at hs
        · injection hs with hs; exact Or.inl hs.symm
        split at hs
        · injection hs with hs; exact Or.inl hs.symm
        split at hs
        · injection hs with hs; exact Or.inl hs.symm
        obtain ⟨fp, -, hs⟩ := bind_ok hs
        obtain ⟨pts, -, hs⟩ := bind_ok hs
        injection hs with hs
        exact Or.inr ⟨_, _, hs.symm⟩
      rcases hkey with e | ⟨scan, o, e⟩
      · rw [e, hsetup]
        exact ⟨_, rfl, rfl, rfl, rfl, rfl, fun _ _ h => by rw [hi] at h; cases h⟩
      · have hb := branch_ne np.map (laserSetup np.map msg (some m) n.sys).1 scan o
        rw [e]
        rw [hsetup] at hb ⊢
        exact ⟨_, rfl, rfl, rfl, rfl, rfl, hb⟩
    obtain ⟨en, e1, e2, e3, e4, e5, e6⟩ := hfr
    refine ⟨?_, ?_, ?_, ?_, ?_, ?_, ?_, ?_⟩
    · show s.globalM = none ↔ _; rw [e1]; simp
    · show s.localM = none ↔ _; rw [e2]; simp
    · intro hn; rw [show s.laser = _ from e3] at hn; cases hn
    · intro g' hg'; cases hg'; exact hgm.1
    · intro l' hl'; cases hl'; exact ⟨r, none, rfl⟩
    · intro g' hg'; cases hg'
      rcases hgm.2 with h0 | ⟨hb, hbu⟩
      · exact Or.inl h0
      · refine Or.inr ⟨n.sys.scans, ?_, hbu⟩
        show s.globalM = _; rw [e1, if_pos hb]
    · intro scan odom hsp; exact absurd (e5.symm.trans hsp) (e6 _ _)
    · intro q c hq; exact absurd (e4.symm.trans hq) (hl0 hla q c)
  | addWindow scan odom s l l' w hi hl hw ha hs =>
    have hbu := built_of_reset (hI.lcfg l hl) ha
    have hsame : s.globalM = n.sys.globalM ∧ s.laser = n.sys.laser ∧ s.loop = n.sys.loop := by
      have ht := step_trans hs
      generalize he : Event.addWindow = e at ht
      cases ht with
      | stutter => exact ⟨rfl, rfl, rfl⟩
      | addWindow => exact ⟨rfl, rfl, rfl⟩
      | _ => cases he
    obtain ⟨e1, e2, e3⟩ := hsame
    refine ⟨?_, ?_, ?_, hI.gcfg, ?_, ?_, ?_, ?_⟩
    · show s.globalM = none ↔ _; rw [e1]; exact hI.global
    · show s.localM = none ↔ _; rw [hw]; simp
    · intro hn; exact hI.laser (e2.symm.trans hn)
    · intro l1 hl1; cases hl1; exact hasParams_of_built hbu
    · intro g hg; show _ ∨ ∃ w, s.globalM = some w ∧ _; rw [e1]; exact hI.gmap g hg
    · intro scan odom _; exact ⟨l', w, rfl, hw, hbu⟩
    · intro q c hq
      obtain ⟨g, w, a, b, d⟩ := hI.region q c (e3.symm.trans hq)
      exact ⟨g, w, a, e1.trans b, d⟩
  | loopMap q q' c s g g' w hi hi' hg hw ha hs =>
    have hbu := built_of_reset (hI.gcfg g hg) ha
    have hsame : s.localM = n.sys.localM ∧ s.laser = n.sys.laser ∧ s.spin = n.sys.spin := by
      have ht := step_trans hs
      generalize he : Event.loopCandidate = e at ht
      cases ht with
      | stutter => exact ⟨rfl, rfl, rfl⟩
      | loopNext => exact ⟨rfl, rfl, rfl⟩
      | loopSkip => exact ⟨rfl, rfl, rfl⟩
      | loopCandidate => exact ⟨rfl, rfl, rfl⟩
      | _ => cases he
    obtain ⟨e1, e2, e3⟩ := hsame
    refine ⟨?_, ?_, ?_, ?_, hI.lcfg, ?_, ?_, ?_⟩
    · show s.globalM = none ↔ _; rw [hw]; simp
    · show s.localM = none ↔ _; rw [e1]; exact hI.loc
    · intro hn
      have := hI.laser (e2.symm.trans hn)
      rw [hg] at this; cases this
    · intro g1 hg1; cases hg1; exact hasParams_of_built hbu
    · intro g1 hg1; cases hg1; exact Or.inr ⟨w, hw, hbu⟩
    · intro scan odom hsp
      obtain ⟨l, w', a, b, d⟩ := hI.window scan odom (e3.symm.trans hsp)
      exact ⟨l, w', a, e1.trans b, d⟩
    · intro q c _; exact ⟨g', w, rfl, hw, hbu⟩
  | localMatch junk scan odom l sc r s hi hl hsc hr hs =>
    exact hI.same (sameMatchers_step (step_trans hs) (by simp) (by simp) (by simp)) _
  | globalMatch junk scan odom g sc r s hi hg hsc hr hs =>
    exact hI.same (sameMatchers_step (step_trans hs) (by simp) (by simp) (by simp)) _
  | loopMatch junk q c g scan r s hi hg hscan hr hs =>
    exact hI.same (sameMatchers_step (step_trans hs) (by simp) (by simp) (by simp)) _
  | filterScan nrm draw scan odom f f1 f2 f3 g mean s hi hf hg h1 h2 h3 h4 hs =>
    exact hI.same (sameMatchers_step (step_trans hs) (by simp) (by simp) (by simp)) _
  | poseInit msg odom visit nrm f f' s hi hf h1 hs =>
    exact hI.same (sameMatchers_step (step_trans hs) (by simp) (by simp) (by simp)) _
  | pose msg odom visit nrm s hi hs =>
    exact hI.same (sameMatchers_step (step_trans hs) (by simp) (by simp) (by simp)) _

/-- What the node does with an input is this event of the mapper. -/
structure Does (np : NodeParams) (n : Node) (i : Input) (e : Event) (n' : Node) : Prop where
  ok : Mapper.step np.map n.sys e = .ok n'.sys
  configure : ∀ action bag, e = .configure action bag → i = .plain e
  localMatched : ∀ score c cov, e = .localMatched score c cov → ∃ junk scan odom l r, i = .localMatch junk ∧
    n.sys.spin = .matching scan odom ∧ n.localN = some l ∧ l.matchScan scan Pose2d.zero junk = .ok r ∧
    score = r.score ∧ c = r.pose ∧ cov = r.covariance
  globalMatched : ∀ c, e = .globalMatched c → ∃ junk scan odom g r, i = .globalMatch junk ∧
    n.sys.spin = .localise scan odom ∧ n.globalN = some g ∧ g.matchScan scan Pose2d.zero junk = .ok r ∧ c = r.pose
  loopMatched : ∀ score c cov, e = .loopMatched score c cov → ∃ junk q cand scan g r, i = .loopMatch junk ∧
    n.sys.loop = .matching q cand ∧ (n.sys.heap q.scan.epoch)[q.scan.idx]? = some scan ∧ n.globalN = some g ∧
    g.matchScan scan Pose2d.zero junk = .ok r ∧ score = r.score ∧ c = r.pose ∧ cov = r.covariance

/-- A step of the node is a step of the mapper, or leaves everything alone. -/
theorem step_does {np : NodeParams} {n n' : Node} {i : Input} (h : n.step np i = .ok n') :
    n' = n ∨ ∃ e, Does np n i e n' := by
  cases step_ntrans h with
  | stutter => exact Or.inl rfl
  | plain e s hc hw hl hm hs =>
    refine Or.inr ⟨e, hs, fun _ _ _ => rfl, ?_, ?_, ?_⟩
    · rintro _ _ _ rfl; exact absurd trivial hc
    · rintro _ rfl; exact absurd trivial hc
    · rintro _ _ _ rfl; exact absurd trivial hc
  | makes msg mount odom odomEnd r g s hm hr hg hs => exact Or.inr ⟨_, hs, by simp, by simp, by simp, by simp⟩
  | addWindow scan odom s l l' w hi hl hw ha hs => exact Or.inr ⟨_, hs, by simp, by simp, by simp, by simp⟩
  | loopMap q q' c s g g' w hi hi' hg hw ha hs => exact Or.inr ⟨_, hs, by simp, by simp, by simp, by simp⟩
  | localMatch junk scan odom l sc r s hi hl hsc hr hs =>
    refine Or.inr ⟨_, hs, by simp, ?_, by simp, by simp⟩
    intro _ _ _ he
    cases he
    exact ⟨junk, scan, odom, l, r, rfl, hi, hl, hr, rfl, rfl, rfl⟩
  | globalMatch junk scan odom g sc r s hi hg hsc hr hs =>
    refine Or.inr ⟨_, hs, by simp, by simp, ?_, by simp⟩
    intro _ he
    cases he
    exact ⟨junk, scan, odom, g, r, rfl, hi, hg, hr, rfl⟩
  | loopMatch junk q c g scan r s hi hg hscan hr hs =>
    refine Or.inr ⟨_, hs, by simp, by simp, by simp, ?_⟩
    intro _ _ _ he
    cases he
    exact ⟨junk, q, c, scan, g, r, rfl, hi, hscan, hg, hr, rfl, rfl, rfl⟩
  | filterScan nrm draw scan odom f f1 f2 f3 g mean s hi hf hg h1 h2 h3 h4 hs =>
    exact Or.inr ⟨_, hs, by simp, by simp, by simp, by simp⟩
  | poseInit msg odom visit nrm f f' s hi hf h1 hs => exact Or.inr ⟨_, hs, by simp, by simp, by simp, by simp⟩
  | pose msg odom visit nrm s hi hs => exact Or.inr ⟨_, hs, by simp, by simp, by simp, by simp⟩

theorem start_sys {np : NodeParams} {enable : Bool} {file : Option (List BagMsg)} {n : Node}
    (h : Node.start np enable file = .ok n) :
    Mapper.start np.map enable file = .ok n.sys ∧ n.globalN = none ∧ n.localN = none := by
  unfold Node.start at h
  obtain ⟨s, hs, h⟩ := bind_ok h
  split at h
  · obtain ⟨f, -, h⟩ := bind_ok h
    cases h; exact ⟨hs, rfl, rfl⟩
  · cases h; exact ⟨hs, rfl, rfl⟩

theorem tied_start {np : NodeParams} {enable : Bool} {file : Option (List BagMsg)} {n : Node}
    (h : Node.start np enable file = .ok n) : Tied np n := by
  obtain ⟨hs, hg, hl⟩ := start_sys h
  have e : n.sys.globalM = none ∧ n.sys.localM = none ∧ n.sys.spin = .idle ∧ ∀ q c, n.sys.loop ≠ .matching q c := by
    rcases start_cases hs with ⟨-, e⟩ | ⟨bag, g, -, -, e⟩ <;> rw [e] <;>
      exact ⟨rfl, rfl, rfl, fun q c h => by cases h⟩
  obtain ⟨e1, e2, e3, e4⟩ := e
  refine ⟨by simp [e1, hg], by simp [e2, hl], fun _ => hg, ?_, ?_, ?_, ?_, ?_⟩
  · intro g h; rw [hg] at h; cases h
  · intro g h; rw [hl] at h; cases h
  · intro g h; rw [hg] at h; cases h
  · intro scan odom h; rw [e3] at h; cases h
  · intro q c h; exact absurd h (e4 q c)

theorem exec_inv {np : NodeParams} {A : Node → Input → Prop} {I : Node → Prop} {n t : Node} {is : List Input}
    (hs : ∀ n i n', I n → A n i → n.step np i = .ok n' → I n') (h : NodeExec np A n is t) (h0 : I n) : I t := by
  induction h with
  | nil => exact h0
  | snoc _ ha hst ih => exact hs _ _ _ ih ha hst

theorem reach_inv {np : NodeParams} {W : Graph → Prop} {A : Node → Input → Prop} {I : Node → Prop} {n : Node}
    (h : NodeReach np W A n) (h0 : ∀ enable file n0, Node.start np enable file = .ok n0 →
      (∀ bag, file = some bag → ∀ g, Graph.load np.map.useBarycenter bag = .ok g → W g) → I n0)
    (hs : ∀ n i n', I n → A n i → (∀ action bag, i = .plain (.configure action bag) →
      ∀ g, Graph.load np.map.useBarycenter bag = .ok g → W g) → n.step np i = .ok n' → I n') : I n := by
  obtain ⟨enable, file, n0, is, hst, hw, he⟩ := h
  exact exec_inv (fun n i n' hI ha h => hs n i n' hI ha.1 ha.2 h) he (h0 enable file n0 hst hw)

theorem tied_reach {np : NodeParams} {W : Graph → Prop} {A : Node → Input → Prop} {n : Node}
    (h : NodeReach np W A n) : Tied np n :=
  reach_inv h (fun _ _ _ hst _ => tied_start hst) fun _ _ _ hI _ _ hs => tied_step hI hs

/-- The node refines the mapper: whatever the mapper of a node does, the mapper can do when the results of matching come
from outside. -/
theorem refines {np : NodeParams} {W : Graph → Prop} {A : Node → Input → Prop} {B : Sys → Event → Prop} {n : Node}
    (hAB : ∀ n i n' e, Tied np n → A n i → Does np n i e n' → B n.sys e)
    (h : NodeReach np W A n) : Reach np.map W B n.sys := by
  refine (reach_inv (I := fun n => Tied np n ∧ Reach np.map W B n.sys) h ?_ ?_).2
  · intro enable file n0 hst hw
    exact ⟨tied_start hst, enable, file, n0.sys, [], (start_sys hst).1, hw, .nil⟩
  · intro n i n' ⟨hT, enable, file, s0, es, h1, h2, h3⟩ ha hw hs
    refine ⟨tied_step hT hs, ?_⟩
    rcases step_does hs with rfl | ⟨e, he⟩
    · exact ⟨enable, file, s0, es, h1, h2, h3⟩
    · refine ⟨enable, file, s0, es ++ [e], h1, h2, .snoc h3 ⟨hAB n i n' e hT ha he, ?_⟩ he.ok⟩
      intro action bag hcfg g hg
      exact hw action bag (by rw [he.configure action bag hcfg, hcfg]) g hg

end Node

end

end Ndt
