import Verif.Proof.Announce
import Verif.Props.EndsProps

/-! # C95 What is published is the map -/

namespace Ndt

noncomputable section

open Spec Mapper

/-- **C95** (partial: no pose is given to a node while it maps) When nothing is under way, the last published grid renders the
scans of the graph and the last published markers are those of the graph, or there is no map. -/
theorem c95_published_is_the_map_partial (p : Params) (W : Graph → Prop) (s : Sys)
    (h : Reach p W (fun s e => ¬ PoseWhileMapping p s e) s) (hr : AtRest s) :
    EmptyMap s ∨ (GridShown s ∧ MarkersShown p s) := by
  obtain ⟨enable, file, s0, es, h0, -, hex⟩ := h
  have inv : ShowInv p s := by
    clear hr
    induction hex with
    | nil => exact showInv_start h0
    | snoc _ ha hst ih => exact showInv_step ih (show_trans ha.1 (step_trans hst))
  obtain ⟨h1, h2, h3⟩ := hr
  rcases inv with h | h | h | h | ⟨h, h' | h'⟩
  · rw [h1] at h; cases h
  · exact absurd h h2
  · rcases h3 with h3 | h3 <;> · rw [h3] at h; cases h
  · exact Or.inl h
  · rcases h3 with h3 | h3 <;> · rw [h3] at h'; cases h'
  · exact Or.inr ⟨h, h'⟩

/-- **C95** (partial: no pose is given to a node while it maps) No change goes unannounced: as long as the flag is down, the map
is the one it was, or a thread is on its way to raise the flag. -/
theorem c95_changes_are_announced_partial (p : Params) (s t : Sys) (es : List Event)
    (h : Exec p (fun u e => u.update = false ∧ ¬ PoseWhileMapping p u e) s es t) (ht : t.update = false) :
    SameMap s t ∨ Announcing t := by
  induction h with
  | nil => exact Or.inl ⟨rfl, rfl⟩
  | snoc _ ha hst ih =>
    cases show_trans ha.2 (step_trans hst) with
    | told h => rw [h] at ht; cases ht
    | telling h => exact Or.inr h
    | frame h1 h2 h3 h4 h5 h6 h7 =>
      rcases ih ha.1 with ih | ih
      · exact Or.inl ⟨h1.1.trans ih.1, h1.2.trans ih.2⟩
      · exact Or.inr (h7 ih)
    | check hc h1 => subst h1; exact ih ha.1
    | clear hc h1 => subst h1; exact ih ha.1
    | grid hc grid msg hg h1 => subst h1; exact ih ha.1
    | graph hc msg hg h1 => subst h1; exact ih ha.1
    | tf hc x h1 => subst h1; exact ih ha.1

attribute [local irreducible] afterAttempt in
/-- **C95** (the announcement comes) A callback that is to announce a scan has raised the flag after two more steps of its
thread, and a loop closure that is to announce after one, whatever happens in between. -/
theorem c95_announcement_comes (p : Params) (A : Sys → Event → Prop) (s t : Sys) (es : List Event) (n : ℕ) :
    (((∃ scan odom, s.spin = .append scan odom) ∨ ∃ a odom, s.spin = .announce a odom) →
      Counted p A CallbackStep s es t n → 2 ≤ n → Sometime p A s es fun u => u.update = true) ∧
    ((∃ q c, s.loop = .pushing q c) → Counted p A (LoopStep p) s es t n → 1 ≤ n →
      Sometime p A s es fun u => u.update = true) := by
  have toExec : ∀ {P : Sys → Event → Prop} {es t n}, Counted p A P s es t n → Exec p A s es t := by
    intro P es t n h
    induction h with
    | nil => exact .nil
    | hit _ ha _ hst ih => exact .snoc ih ha hst
    | miss _ ha _ hst ih => exact .snoc ih ha hst
  have grow : ∀ {es : List Event} {e : Event}, Sometime p A s es (fun u => u.update = true) →
      Sometime p A s (es ++ [e]) (fun u => u.update = true) := by
    rintro es e ⟨a, b, u, rfl, h1, h2⟩
    exact ⟨a, b ++ [e], u, by simp, h1, h2⟩
  constructor
  · intro h0 h hn
    suffices H : Sometime p A s es (fun u => u.update = true) ∨ (n = 0 ∧ ∃ scan odom, t.spin = .append scan odom) ∨
        (n ≤ 1 ∧ ∃ a odom, t.spin = .announce a odom) by
      rcases H with H | ⟨H, -⟩ | ⟨H, -⟩
      · exact H
      · omega
      · omega
    clear hn
    induction h with
    | nil =>
      rcases h0 with h0 | h0
      · exact Or.inr (Or.inl ⟨rfl, h0⟩)
      · exact Or.inr (Or.inr ⟨by omega, h0⟩)
    | @hit es t t' e n h ha hp hst ih =>
      rcases ih with ih | ⟨ih, scan, odom, hs⟩ | ⟨ih, a, odom, hs⟩
      · exact Or.inl (grow ih)
      · unfold CallbackStep at hp
        rw [hs] at hp
        dsimp only at hp
        subst hp
        unfold step at hst
        rw [hs] at hst
        injection hst with hst
        rw [← hst]
        exact Or.inr (Or.inr ⟨by omega, _, _, rfl⟩)
      · unfold CallbackStep at hp
        rw [hs] at hp
        dsimp only at hp
        subst hp
        refine Or.inl ⟨es ++ [.finishScan], [], t', by simp, .snoc (toExec h) ha hst, ?_⟩
        unfold step at hst
        rw [hs] at hst
        dsimp only at hst
        split at hst
        · cases hst
        · injection hst with hst; rw [← hst]
    | @miss es t t' e n h ha hp hst ih =>
      rcases ih with ih | ⟨ih, scan, odom, hs⟩ | ⟨ih, a, odom, hs⟩
      · exact Or.inl (grow ih)
      · refine Or.inr (Or.inl ⟨ih, scan, odom, append_stays hs ?_ (step_trans hst)⟩)
        unfold CallbackStep at hp
        rwa [hs] at hp
      · refine Or.inr (Or.inr ⟨ih, a, odom, announce_stays hs ?_ (step_trans hst)⟩)
        unfold CallbackStep at hp
        rwa [hs] at hp
  · intro h0 h hn
    suffices H : Sometime p A s es (fun u => u.update = true) ∨ (n = 0 ∧ ∃ q c, t.loop = .pushing q c) by
      rcases H with H | ⟨H, -⟩
      · exact H
      · omega
    clear hn
    induction h with
    | nil => exact Or.inr ⟨rfl, h0⟩
    | @hit es t t' e n h ha hp hst ih =>
      rcases ih with ih | ⟨ih, q, c, hs⟩
      · exact Or.inl (grow ih)
      · unfold LoopStep at hp
        rw [hs] at hp
        dsimp only at hp
        subst hp
        refine Or.inl ⟨es ++ [.loopPush], [], t', by simp, .snoc (toExec h) ha hst, ?_⟩
        unfold step at hst
        rw [hs] at hst
        injection hst with hst
        rw [← hst]
        obtain ⟨n, l, e⟩ := afterAttempt_frame q
          { t with constraints := t.constraints ++ [c], update := true, loop := .pushing q c }
        rw [e]
    | @miss es t t' e n h ha hp hst ih =>
      rcases ih with ih | ⟨ih, q, c, hs⟩
      · exact Or.inl (grow ih)
      · refine Or.inr ⟨ih, q, c, pushing_stays hs ?_ (step_trans hst)⟩
        unfold LoopStep at hp
        rwa [hs] at hp

/-- Example for the two theorems above: the first scan of a map is in the graph, and its callback about to announce it. -/
example : ∃ t, run (demoParams 10 3) (demoStart (demoParams 10 3) true) [demoLaser Pose2d.zero, .pushScan] = .ok t ∧
    t.update = false ∧ ¬ SameMap (demoStart (demoParams 10 3) true) t ∧ ∃ a odom, t.spin = .announce a odom := by
  have h : run (demoParams 10 3) (demoStart (demoParams 10 3) true) [demoLaser Pose2d.zero, .pushScan] =
      .ok { demoOne (demoParams 10 3) (demoStart (demoParams 10 3) true) Pose2d.zero with
        update := false, spin := .announce ⟨0, 0⟩ Pose2d.zero } := by
    rw [run_cons, step_demoLaser_first _ _ _ rfl rfl rfl (Or.inl rfl), Res.ok_bind]
    simp [branch, demoParams, step, run, demoOne, demoStart, startWith, Sys.scans, Graph.new, firstPose, Pose2d.zero]
  refine ⟨_, h, rfl, ?_, _, _, rfl⟩
  rintro ⟨h, -⟩
  simp [Sys.scans, demoOne, demoStart, startWith, Graph.new] at h

/-! ## A published map, and a pose that is not published -/

/-- The map with one scan has been published. -/
theorem demo_published : ∃ s, run (demoParams 10 3) (demoOne (demoParams 10 3) (demoStart (demoParams 10 3) true) Pose2d.zero)
      [.pubCheck, .pubClear, .pubGrid, .pubGraph, .pubTf] = .ok s ∧ s.scans = [blank 0 Pose2d.zero] ∧ s.constraints = [] ∧
    s.update = false ∧ s.spin = .idle ∧ s.loop = .asleep ∧ s.pub = .check ∧ s.lastGrid ≠ none ∧
    ∃ m, s.lastMarkers = some [m] := by
  obtain ⟨g, m, hg⟩ := blank_getMsg Pose2d.zero
  let p := demoParams 10 3
  let s1 := demoOne p (demoStart p true) Pose2d.zero
  have hs : ({ s1 with update := false, pub := .grid } : Sys).scans = [blank 0 Pose2d.zero] := by
    simp [s1, demoOne, Sys.scans]
  have h3 : step p { s1 with update := false, pub := .grid } .pubGrid =
      .ok { s1 with update := false, grid := g, lastGrid := some m, pub := .graph } := by
    show Mapper.pubGrid _ = _
    unfold Mapper.pubGrid
    rw [hs]
    show (s1.grid.getMsg _ >>= _) = _
    rw [hg]
    rfl
  have hs4 : ({ s1 with update := false, grid := g, lastGrid := some m, pub := .graph } : Sys).scans =
      [blank 0 Pose2d.zero] := hs
  let mk : Graph.Marker := ⟨"nodes", wrapI32 0, 2, 0, 0, 0.08, ![1, 0, 0], []⟩
  have h4 : step p { s1 with update := false, grid := g, lastGrid := some m, pub := .graph } .pubGraph =
      .ok { s1 with update := false, grid := g, lastGrid := some m, lastMarkers := some [mk], pub := .tf } := by
    show Mapper.pubGraph p _ = _
    unfold Mapper.pubGraph Sys.graph
    rw [hs4]
    rfl
  refine ⟨{ s1 with update := false, grid := g, lastGrid := some m, lastMarkers := some [mk], pub := .check,
                    lastTf := some (mapToOdom s1.prevRobot s1.prevOdom) }, ?_, hs, rfl, rfl, rfl, rfl, rfl, by simp, mk, rfl⟩
  rw [run_cons]
  show run p { s1 with pub := .clear } _ = _
  rw [run_cons]
  show run p { s1 with update := false, pub := .grid } _ = _
  rw [run_cons, h3, Res.ok_bind, run_cons, h4, Res.ok_bind, run_cons]
  show run p (pubTf _) [] = _
  unfold pubTf
  rw [if_neg]
  · rfl
  · show ¬ ({ s1 with update := false, pub := .grid } : Sys).scans = []
    rw [hs]; simp

/-- Example for `c95_published_is_the_map_partial`: after the publication of a map with a scan nothing is under way. -/
example : ∃ s, Reach (demoParams 10 3) (fun _ => True) (fun s e => ¬ PoseWhileMapping (demoParams 10 3) s e) s ∧ AtRest s ∧
    ¬ EmptyMap s := by
  obtain ⟨s, hrun, hs, -, hu, hi, hl, hp, -⟩ := demo_published
  refine ⟨s, ⟨true, none, demoStart (demoParams 10 3) true, [demoLaser Pose2d.zero, .pushScan, .finishScan] ++
    [.pubCheck, .pubClear, .pubGrid, .pubGraph, .pubTf], rfl, by simp, ?_⟩, ⟨hu, ?_, Or.inl hp⟩, ?_⟩
  · refine Exec.mono (A := fun _ e => (∀ m o v, e ≠ .pose m o v) ∧ ∀ a b, e ≠ .configure a b) ?_
      ((exec_iff_run _ (fun e => (∀ m o v, e ≠ .pose m o v) ∧ ∀ a b, e ≠ .configure a b) _ _ _).mpr ⟨?_, ?_⟩)
    · rintro u e ⟨h1, h2⟩
      exact ⟨fun ⟨⟨m, o, v, h⟩, _⟩ => h1 m o v h, fun a b h => absurd h (h2 a b)⟩
    · rw [run_append, run_demoOne _ _ rfl]
      exact hrun
    · simp [demoLaser]
  · rintro (⟨_, _, h⟩ | ⟨_, _, h⟩ | ⟨_, _, h⟩)
    · rw [hi] at h; cases h
    · rw [hi] at h; cases h
    · rw [hl] at h; cases h
  · rintro ⟨h, -⟩
    rw [hs] at h; cases h

/-- **C95** (refuted for poses given while mapping) `poseCallback` adds a scan and a constraint and announces neither: in this
execution (a scan, its publication, mapping switched off and on, a pose a metre away) nothing is under way, and yet the last
published markers are not those of the graph; however long the publishing thread goes on, it publishes nothing. -/
theorem c95_given_pose_is_not_published : ∃ (p : Params) (t : Sys), Reach p (fun _ => True) Any t ∧ AtRest t ∧
    t.scans.length = 2 ∧ ¬ MarkersShown p t ∧
    ∀ es u, Exec p (fun _ e => IsPubWork e) t es u → u.lastMarkers = t.lastMarkers ∧ u.lastGrid = t.lastGrid ∧
      u.scans = t.scans := by
  obtain ⟨s, hrun, hs, hc, hu, hi, hl, hp, -, mk, hm⟩ := demo_published
  let p := demoParams 10 3
  let new : Scan := (Scan.new 1).setPose ⟨1, 0, 0⟩
  let m : PoseMsg := ⟨true, ⟨1, 0, 0⟩, 0, 0, 0⟩
  let c := makeConstraint (blank 0 Pose2d.zero) new (poseCovariance m)
  let s1 : Sys := { s with enable := true, initialized := false }
  let t : Sys := { s1 with heap := fun e => if e = s.epoch then s1.scans ++ [new] else s.heap e,
                           constraints := s.constraints ++ [c], prevRobot := ⟨1, 0, 0⟩, prevOdom := Pose2d.zero,
                           initialized := true }
  have hts : t.scans = [blank 0 Pose2d.zero, new] := by
    show (if s.epoch = s.epoch then s.scans ++ [new] else s.heap s.epoch) = _
    rw [if_pos rfl, hs]; rfl
  have e1 : run p s [.configure 2#32 [], .configure 1#32 []] = .ok s1 := by
    simp [run, step, hi, configure, configureMapping, configureFile, s1]
  have hs1 : s1.scans = [blank 0 Pose2d.zero] := hs
  have e2 : step p s1 (.pose m (some Pose2d.zero) [0]) = .ok
      { s1 with heap := fun e => if e = s.epoch then s1.scans ++ [new] else s.heap e,
                constraints := s.constraints ++ [c], spin := .poseRobot ⟨1, 0, 0⟩ Pose2d.zero } := by
    unfold step
    rw [show s1.spin = .idle from hi]
    dsimp only
    rw [if_pos (by rw [hs1]; exact List.Perm.refl _)]
    unfold poseCallback
    rw [if_neg (by simp [s1]), if_neg (by simp [m])]
    dsimp only
    rw [if_neg (by simp [p, demoParams]), if_pos rfl]
    have hf : (s1.graph p).findNearest [0] ((Scan.new s1.scans.length).setPose m.pose) 10 (-1) = .ok [0] := by
      unfold Graph.findNearest Sys.graph
      rw [hs1]
      simp [p, demoParams, Graph.refPose, Graph.sqDist, Scan.setPose, Scan.getPose, blank, Scan.setPoints, m, Pose2d.zero]
    rw [hf, Res.ok_bind]
    dsimp only
    rw [hs1]
    rfl
  have e3 : run p s1 [.pose m (some Pose2d.zero) [0], .setRobot, .setOdom] = .ok t := by
    rw [run_cons, e2, Res.ok_bind]
    simp [run_cons, run, step, t, s1, hi]
  refine ⟨p, t, ⟨true, none, demoStart p true, [demoLaser Pose2d.zero, .pushScan, .finishScan] ++
    ([.pubCheck, .pubClear, .pubGrid, .pubGraph, .pubTf] ++ ([.configure 2#32 [], .configure 1#32 []] ++
      [.pose m (some Pose2d.zero) [0], .setRobot, .setOdom])), rfl, by simp, ?_⟩, ⟨hu, ?_, Or.inl hp⟩, by rw [hts]; rfl, ?_, ?_⟩
  · refine Exec.mono (A := fun _ _ => True) (by intros; exact ⟨trivial, by intros; trivial⟩)
      ((exec_iff_run _ (fun _ => True) _ _ _).mpr ⟨?_, by simp⟩)
    rw [run_append, run_demoOne _ _ rfl, Res.ok_bind, run_append, hrun, Res.ok_bind, run_append, e1, Res.ok_bind, e3]
  · rintro (⟨_, _, h⟩ | ⟨_, _, h⟩ | ⟨_, _, h⟩)
    · rw [show t.spin = .idle from hi] at h; cases h
    · rw [show t.spin = .idle from hi] at h; cases h
    · rw [show t.loop = .asleep from hl] at h; cases h
  · rintro ⟨msg, h1, h2⟩
    rw [show t.lastMarkers = some [mk] from hm] at h2
    obtain ⟨nodes, edges, h3, h4, -⟩ := c41_markers_mirror_graph _ _ _ h1
    have h5 : ([blank 0 Pose2d.zero, new] : List Scan).length = nodes.length := by
      rw [← hts]; exact h4.length_eq
    injection h2 with h2
    have h6 := congrArg List.length (h2.trans h3)
    simp only [List.length_append, List.length_cons, List.length_nil] at h5 h6
    omega
  · intro es u hex
    suffices H : u.lastMarkers = t.lastMarkers ∧ u.lastGrid = t.lastGrid ∧ u.scans = t.scans ∧ u.update = false ∧
        (u.pub = .check ∨ u.pub = .tf) from ⟨H.1, H.2.1, H.2.2.1⟩
    induction hex with
    | nil => exact ⟨rfl, rfl, rfl, hu, Or.inl hp⟩
    | @snoc _ v _ _ _ ha hst ih =>
      obtain ⟨i1, i2, i3, i4, i5⟩ := ih
      cases step_trans hst with
      | stutter => exact ⟨i1, i2, i3, i4, i5⟩
      | pubCheck hi => exact ⟨i1, i2, i3, i4, Or.inr (by simp [i4])⟩
      | pubClear hi => rw [hi] at i5; simp at i5
      | pubGrid grid msg hi hg => rw [hi] at i5; simp at i5
      | pubGraph msg hi hg => rw [hi] at i5; simp at i5
      | pubTf hi =>
        obtain ⟨x, e⟩ := pubTf_frame v
        rw [e]
        exact ⟨i1, i2, i3, i4, Or.inl rfl⟩
      | _ => exact ha.elim

end

end Ndt
