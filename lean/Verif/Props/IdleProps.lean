import Verif.Spec.Idle
import Verif.Proof.NodeInv
import Verif.Props.HushProps

/-! # Property C165: the loop closure thread does nothing while the node localises -/

namespace Ndt

open Spec Mapper

noncomputable section

/-- The node localises and the loop closure thread waits. -/
def Waits (n : Node) : Prop := n.sys.enable = false ∧ n.sys.loop = .asleep

theorem looping_nothing (np : NodeParams) {n : Node} (hn : Waits n) {i : Input} (hi : IsLooping i) : Node.step np n i = .ok n := by
  obtain ⟨h1, h2⟩ := hn
  cases i with
  | plain e =>
    cases e <;> first | exact absurd hi id | skip
    all_goals simp only [Node.step, Node.mapper, Mapper.step, h2, h1]
    all_goals rfl
  | loopMatch junk => simp only [Node.step, h2]
  | _ => exact absurd hi id

/-- The thread waits on, whatever the others do. -/
theorem waits_trans {p : Params} {s s' : Sys} {e : Event} (h1 : s.enable = false) (h2 : s.loop = .asleep)
    (he : ∀ action bag, e = .configure action bag → action &&& 1#32 = 0#32) (ht : Trans p s e s') : s'.enable = false ∧ s'.loop = .asleep := by
  have hset : ∀ msg mount, (laserSetup p msg mount s).1.enable = s.enable ∧ (laserSetup p msg mount s).1.loop = s.loop := by
    intro msg mount
    obtain ⟨r, l, g, m, h, -⟩ := setup_cases p msg mount s
    rw [h]
    exact ⟨rfl, rfl⟩
  have hconf : ∀ action, action &&& 1#32 = 0#32 → (configureMapping action s).enable = false ∧ (configureMapping action s).loop = .asleep := by
    intro action ha
    unfold configureMapping
    rw [if_neg (not_not.mpr ha)]
    split <;> first | exact ⟨rfl, h2⟩ | exact ⟨h1, h2⟩
  cases ht with
  | laserIgnored msg mount odom odomEnd hi => rw [(hset msg mount).1, (hset msg mount).2]; exact ⟨h1, h2⟩
  | laserScan msg mount odom odomEnd points hi hgo hinit hm =>
    exact ⟨(hset msg mount).1.trans h1, (hset msg mount).2.trans h2⟩
  | configureFlags action bag hi hl => exact hconf action (he _ _ rfl)
  | load action bag g hi hl hg => exact hconf action (he _ _ rfl)
  | loopWake hi hen => rw [h1] at hen; cases hen
  | pubTf hi =>
    unfold pubTf
    split <;> exact ⟨h1, h2⟩
  | loopShort hi hn => rw [h2] at hi; cases hi
  | loopCount hi hn => rw [h2] at hi; cases hi
  | loopPick visit r scan near hi hn hs hv hf => rw [h2] at hi; cases hi
  | loopLeave visit r hi hn => rw [h2] at hi; cases hi
  | loopNext q hi hr => rw [h2] at hi; cases hi
  | loopSkip q i rest cand hi hr hc hp => rw [h2] at hi; cases hi
  | loopCandidate q i rest cand hi hr hc hg => rw [h2] at hi; cases hi
  | loopAccept score correction cov q cand scan candidate hi hf hs hp hq => rw [h2] at hi; cases hi
  | loopReject score correction cov q cand hi hs => rw [h2] at hi; cases hi
  | loopPush q c hi => rw [h2] at hi; cases hi
  | loopDecide r hi => rw [h2] at hi; cases hi
  | loopOptimise ceres b solver scans hi ho => rw [h2] at hi; cases hi
  | _ => exact ⟨h1, h2⟩

theorem waits_step {np : NodeParams} {n n' : Node} {i : Input} (hn : Waits n) (hi : ¬ TurnsOn i) (h : Node.step np n i = .ok n') : Waits n' := by
  rcases Node.step_does h with rfl | ⟨e, hd⟩
  · exact hn
  · refine waits_trans hn.1 hn.2 ?_ (step_trans hd.ok)
    intro action bag he
    have := hd.configure action bag he
    subst he
    rw [this] at hi
    exact not_not.mp hi

/-- **C165** While nobody asks for mapping, a localising node goes on localising and its loop closure thread waits. -/
theorem c165_keeps_waiting {np : NodeParams} (is : List Input) {n t : Node} (h1 : n.sys.enable = false) (h2 : n.sys.loop = .asleep)
    (hi : ∀ i ∈ is, ¬ TurnsOn i) (h : Node.run np n is = .ok t) : t.sys.enable = false ∧ t.sys.loop = .asleep := by
  induction is generalizing n with
  | nil => cases h; exact ⟨h1, h2⟩
  | cons i is ih =>
    obtain ⟨u, hu, h⟩ := bind_ok (show (Node.step np n i >>= fun u => Node.run np u is) = .ok t from h)
    obtain ⟨h3, h4⟩ := waits_step ⟨h1, h2⟩ (hi i (by simp)) hu
    exact ih h3 h4 (fun j hj => hi j (by simp [hj])) h

/-- **C165** A node that is started without mapping begins like that, with a map file or without. -/
theorem c165_start {np : NodeParams} {file : Option (List BagMsg)} {n : Node} (h : Node.start np false file = .ok n) :
    n.sys.enable = false ∧ n.sys.loop = .asleep := by
  have h := (Node.start_sys h).1
  cases file with
  | none =>
    rw [← Except.ok.inj (show Except.ok _ = Except.ok n.sys from h)]
    exact ⟨rfl, rfl⟩
  | some bag =>
    obtain ⟨g, -, hg⟩ := bind_ok h
    rw [← Except.ok.inj hg]
    exact ⟨rfl, rfl⟩

/-- **C165** Its steps may be left out of any run, or put into it: what comes of the run is the same, whether it fails or not. -/
theorem c165_loop_closure_idle (np : NodeParams) (is : List Input) (n : Node) (h1 : n.sys.enable = false) (h2 : n.sys.loop = .asleep)
    (hi : ∀ i ∈ is, ¬ TurnsOn i) : Node.run np n is = Node.run np n (is.filter fun i => ¬ IsLooping i) := by
  induction is generalizing n with
  | nil => rfl
  | cons i is ih =>
    have hi' : ∀ j ∈ is, ¬ TurnsOn j := fun j hj => hi j (by simp [hj])
    have e1 : ∀ (m : Node) (js : List Input), Node.run np m (i :: js) = (Node.step np m i >>= fun u => Node.run np u js) := fun _ _ => rfl
    by_cases hl : IsLooping i
    · rw [List.filter_cons_of_neg (by simpa using hl), e1, looping_nothing np ⟨h1, h2⟩ hl]
      exact ih n h1 h2 hi'
    · rw [List.filter_cons_of_pos (by simpa using hl), e1, e1]
      cases hs : Node.step np n i with
      | error e => rfl
      | ok u =>
        obtain ⟨h3, h4⟩ := waits_step ⟨h1, h2⟩ (hi i (by simp)) hs
        exact ih u h3 h4 hi'

/-- **C165** So the node of C160 is at the true place after each stop whatever its loop closure thread and its publishing thread do meanwhile. -/
theorem c165_localising {np : NodeParams} (hf : np.map.useFilter = false) {mt : Matcher} {scans : List Scan} {mt' : Matcher} {g : NdtGrid}
    (hm : GoodMap mt scans mt' g) {wall : ℤ × ℤ → Line}
    (hwall : WallsOf g.originX g.originY g.cellSize (mapPoints (scans.map .addScan)) wall)
    (hl : 0 < mt'.linearRes) (ha : 0 < mt'.angularRes) (hpi : mt'.angularSize < Real.pi / 2)
    {range : ℝ} (hrange : 0 ≤ range) {lt : Pose2d} {inverted : Bool} {n : ℕ} (ls : List Leg) {odom place : Pose2d} {s t : Node}
    (hs : Tracks (.fin range) lt inverted n mt' odom place s) (hloop : s.sys.loop = .asleep)
    (hr : Drives np (.fin range) lt inverted n mt' g (mapPoints (scans.map .addScan)) wall odom place (ls.map Leg.stop))
    (hw : OnTheWay np.map.minDist np.map.minRot odom ls) (is : List Input) (hi : ∀ i ∈ is, ¬ TurnsOn i)
    (his : ((is.filter fun i => ¬ IsLooping i).filter fun i => ¬ IsPublishing i) = ls.flatMap Leg.inputs) (h : Node.run np s is = .ok t) :
    t.sys.prevRobot = ((ls.map Leg.stop).getLast?.map Stop.place).getD place ∧ t.sys.scans = s.sys.scans := by
  rw [c165_loop_closure_idle np is s hs.enable hloop hi] at h
  exact c164_localising hf hm hwall hl ha hpi hrange ls hs hr hw _ his h

/-- **C165** (a concrete run) The localising node in the corner, with a loop closure thread that looks for work before, between and after its steps. -/
theorem c165_corner (junk : Mat3F) (nrm : MotionModel.Draws) : ∃ n u t, Node.start (demoNode false) false (some cornerBag) = .ok n ∧
    Node.run (demoNode false) n [.plain (.laser driftMsg (some (Pose2d.zero, false)) none none),
      .pose ⟨true, ⟨-(93 / 100), 0, 0⟩, 0, 0, 0⟩ (some Pose2d.zero) [0] nrm, .plain .setRobot, .plain .setOdom] = .ok u ∧
    Node.run (demoNode false) u ([.plain .loopWake, (pauseAt ⟨6 / 100, 0, 0⟩).input, .plain .loopWake] ++ (driftStop junk).inputs ++ [.plain .loopWake])
      = .ok t ∧ t.sys.prevRobot = ⟨7 / 100, 0, 0⟩ := by
  obtain ⟨n, u, t, h1, h2, h3, h4⟩ := c163_corner_localising junk nrm
  obtain ⟨h5, h6⟩ := c165_start h1
  obtain ⟨h7, h8⟩ := c165_keeps_waiting _ h5 h6 (by
    intro i hi
    simp only [List.mem_cons, List.not_mem_nil, or_false] at hi
    rcases hi with rfl | rfl | rfl | rfl <;> exact id) h2
  refine ⟨n, u, t, h1, h2, ?_, h4⟩
  rw [c165_loop_closure_idle _ _ u h7 h8]
  · rw [← h3]
    congr 1
    simp [Stop.inputs, IsLooping, Pause.input]
  · intro i hi
    simp only [Stop.inputs, Pause.input, List.cons_append, List.nil_append, List.mem_cons, List.not_mem_nil, or_false] at hi
    rcases hi with rfl | rfl | rfl | rfl | rfl | rfl | rfl <;> exact id

end

end Ndt
