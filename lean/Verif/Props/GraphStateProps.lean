import Verif.Proof.Threads
import Verif.Proof.Demo
import Verif.Props.GraphProps

/-! # The graph under every schedule (C55, C56) -/

namespace Ndt

noncomputable section

open Spec Mapper

/-- The state after a mapper that started empty has added two scans. -/
def demoTwo (p : Params) (o o' : Pose2d) (score : Fl) (correction : Pose2d) (cov : Mat3) : Res Sys :=
  run p (demoStart p true) ([demoLaser o, .pushScan, .finishScan] ++
    ([demoLaser o', .addWindow, .localMatched score correction cov, .pushConstraint] ++ [.pushScan, .finishScan]))

theorem demoTwo_ok (o : Pose2d) (score : Fl) (correction : Pose2d) (cov : Mat3) :
    ∃ s, demoTwo (demoParams 10 3) o ⟨o.x + 1, o.y, o.theta⟩ score correction cov = .ok s ∧ s.scans.length = 2 ∧
      s.constraints.length = 1 ∧ s.spin = .idle := by
  unfold demoTwo
  rw [run_append, run_demoOne _ _ rfl, Res.ok_bind, run_append,
    run_demoHalf _ _ _ _ _ _ rfl (by simp [demoParams]) rfl rfl rfl rfl (by simp [demoOne]) (by simp [demoOne, Sys.scans]),
    Res.ok_bind]
  · refine ⟨_, rfl, ?_, ?_, rfl⟩
    · simp [demoHalf, demoOne, Sys.scans]
    · simp [demoHalf, demoOne, demoStart, startWith, Graph.new]
  · unfold tooLittle
    simp [demoOne, demoParams]
    norm_num

/-- A run with good maps is an execution. -/
theorem reach_of_run {p : Params} {W : Graph → Prop} {enable : Bool} {s : Sys} {es : List Event}
    (h : run p (demoStart p enable) es = .ok s) (hc : ∀ e ∈ es, ∀ action bag, e ≠ .configure action bag) :
    Reach p W Any s := by
  refine ⟨enable, none, demoStart p enable, es, rfl, by simp, ?_⟩
  refine Exec.mono (A := fun _ e => ∀ action bag, e ≠ .configure action bag) ?_ ((exec_iff_run p _ _ _ _).mpr ⟨h, hc⟩)
  intro s e he
  exact ⟨trivial, fun action bag h => absurd h (he action bag)⟩

theorem forall₂_get {R : Scan → Scan → Prop} {a b : List Scan} (h : List.Forall₂ R a b) {i : ℕ} {x : Scan}
    (hx : a[i]? = some x) : ∃ y, b[i]? = some y ∧ R x y := by
  induction h generalizing i with
  | nil => simp at hx
  | cons hr _ ih =>
    cases i with
    | zero => simp at hx; exact ⟨_, rfl, hx ▸ hr⟩
    | succ i => exact ih (by simpa using hx)

/-! ## C55 -/

/-- **C55** In every reachable state, under every schedule of the three threads, the i-th scan of the graph has id i. -/
theorem c55_ids_are_indices (p : Params) (s : Sys) (h : Reach p (fun g => IdsAreIndices g.scans) Any s) :
    IdsAreIndices s.scans :=
  (Reach.inv (I := GraphInv) h (fun _ _ _ hst hw => graphInv_start hst hw)
    (fun _ _ _ hI _ hw ht => graphInv_step hI hw ht)).ids s.epoch

/-- **C55** Also the ids of scans that are reachable through pointers into graphs replaced since. -/
theorem c55_old_graphs (p : Params) (s : Sys) (h : Reach p (fun g => IdsAreIndices g.scans) Any s) (e : ℕ) :
    IdsAreIndices (s.heap e) :=
  (Reach.inv (I := GraphInv) h (fun _ _ _ hst hw => graphInv_start hst hw)
    (fun _ _ _ hI _ hw ht => graphInv_step hI hw ht)).ids e

/-- **C55** A file written by a mapper in such a state gives a well-formed graph, whatever the order of the messages. -/
theorem c55_saved_maps_are_well_formed (p : Params) (s : Sys) (h : Reach p (fun g => IdsAreIndices g.scans) Any s)
    (bag : List BagMsg) (hb : Interleaving bag (s.graph p).save) (use : Bool) (g : Graph)
    (hg : Graph.load use bag = .ok g)
    (hc : ∀ c ∈ s.constraints, c.begin_ < 2 ^ 64 ∧ c.end_ < 2 ^ 64) : IdsAreIndices g.scans := by
  obtain ⟨g', hg', -, -, hs⟩ := c38_save_load_lossless (s.graph p) use bag hb hc
  rw [hg] at hg'
  injection hg' with hg'
  subst hg'
  intro i a ha
  obtain ⟨b, hb', hab⟩ := forall₂_get hs ha
  rw [hab.1]
  exact c55_ids_are_indices p s h i b hb'

/-- Example: two scans. -/
example : ∃ s, Reach (demoParams 10 3) (fun g => IdsAreIndices g.scans) Any s ∧ s.scans.length = 2 := by
  obtain ⟨s, h, hl, -⟩ := demoTwo_ok Pose2d.zero (.fin (-0.6)) Pose2d.zero fun _ _ => .fin 0
  exact ⟨s, reach_of_run h (by simp [demoLaser]), hl⟩

/-! ## C56 -/

/-- What a loaded map has to be like. -/
def LinkedMap (g : Graph) : Prop := IdsAreIndices g.scans ∧ LinkedBack g.scans.length g.constraints

theorem linkInv_reach {p : Params} {s : Sys} (h : Reach p LinkedMap Any s) : GraphInv s ∧ LinkInv s := by
  refine Reach.inv (I := fun s => GraphInv s ∧ LinkInv s) h ?_ ?_
  · intro enable file s0 hst hw
    refine ⟨graphInv_start hst fun bag hf g hg => (hw bag hf g hg).1, ?_⟩
    rcases start_cases hst with ⟨-, rfl⟩ | ⟨bag, g, hf, hg, rfl⟩
    · exact ⟨fun j h0 hj => by simp [startWith, Sys.scans, Graph.new] at hj,
        fun c scan odom h => by simp [startWith] at h, fun scan odom h => by simp [startWith] at h⟩
    · exact ⟨by simpa [startWith, Sys.scans] using (hw bag hf g hg).2,
        fun c scan odom h => by simp [startWith] at h, fun scan odom h => by simp [startWith] at h⟩
  · intro s e s' hI _ hw ht
    exact ⟨graphInv_step hI.1 (fun a b he g hg => (hw a b he g hg).1) ht,
      linkInv_step hI.1 hI.2 (fun a b he g hg => (hw a b he g hg).2) ht⟩

/-- **C56** In every reachable state (also within callbacks), every scan but the first is the end of a constraint that
begins at an earlier scan. -/
theorem c56_linked_back (p : Params) (s : Sys) (h : Reach p LinkedMap Any s) :
    ∀ j, 0 < j → j < s.scans.length → ∃ c ∈ s.constraints, c.end_ = j ∧ c.begin_ < j :=
  (linkInv_reach h).2.linked

/-- **C56** So every scan is joined to the first by constraints. -/
theorem c56_connected (p : Params) (s : Sys) (h : Reach p LinkedMap Any s) (j : ℕ) (hj : j < s.scans.length) :
    Joined s.constraints 0 j := by
  induction j using Nat.strong_induction_on with
  | _ j ih =>
    rcases Nat.eq_zero_or_pos j with rfl | h0
    · exact Relation.EqvGen.refl _
    · obtain ⟨c, hc, he, hb⟩ := c56_linked_back p s h j h0 hj
      exact (ih c.begin_ hb (by omega)).trans _ _ _ (Relation.EqvGen.rel _ _ ⟨c, hc, rfl, he⟩)

/-- Example: two scans joined. -/
example : ∃ s, Reach (demoParams 10 3) LinkedMap Any s ∧ s.scans.length = 2 ∧ Joined s.constraints 0 1 := by
  obtain ⟨s, h, hl, -⟩ := demoTwo_ok Pose2d.zero (.fin (-0.6)) Pose2d.zero fun _ _ => .fin 0
  have hr : Reach (demoParams 10 3) LinkedMap Any s := reach_of_run h (by simp [demoLaser])
  exact ⟨s, hr, hl, c56_connected _ s hr 1 (by omega)⟩

end

end Ndt
