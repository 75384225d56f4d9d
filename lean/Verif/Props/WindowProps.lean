import Verif.Proof.Demo
import Verif.Props.GraphStateProps

/-! # The rolling window of every depth (C57) -/

namespace Ndt

noncomputable section

open Spec Mapper

/-- A mapper at rest with `k` scans, the last of them taken `k - 1` metres down the road. -/
structure Grown (k : ℕ) (s : Sys) : Prop where
  idle : s.spin = .idle
  init : s.initialized = true
  enable : s.enable = true
  laser : s.laser = some (Pose2d.zero, false)
  window : s.localM ≠ none
  count : s.scans.length = k
  odom : s.prevOdom = ⟨(k : ℝ) - 1, 0, 0⟩

/-- The events by which the scan at `k` metres becomes part of the map. -/
def growing (k : ℕ) : List Event :=
  [demoLaser ⟨k, 0, 0⟩, .addWindow, .localMatched (.fin (-1)) Pose2d.zero (fun _ _ => .fin 0), .pushConstraint, .pushScan,
    .finishScan]

theorem grown_laser {p : Params} (hf : p.useFilter = false) (hd : |p.minDist| ≤ 1) {k : ℕ} (hk : 1 ≤ k) {s : Sys}
    (h : Grown k s) : ∃ scan, step p s (demoLaser ⟨k, 0, 0⟩) = .ok { s with
      rangeMax := Laser.latchRangeMax s.rangeMax noBeams, spin := .window scan ⟨k, 0, 0⟩ } := by
  have hne : s.scans ≠ [] := by
    intro e
    have := h.count
    rw [e] at this
    simp at this
    omega
  have ht : ¬ tooLittle p s ⟨k, 0, 0⟩ := by
    rintro ⟨h1, -⟩
    rw [h.odom] at h1
    have : |p.minDist| * |p.minDist| ≤ 1 * 1 := mul_le_mul hd hd (abs_nonneg _) (by norm_num)
    rw [abs_mul_abs_self] at this
    norm_num at h1
    linarith
  have hb : branch p s (blank s.scans.length (firstPose s ⟨k, 0, 0⟩)) ⟨k, 0, 0⟩ =
      .window (blank s.scans.length (firstPose s ⟨k, 0, 0⟩)) ⟨k, 0, 0⟩ := by
    unfold branch
    simp [hf, h.enable, hne]
  refine ⟨blank s.scans.length (firstPose s ⟨k, 0, 0⟩), ?_⟩
  rw [step_demoLaser p s ⟨k, 0, 0⟩ h.idle h.init h.laser (Or.inr ht), hb]

theorem grown_step {p : Params} (hf : p.useFilter = false) (hd : |p.minDist| ≤ 1) {k : ℕ} (hk : 1 ≤ k)
    (hk' : k ≤ p.rollingDepth) {s : Sys} (h : Grown k s) : ∃ t, run p s (growing k) = .ok t ∧ Grown (k + 1) t := by
  obtain ⟨scan, h1⟩ := grown_laser hf hd hk h
  have hc : (s.heap s.epoch).length = k := h.count
  obtain ⟨back, hb⟩ : ∃ b, (s.heap s.epoch).getLast? = some b := by
    cases hl : (s.heap s.epoch).getLast? with
    | none =>
      rw [List.getLast?_eq_none_iff] at hl
      rw [hl] at hc
      simp at hc
      omega
    | some b => exact ⟨b, rfl⟩
  unfold growing
  rw [run_cons, h1, Res.ok_bind]
  simp [run_cons, run, step, addWindow, h.window, Sys.scans, hc, hk', localMatched, hb]
  constructor <;> first | rfl | exact h.init | exact h.enable | exact h.laser | skip
  · simp
  · simp [Sys.scans, hc]
  · simp

theorem grown_one {p : Params} (hf : p.useFilter = false) :
    ∃ t, run p (demoStart p true) [demoLaser Pose2d.zero, .pushScan, .finishScan] = .ok t ∧ Grown 1 t := by
  refine ⟨_, run_demoOne p Pose2d.zero hf, ⟨rfl, rfl, rfl, rfl, by simp [demoOne], by simp [demoOne, Sys.scans], ?_⟩⟩
  simp [demoOne, Pose2d.zero]

theorem grown_all {p : Params} (hf : p.useFilter = false) (hd : |p.minDist| ≤ 1) (k : ℕ) (hk : k ≤ p.rollingDepth) :
    ∃ es t, run p (demoStart p true) es = .ok t ∧ Grown (k + 1) t ∧ ∀ e ∈ es, ∀ action bag, e ≠ .configure action bag := by
  induction k with
  | zero =>
    obtain ⟨t, h1, h2⟩ := grown_one hf
    exact ⟨_, t, h1, h2, by simp [demoLaser]⟩
  | succ k ih =>
    obtain ⟨es, t, h1, h2, h3⟩ := ih (by omega)
    obtain ⟨u, h4, h5⟩ := grown_step hf hd (by omega) hk h2
    refine ⟨es ++ growing (k + 1), u, by rw [run_append, h1, Res.ok_bind, h4], h5, ?_⟩
    intro e he
    rcases List.mem_append.mp he with he | he
    · exact h3 e he
    · simp only [growing, List.mem_cons, List.not_mem_nil, or_false] at he
      rcases he with rfl | rfl | rfl | rfl | rfl | rfl <;> simp [demoLaser]

/-- **C57** (refuted for every depth but ten) Whatever the other parameters (scans a metre apart being far enough), there is
a reachable state in which a scan is about to be matched and the window does not become the last `rolling_depth` scans:
with a depth below nine the process has undefined behaviour, otherwise the window has ten scans. A robot driving straight
on without seeing anything gets there. -/
theorem c57_every_other_depth_fails (p : Params) (W : Graph → Prop) (hf : p.useFilter = false) (hd : |p.minDist| ≤ 1)
    (h10 : p.rollingDepth ≠ 10) : ∃ s scan odom, Reach p W Any s ∧ s.spin = .window scan odom ∧
      s.scans.length = p.rollingDepth + 1 ∧
      (p.rollingDepth < 9 → step p s .addWindow = .error .iterator) ∧
      (9 ≤ p.rollingDepth → ∃ t w, step p s .addWindow = .ok t ∧ t.localM = some w ∧ w.length = 10 ∧
        w ≠ lastScans p.rollingDepth s.scans) := by
  obtain ⟨es, t, h1, h2, h3⟩ := grown_all hf hd p.rollingDepth le_rfl
  obtain ⟨scan, h4⟩ := grown_laser hf hd (by omega) h2
  have h6 : run p (demoStart p true) (es ++ [demoLaser ⟨((p.rollingDepth + 1 : ℕ) : ℝ), 0, 0⟩]) = .ok { t with
      rangeMax := Laser.latchRangeMax t.rangeMax noBeams,
      spin := .window scan ⟨((p.rollingDepth + 1 : ℕ) : ℝ), 0, 0⟩ } := by
    rw [run_append, h1, Res.ok_bind, run_cons, h4, Res.ok_bind]
    rfl
  refine ⟨_, scan, _, reach_of_run h6 ?_, rfl, h2.count, ?_, ?_⟩
  · intro e he
    rcases List.mem_append.mp he with he | he
    · exact h3 e he
    · rw [List.mem_singleton.mp he]; simp [demoLaser]
  · intro hlt
    have hc : (t.heap t.epoch).length = p.rollingDepth + 1 := h2.count
    exact c57_window_out_of_bounds p _ _ _ rfl h2.window (by show _ < (t.heap t.epoch).length; omega)
      (by show (t.heap t.epoch).length < 10; omega)
  · intro hge
    have hc : (t.heap t.epoch).length = p.rollingDepth + 1 := h2.count
    obtain ⟨s', w, e1, e2, e3, e4⟩ := c57_window_is_ten p { t with
      rangeMax := Laser.latchRangeMax t.rangeMax noBeams,
      spin := .window scan ⟨((p.rollingDepth + 1 : ℕ) : ℝ), 0, 0⟩ } _ _ rfl h2.window
      (by show _ < (t.heap t.epoch).length; omega) (by show 10 ≤ (t.heap t.epoch).length; omega)
    refine ⟨s', w, e1, e2, e3, ?_⟩
    intro e
    rw [e, e4] at e3
    exact h10 e3

example : (demoParams 1 3).useFilter = false ∧ |(demoParams 1 3).minDist| ≤ 1 ∧ (demoParams 1 3).rollingDepth ≠ 10 :=
  ⟨rfl, by norm_num [demoParams, abs_le], by simp [demoParams]⟩

end

end Ndt
