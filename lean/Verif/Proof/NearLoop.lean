import Verif.Spec.NearLoop
import Verif.Proof.LoopRegion
import Verif.Proof.Built
import Verif.Props.LocalisableProps
import Mathlib.Analysis.Complex.Norm

/-! # Helper lemmas: the scans a loop is closed between -/

namespace Ndt

open Spec Mapper

noncomputable section

theorem dist_eq_norm' (p q : Point) : Spec.dist p q = ‖(⟨p.x, p.y⟩ : ℂ) - ⟨q.x, q.y⟩‖ := by
  rw [Complex.norm_eq_sqrt_sq_add_sq]
  rfl

theorem dist_triangle' (p q r : Point) : Spec.dist p r ≤ Spec.dist p q + Spec.dist q r := by
  simp only [dist_eq_norm']
  exact norm_sub_le_norm_sub_add_norm_sub _ _ _

theorem dist_comm' (p q : Point) : Spec.dist p q = Spec.dist q p := by
  simp only [dist_eq_norm']
  exact norm_sub_rev _ _

/-- The point a scan is searched by is its overhang away from where it is. -/
theorem dist_refPoint (use : Bool) (s : Scan) : Spec.dist (position s) (refPoint use s) = overhang use s := by
  unfold refPoint overhang position
  cases use with
  | false => simp [Spec.dist]
  | true =>
    simp only [if_true, barycenter]
    split
    · rename_i h
      rw [h]
      simp [Spec.dist, centroid, sumX, sumY]
    · simp only [move, Spec.dist, sub_zero]
      congr 1
      have := Real.sin_sq_add_cos_sq s.pose.theta
      linear_combination ((centroid s.points).x ^ 2 + (centroid s.points).y ^ 2) * this

theorem near_of_ref {use : Bool} {d : ℝ} {a b : Scan} (h : Spec.dist (refPoint use a) (refPoint use b) ^ 2 < d) :
    Spec.dist (position a) (position b) ≤ Real.sqrt d + overhang use a + overhang use b := by
  have h1 := dist_triangle' (position a) (refPoint use a) (position b)
  have h2 := dist_triangle' (refPoint use a) (refPoint use b) (position b)
  rw [dist_refPoint] at h1
  rw [dist_comm' (refPoint use b) (position b), dist_refPoint] at h2
  have h3 : Spec.dist (refPoint use a) (refPoint use b) ≤ Real.sqrt d := Real.le_sqrt_of_sq_le h.le
  linarith

/-- A correction along each axis moves a scan by at most √2 times as much. -/
theorem moved_le {a : Scan} {c : Pose2d} {L : ℝ} (hx : |c.x| ≤ L) (hy : |c.y| ≤ L) :
    Spec.dist (position (a.setPose (addCorrection c a.getPose))) (position a) ≤ Real.sqrt 2 * L := by
  have hL : 0 ≤ L := le_trans (abs_nonneg _) hx
  simp only [position, Scan.setPose, addCorrection, Scan.getPose, Spec.dist, add_sub_cancel_right]
  rw [show Real.sqrt 2 * L = Real.sqrt (2 * L ^ 2) by rw [Real.sqrt_mul (by norm_num), Real.sqrt_sq hL]]
  apply Real.sqrt_le_sqrt
  have h1 := sq_le_sq' (by linarith [neg_abs_le c.x]) (le_trans (le_abs_self c.x) hx)
  have h2 := sq_le_sq' (by linarith [neg_abs_le c.y]) (le_trans (le_abs_self c.y) hy)
  linarith

/-- The length of a fresh constraint is the distance of its scans. -/
theorem reachOf_make (a b : Scan) (cov : Mat3) : reachOf (makeConstraint a b cov).transform = Spec.dist (position b) (position a) := by
  simp only [reachOf, makeConstraint, Spec.dist, position, Scan.getPose, sub_zero]
  congr 1
  have := Real.sin_sq_add_cos_sq a.pose.theta
  linear_combination ((b.pose.x - a.pose.x) ^ 2 + (b.pose.y - a.pose.y) ^ 2) * this

/-- The scans at two places are near each other. -/
def PairNear (p : Params) (L : ℝ) (s : Sys) (a b : Ptr) (k : ℕ) : Prop :=
  ∃ x y, (s.heap a.epoch)[a.idx]? = some x ∧ (s.heap b.epoch)[b.idx]? = some y ∧
    Spec.dist (position x) (position y) ≤ Apart p.useBarycenter (Real.sqrt p.searchSize) L k x y

/-- The candidates still to be tried are near the scan. -/
structure NearOK (p : Params) (L : ℝ) (s : Sys) (q : Search) (k : ℕ) : Prop where
  pos : 1 ≤ q.left
  le : q.left ≤ p.searchLimit
  epoch : q.scan.epoch ≤ s.epoch
  rest : ∀ i ∈ q.rest, PairNear p L s q.scan ⟨q.scan.epoch, i⟩ (p.searchLimit - q.left + k)

structure NearInv (p : Params) (L : ℝ) (s : Sys) : Prop where
  candidates : ∀ q, s.loop = .candidates q → NearOK p L s q 0
  matching : ∀ q c, s.loop = .matching q c → NearOK p L s q 0 ∧ c.epoch ≤ s.epoch ∧
    (c.epoch = q.scan.epoch → PairNear p L s q.scan c (p.searchLimit - q.left))
  pushing : ∀ q c, s.loop = .pushing q c → NearOK p L s q 1

theorem PairNear.keep {p : Params} {L : ℝ} {s s' : Sys} {a b : Ptr} {k : ℕ} (h : PairNear p L s a b k)
    (ha : a.epoch ≤ s.epoch) (hb : b.epoch ≤ s.epoch)
    (hk : ∀ e, e ≤ s.epoch → ∀ (i : ℕ) (x : Scan), (s.heap e)[i]? = some x → (s'.heap e)[i]? = some x) : PairNear p L s' a b k := by
  obtain ⟨x, y, h1, h2, h3⟩ := h
  exact ⟨x, y, hk _ ha _ _ h1, hk _ hb _ _ h2, h3⟩

theorem NearOK.keep {p : Params} {L : ℝ} {s s' : Sys} {q : Search} {k : ℕ} (h : NearOK p L s q k) (he : s.epoch ≤ s'.epoch)
    (hk : ∀ e, e ≤ s.epoch → ∀ (i : ℕ) (x : Scan), (s.heap e)[i]? = some x → (s'.heap e)[i]? = some x) : NearOK p L s' q k :=
  ⟨h.pos, h.le, h.epoch.trans he, fun i hi => (h.rest i hi).keep h.epoch h.epoch hk⟩

theorem NearInv.keep {p : Params} {L : ℝ} {s s' : Sys} (h : NearInv p L s) (hl : s'.loop = s.loop)
    (he : s.epoch ≤ s'.epoch)
    (hk : ∀ e, e ≤ s.epoch → ∀ (i : ℕ) (x : Scan), (s.heap e)[i]? = some x → (s'.heap e)[i]? = some x) : NearInv p L s' := by
  refine ⟨fun q hq => ?_, fun q c hq => ?_, fun q c hq => ?_⟩ <;> rw [hl] at hq
  · exact (h.candidates q hq).keep he hk
  · obtain ⟨h1, h2, h3⟩ := h.matching q c hq
    exact ⟨h1.keep he hk, h2.trans he, fun hc => (h3 hc).keep h1.epoch h2 hk⟩
  · exact (h.pushing q c hq).keep he hk

theorem NearInv.free {p : Params} {L : ℝ} {s : Sys} (h1 : ∀ q, s.loop ≠ .candidates q) (h2 : ∀ q c, s.loop ≠ .matching q c)
    (h3 : ∀ q c, s.loop ≠ .pushing q c) : NearInv p L s :=
  ⟨fun q h => absurd h (h1 q), fun q c h => absurd h (h2 q c), fun q c h => absurd h (h3 q c)⟩

/-- After an attempt there is one attempt less. -/
theorem nearInv_after {p : Params} {L : ℝ} {s : Sys} {q : Search} (hlim : p.searchLimit < 2 ^ 64) (h : NearOK p L s q 1) :
    NearInv p L (afterAttempt q s) := by
  have hp := h.pos
  have hl := h.le
  have hleft : (q.left + (2 ^ 64 - 1)) % 2 ^ 64 = q.left - 1 := by omega
  unfold afterAttempt
  rw [hleft]
  split
  · exact .free (fun q => by simp [nextScan]) (fun q c => by simp [nextScan]) (fun q c => by simp [nextScan])
  · rename_i h0
    refine ⟨fun q' hq => ?_, fun q c hq => (by simp at hq), fun q c hq => (by simp at hq)⟩
    simp only [Loop.candidates.injEq] at hq
    subst hq
    refine ⟨?_, ?_, h.epoch, fun i hi => ?_⟩
    · show 1 ≤ q.left - 1
      omega
    · show q.left - 1 ≤ p.searchLimit
      omega
    · have := h.rest i hi
      show PairNear p L _ q.scan ⟨q.scan.epoch, i⟩ (p.searchLimit - (q.left - 1) + 0)
      rw [show p.searchLimit - (q.left - 1) + 0 = p.searchLimit - q.left + 1 by omega]
      exact this

theorem Apart.mono {use : Bool} {r L : ℝ} {k k' : ℕ} (hL : 0 ≤ L) (h : k ≤ k') (a b : Scan) :
    Apart use r L k a b ≤ Apart use r L k' a b := by
  unfold Apart
  have : (k : ℝ) ≤ k' := by exact_mod_cast h
  have h2 : 0 ≤ Real.sqrt 2 * L := mul_nonneg (Real.sqrt_nonneg _) hL
  have := mul_le_mul_of_nonneg_right this h2
  linarith

theorem NearOK.more {p : Params} {L : ℝ} {s : Sys} {q : Search} (hL : 0 ≤ L) (h : NearOK p L s q 0) : NearOK p L s q 1 :=
  ⟨h.pos, h.le, h.epoch, fun i hi => by
    obtain ⟨x, y, h1, h2, h3⟩ := h.rest i hi
    exact ⟨x, y, h1, h2, h3.trans (Apart.mono hL (by omega) x y)⟩⟩

/-- Corrections by loop closing are small, and there are not too many scans. -/
def SmallSteps (L : ℝ) (s : Sys) (e : Event) : Prop :=
  s.scans.length < 2 ^ 31 ∧ ∀ score c cov, e = .loopMatched score c cov → |c.x| ≤ L ∧ |c.y| ≤ L

/-- A step of the loop closure thread that corrects a scan keeps every other pair as near as one more correction allows. -/
theorem PairNear.corrected {p : Params} {L : ℝ} {s : Sys} {a b : Ptr} {k : ℕ} {scan : Scan} {c : Pose2d} {hp : ℕ → List Scan}
    (h : PairNear p L s a b k) (ha : (s.heap a.epoch)[a.idx]? = some scan) (hne : b.epoch = a.epoch → b.idx ≠ a.idx)
    (hx : |c.x| ≤ L) (hy : |c.y| ≤ L) (he : hp = setPoseAt s.heap a (addCorrection c scan.getPose)) :
    ∃ y, (hp a.epoch)[a.idx]? = some (scan.setPose (addCorrection c scan.getPose)) ∧ (hp b.epoch)[b.idx]? = some y ∧
      (s.heap b.epoch)[b.idx]? = some y ∧
      Spec.dist (position (scan.setPose (addCorrection c scan.getPose))) (position y) ≤
        Apart p.useBarycenter (Real.sqrt p.searchSize) L (k + 1) (scan.setPose (addCorrection c scan.getPose)) y := by
  obtain ⟨x, y, h1, h2, h3⟩ := h
  rw [ha] at h1
  cases h1
  subst he
  refine ⟨y, ?_, ?_, h2, ?_⟩
  · simp only [setPoseAt, if_true, List.getElem?_modify_eq, ha]; rfl
  · unfold setPoseAt
    split
    · rename_i hbe
      rw [List.getElem?_modify_ne _ _ (Ne.symm (hne hbe)), h2]
    · exact h2
  · have h4 := dist_triangle' (position (scan.setPose (addCorrection c scan.getPose))) (position scan) (position y)
    have h5 := moved_le (a := scan) hx hy
    unfold Apart at h3 ⊢
    have h6 : overhang p.useBarycenter (scan.setPose (addCorrection c scan.getPose)) = overhang p.useBarycenter scan := rfl
    rw [h6]
    push_cast
    linarith

theorem nearInv_reach {p : Params} {L : ℝ} (hL : 0 ≤ L) (hpos : 0 < p.searchLimit) (hlim : p.searchLimit < 2 ^ 64) {s : Sys}
    (h : Reach p (FarMap p.rollingDepth) (SmallSteps L) s) : (GraphInv s ∧ OdomInv s ∧ LoopInv p s) ∧ NearInv p L s := by
  suffices H : ((GraphInv s ∧ OdomInv s ∧ LoopInv p s) ∧ AllBuilt s) ∧ NearInv p L s from ⟨H.1.1, H.2⟩
  refine Reach.inv (I := fun s => ((GraphInv s ∧ OdomInv s ∧ LoopInv p s) ∧ AllBuilt s) ∧ NearInv p L s) h ?_ ?_
  · intro enable file s0 hst hw
    refine ⟨⟨loopInv_reach ⟨enable, file, s0, [], hst, hw, .nil⟩, built_start hst⟩, ?_⟩
    rcases start_cases hst with ⟨-, rfl⟩ | ⟨bag, g, hf, hg, rfl⟩ <;>
      exact .free (fun q => by simp [startWith]) (fun q c => by simp [startWith]) (fun q c => by simp [startWith])
  · intro s e s' hI ha hw ht
    refine ⟨⟨⟨graphInv_step hI.1.1.1 (fun a b he g hg => (hw a b he g hg).1) ht, odomInv_step hI.1.1.2.1 ht,
      loopInv_step hI.1.1.1 hI.1.1.2.1 hI.1.1.2.2 ha.1 (fun a b he g hg => (hw a b he g hg).2) ht⟩,
      built_step hI.1.2 ht⟩, ?_⟩
    obtain ⟨⟨⟨hG, -, hLp⟩, hB⟩, hN⟩ := hI
    have happ : ∀ (l : List Scan) (e : ℕ), e ≤ s.epoch → ∀ (i : ℕ) (x : Scan), (s.heap e)[i]? = some x →
        (if e = s.epoch then s.scans ++ l else s.heap e)[i]? = some x := by
      intro l e _ i x hx
      split
      · rename_i he
        rw [he] at hx
        have hlt := (List.getElem?_eq_some_iff.mp hx).1
        show (s.heap s.epoch ++ l)[i]? = _
        rw [List.getElem?_append_left hlt]; exact hx
      · exact hx
    cases ht with
    | laserIgnored msg mount odom odomEnd hi =>
      obtain ⟨r, l, g, m, e, -⟩ := setup_cases p msg mount s
      rw [e]; exact hN.keep rfl le_rfl fun _ _ _ _ h => h
    | laserScan msg mount odom odomEnd points hi hgo hinit ht =>
      obtain ⟨r, l, g, m, e, -⟩ := setup_cases p msg mount s
      rw [e]; exact hN.keep rfl le_rfl fun _ _ _ _ h => h
    | configureFlags action bag hi hl =>
      obtain ⟨en, ini, e, -⟩ := configureMapping_frame action s
      rw [e]; exact hN.keep rfl le_rfl fun _ _ _ _ h => h
    | load action bag g hi hl hg =>
      obtain ⟨en, ini, e, -⟩ := configureMapping_frame action s
      rw [e]
      refine hN.keep rfl (Nat.le_succ _) fun e he i x hx => ?_
      dsimp only
      rw [if_neg (by omega)]; exact hx
    | pushScan scan odom hi => exact hN.keep rfl le_rfl (happ _)
    | poseScan m odom visit near i rest hi he hn hf hnear hv hfind => exact hN.keep rfl le_rfl (happ _)
    | pubTf hi =>
      obtain ⟨x, e⟩ := pubTf_frame s
      rw [e]; exact hN.keep rfl le_rfl fun _ _ _ _ h => h
    | loopWake hi he => exact .free (by simp) (by simp) (by simp)
    | loopShort hi hn => exact .free (by simp) (by simp) (by simp)
    | loopCount hi hn => exact .free (by simp) (by simp) (by simp)
    | loopLeave visit r hi hn => exact .free (by simp) (by simp) (by simp)
    | loopNext q hi hr => exact .free (by simp [nextScan]) (by simp [nextScan]) (by simp [nextScan])
    | loopDecide r hi =>
      refine .free (fun q => ?_) (fun q c => ?_) (fun q c => ?_) <;> dsimp only <;> split <;> simp
    | loopOptimise ceres b solver scans hi ho => exact .free (by simp) (by simp) (by simp)
    | loopPick visit r scan near hi hn hs hv hf =>
      refine ⟨fun q hq => ?_, fun q c hq => (by simp at hq), fun q c hq => (by simp at hq)⟩
      simp only [Loop.candidates.injEq] at hq
      subst hq
      have key := c39_find_nearest_exact (s.graph p) visit scan p.searchSize _ (hB.1 s.epoch)
        (hB.1 s.epoch scan (List.mem_of_getElem? hs)) hv hf
      refine ⟨hpos, le_rfl, le_rfl, fun i hi' => ?_⟩
      obtain ⟨-, x, hx, hd⟩ := (key.2.1 i).mp hi'
      refine ⟨scan, x, hs, hx, ?_⟩
      have := near_of_ref hd
      simp only [Apart, Nat.sub_self, Nat.add_zero, Nat.cast_zero, zero_mul, add_zero]
      exact this
    | loopSkip q i rest cand hi hr hc hp =>
      refine ⟨fun q' hq => ?_, fun q c hq => (by simp at hq), fun q c hq => (by simp at hq)⟩
      simp only [Loop.candidates.injEq] at hq
      subst hq
      have := hN.candidates q hi
      exact ⟨this.1, this.2, this.3, fun j hj => this.4 j (by rw [hr]; exact List.mem_cons_of_mem _ hj)⟩
    | loopCandidate q i rest cand hi hr hc hg =>
      refine ⟨fun q hq => (by simp at hq), fun q' c hq => ?_, fun q c hq => (by simp at hq)⟩
      simp only [Loop.matching.injEq] at hq
      obtain ⟨rfl, rfl⟩ := hq
      have := hN.candidates q hi
      refine ⟨⟨this.1, this.2, this.3, fun j hj => this.4 j (by rw [hr]; exact List.mem_cons_of_mem _ hj)⟩, le_rfl, ?_⟩
      intro hc'
      have h1 := this.4 i (by rw [hr]; exact List.mem_cons_self)
      have h2 : s.epoch = q.scan.epoch := hc'
      show PairNear p L _ q.scan ⟨s.epoch, i⟩ (p.searchLimit - q.left)
      rw [h2]
      exact h1
    | loopAccept score correction cov q cand scan candidate hi hf hs h1 h2 =>
      obtain ⟨hx, hy⟩ := ha.2 score correction cov rfl
      refine ⟨fun q hq => (by simp at hq), fun q c hq => (by simp at hq), fun q' c hq => ?_⟩
      simp only [Loop.pushing.injEq] at hq
      obtain ⟨rfl, -⟩ := hq
      obtain ⟨hok, -⟩ := hN.matching q cand hi
      have hS := (hLp.matching q cand hi).1
      refine ⟨hok.1, hok.2, hok.3, fun i hi' => ?_⟩
      have hlt := hS.rest i hi'
      obtain ⟨y, e1, e2, -, e3⟩ := (hok.4 i hi').corrected h1 (c := correction)
        (fun _ => by show i ≠ q.scan.idx; rw [hS.scan]; have := hS.rolling; omega) hx hy rfl
      exact ⟨_, y, e1, e2, e3⟩
    | loopReject score correction cov q cand hi hs =>
      exact nearInv_after hlim ((hN.matching q cand hi).1.more hL)
    | loopPush q c hi =>
      refine nearInv_after hlim ?_
      exact (hN.pushing q c hi).keep le_rfl fun _ _ _ _ h => h
    | _ => exact hN.keep rfl le_rfl fun _ _ _ _ h => h

end

end Ndt
