import Verif.Proof.Threads

/-! # Helper lemmas: the loop closure thread -/

namespace Ndt

noncomputable section

open Spec Mapper

/-- What holds of the variables of the loop closure thread while it works on a scan. -/
structure SearchOK (p : Params) (n : ℕ) (q : Search) : Prop where
  scan : q.scan.idx = n
  rolling : q.rolling + p.rollingDepth = n
  pos : 0 < q.rolling
  rest : ∀ i ∈ q.rest, i < q.rolling

structure LoopInv (p : Params) (s : Sys) : Prop where
  far : LoopsFar p.rollingDepth s.constraints
  picking : ∀ r, s.loop = .picking r → p.rollingDepth < s.processed
  candidates : ∀ q, s.loop = .candidates q → SearchOK p s.processed q
  matching : ∀ q cand, s.loop = .matching q cand → SearchOK p s.processed q ∧ cand.idx < q.rolling
  pushing : ∀ q c, s.loop = .pushing q c → SearchOK p s.processed q ∧ c.switchable = true ∧ c.begin_ + p.rollingDepth < c.end_

theorem loopsFar_append {d : ℕ} {cs ds : List Constraint} (h1 : LoopsFar d cs) (h2 : LoopsFar d ds) :
    LoopsFar d (cs ++ ds) := by
  intro c hc hs
  rcases List.mem_append.mp hc with h | h
  · exact h1 c h hs
  · exact h2 c h hs

theorem loopsFar_odom (d : ℕ) (a b : Scan) (cov : Mat3) : LoopsFar d [makeConstraint a b cov] := by
  intro c hc hs
  rw [List.mem_singleton] at hc
  subst hc; cases hs

/-- A result of `findNearest` holds only visited points. -/
theorem findNearest_subset {g : Graph} {visit : List ℕ} {scan : Scan} {d : ℝ} {k : ℤ} {near : List ℕ}
    (h : g.findNearest visit scan d k = .ok near) : ∀ i ∈ near, i ∈ visit := by
  unfold Graph.findNearest at h
  simp only at h
  by_cases hc : g.scans.length < (if 0 < k then k.toNat else g.scans.length)
  · rw [if_pos hc] at h; injection h
  · rw [if_neg hc] at h
    injection h with h
    intro i hi
    rw [← h] at hi
    rw [List.mem_mergeSort, List.mem_filter] at hi
    exact hi.1

theorem wrapI32_small {n : ℕ} (h : n < 2 ^ 31) : wrapI32 n = n := by
  unfold wrapI32
  have h32 : n < 2 ^ 32 := lt_trans h (by norm_num)
  rw [Nat.mod_eq_of_lt h32, if_pos h]

theorem afterAttempt_inv {p : Params} {s : Sys} {q : Search} (hf : LoopsFar p.rollingDepth s.constraints)
    (hq : SearchOK p s.processed q) : LoopInv p (afterAttempt q s) := by
  rcases afterAttempt_cases q s with ⟨-, e⟩ | ⟨-, e⟩
  · rw [e]
    refine ⟨hf, fun r h => ?_, ?_, ?_, ?_⟩
    · show p.rollingDepth < s.processed + 1
      have := hq.rolling; omega
    all_goals (intros; simp [nextScan] at *)
  · rw [e]
    generalize (q.left + (2 ^ 64 - 1)) % 2 ^ 64 = left
    refine ⟨hf, ?_, fun q' h => ?_, ?_, ?_⟩
    · intro r h; simp at h
    · simp only [Loop.candidates.injEq] at h
      subst h
      exact ⟨hq.scan, hq.rolling, hq.pos, hq.rest⟩
    · intro q cand h; simp at h
    · intro q c h; simp at h

/-- Constraints made by the executor are not switchable. -/
def OdomInv (s : Sys) : Prop := ∀ c scan odom, s.spin = .constraint c scan odom → c.switchable = false

theorem odomInv_step {p : Params} {s s' : Sys} {e : Event} (hI : OdomInv s) (ht : Trans p s e s') : OdomInv s' := by
  cases ht with
  | laserIgnored msg mount odom odomEnd hi =>
    obtain ⟨r, l, g, m, e, -⟩ := setup_cases p msg mount s
    rw [e]; exact hI
  | laserScan msg mount odom odomEnd points hi hgo hinit ht =>
    intro c scan odom' h
    simp only [branch] at h
    split_ifs at h
  | localMatched score correction cov scan back odom hi hb =>
    intro c scan' odom' h
    simp only [Spin.constraint.injEq] at h
    rw [← h.1]; rfl
  | configureFlags action bag hi hl =>
    obtain ⟨en, ini, e, -⟩ := configureMapping_frame action s
    rw [e]; exact hI
  | load action bag g hi hl hg =>
    obtain ⟨en, ini, e, -⟩ := configureMapping_frame action s
    rw [e]; exact hI
  | loopReject score correction cov q cand hi hs =>
    obtain ⟨n, l, e⟩ := afterAttempt_frame q s
    rw [e]; exact hI
  | loopPush q c hi =>
    obtain ⟨n, l, e⟩ := afterAttempt_frame q { s with constraints := s.constraints ++ [c], update := true }
    rw [e]; exact hI
  | pubTf hi =>
    obtain ⟨x, e⟩ := pubTf_frame s
    rw [e]; exact hI
  | _ => first
    | exact hI
    | (intro c scan odom h; simp at h)

theorem loopInv_step {p : Params} {s s' : Sys} {e : Event} (hG : GraphInv s) (hS : OdomInv s) (hI : LoopInv p s)
    (hsz : s.scans.length < 2 ^ 31)
    (hw : ∀ action bag, e = .configure action bag → ∀ g, Graph.load p.useBarycenter bag = .ok g →
      LoopsFar p.rollingDepth g.constraints)
    (ht : Trans p s e s') : LoopInv p s' := by
  obtain ⟨h1, h2, h3, h4, h5⟩ := hI
  cases ht with
  | laserIgnored msg mount odom odomEnd hi =>
    obtain ⟨r, l, g, m, e, -⟩ := setup_cases p msg mount s
    rw [e]
    exact ⟨h1, h2, h3, h4, h5⟩
  | laserScan msg mount odom odomEnd points hi hgo hinit ht =>
    obtain ⟨r, l, g, m, e, -⟩ := setup_cases p msg mount s
    rw [e]
    exact ⟨h1, h2, h3, h4, h5⟩
  | configureFlags action bag hi hl =>
    obtain ⟨en, ini, e, -⟩ := configureMapping_frame action s
    rw [e]
    exact ⟨h1, h2, h3, h4, h5⟩
  | load action bag g hi hl hg =>
    obtain ⟨en, ini, e, -⟩ := configureMapping_frame action s
    rw [e]
    exact ⟨hw action bag rfl g hg, h2, h3, h4, h5⟩
  | pubTf hi =>
    obtain ⟨x, e⟩ := pubTf_frame s
    rw [e]
    exact ⟨h1, h2, h3, h4, h5⟩
  | pushConstraint c scan odom hi =>
    refine ⟨loopsFar_append h1 ?_, h2, h3, h4, h5⟩
    intro c' hc' hsw
    rw [List.mem_singleton] at hc'
    subst hc'
    rw [hS _ _ _ hi] at hsw; cases hsw
  | poseScan m odom visit near i rest hi he hn hf hnear hv hfind =>
    exact ⟨loopsFar_append h1 (loopsFar_odom _ _ _ _), h2, h3, h4, h5⟩
  | loopWake hi he =>
    exact ⟨h1, fun r h => by simp at h, fun q h => by simp at h, fun q c h => by simp at h, fun q c h => by simp at h⟩
  | loopShort hi hn =>
    exact ⟨h1, fun r h => by simp at h, fun q h => by simp at h, fun q c h => by simp at h, fun q c h => by simp at h⟩
  | loopCount hi hn =>
    refine ⟨h1, fun r h => ?_, fun q h => by simp at h, fun q c h => by simp at h, fun q c h => by simp at h⟩
    show p.rollingDepth < if s.processed ≤ p.rollingDepth then p.rollingDepth + 1 else s.processed
    split <;> omega
  | loopPick visit r scan near hi hn hs hv hf =>
    refine ⟨h1, fun r h => by simp at h, fun q h => ?_, fun q c h => by simp at h, fun q c h => by simp at h⟩
    simp only [Loop.candidates.injEq] at h
    subst h
    have hp := h2 r hi
    have hlt := (List.getElem?_eq_some_iff.mp hs).1
    have hsm : s.processed - p.rollingDepth < 2 ^ 31 := by omega
    refine ⟨rfl, ?_, ?_, ?_⟩
    · show s.processed - p.rollingDepth + p.rollingDepth = s.processed
      omega
    · show 0 < s.processed - p.rollingDepth
      omega
    · intro i hi'
      have := findNearest_subset hf i hi'
      rw [wrapI32_small hsm, if_pos (by omega)] at hv
      have h' := hv.mem_iff.mp this
      rw [List.mem_range] at h'
      simpa using h'
  | loopLeave visit r hi hn =>
    exact ⟨h1, fun r h => by simp at h, fun q h => by simp at h, fun q c h => by simp at h, fun q c h => by simp at h⟩
  | loopNext q hi hr =>
    refine ⟨h1, fun r h => ?_, fun q h => by simp [nextScan] at h, fun q c h => by simp [nextScan] at h,
      fun q c h => by simp [nextScan] at h⟩
    show p.rollingDepth < s.processed + 1
    have := (h3 q hi).rolling; omega
  | loopSkip q i rest cand hi hr hc hp =>
    refine ⟨h1, fun r h => by simp at h, fun q' h => ?_, fun q c h => by simp at h, fun q c h => by simp at h⟩
    simp only [Loop.candidates.injEq] at h
    subst h
    have := h3 q hi
    exact ⟨this.1, this.2, this.3, fun j hj => this.4 j (by rw [hr]; exact List.mem_cons_of_mem _ hj)⟩
  | loopCandidate q i rest cand hi hr hc hg =>
    refine ⟨h1, fun r h => by simp at h, fun q h => by simp at h, fun q' c h => ?_, fun q c h => by simp at h⟩
    simp only [Loop.matching.injEq] at h
    obtain ⟨rfl, rfl⟩ := h
    have := h3 q hi
    exact ⟨⟨this.1, this.2, this.3, fun j hj => this.4 j (by rw [hr]; exact List.mem_cons_of_mem _ hj)⟩,
      this.4 i (by rw [hr]; exact List.mem_cons_self)⟩
  | loopAccept score correction cov q cand scan candidate hi hf hs hq1 hq2 =>
    refine ⟨h1, fun r h => by simp at h, fun q h => by simp at h, fun q c h => by simp at h, fun q' c h => ?_⟩
    simp only [Loop.pushing.injEq] at h
    obtain ⟨rfl, rfl⟩ := h
    obtain ⟨hq, hcand⟩ := h4 q cand hi
    refine ⟨⟨hq.1, hq.2, hq.3, hq.4⟩, rfl, ?_⟩
    show candidate.id + p.rollingDepth < scan.id
    rw [hG.ids _ _ _ hq1, hG.ids _ _ _ hq2, hq.scan]
    have := hq.rolling
    omega
  | loopReject score correction cov q cand hi hs => exact afterAttempt_inv h1 (h4 q cand hi).1
  | loopPush q c hi =>
    obtain ⟨hq, -, hc⟩ := h5 q c hi
    refine afterAttempt_inv (loopsFar_append h1 ?_) ⟨hq.1, hq.2, hq.3, hq.4⟩
    intro c' hc' _
    rw [List.mem_singleton] at hc'
    subst hc'; exact hc
  | loopDecide r hi =>
    refine ⟨h1, ?_, ?_, ?_, ?_⟩ <;> intros <;> simp only at * <;> split_ifs at *
  | loopOptimise ceres b solver scans hi ho =>
    exact ⟨h1, fun r h => by simp at h, fun q h => by simp at h, fun q c h => by simp at h, fun q c h => by simp at h⟩
  | _ =>
    exact ⟨h1, h2, h3, h4, h5⟩

end

end Ndt
