import Verif.Props.LoopProps
import Verif.Proof.NodeInv

/-! # Helper lemmas: the region map while a loop closure is tried -/

namespace Ndt

open Spec Mapper

noncomputable section

/-- While a candidate is tried, the global matcher has the scans around it. -/
structure RegionInv (s : Sys) : Prop where
  laser : s.globalM ≠ none → s.laser ≠ none
  region : ∀ q cand, s.loop = .matching q cand → cand.epoch ≤ s.epoch ∧ cand.idx < (s.heap cand.epoch).length ∧
    s.globalM = some (((s.heap cand.epoch).take (cand.idx + 1)).drop (cand.idx - 1))

theorem regionInv_append {s : Sys} (h : RegionInv s) (l : List Scan) (f : ℕ → List Scan)
    (hf : f = fun e => if e = s.epoch then s.scans ++ l else s.heap e) (q : Search) (cand : Ptr)
    (hm : s.loop = .matching q cand) : cand.epoch ≤ s.epoch ∧ cand.idx < (f cand.epoch).length ∧
      s.globalM = some (((f cand.epoch).take (cand.idx + 1)).drop (cand.idx - 1)) := by
  obtain ⟨h1, h2, h3⟩ := h.region q cand hm
  refine ⟨h1, ?_⟩
  subst hf
  dsimp only
  split_ifs with he
  · have e : s.heap cand.epoch = s.scans := by rw [he]; rfl
    rw [e] at h2 h3
    refine ⟨by rw [List.length_append]; omega, ?_⟩
    rw [List.take_append_of_le_length (by omega)]
    exact h3
  · exact ⟨h2, h3⟩

theorem regionInv_setup {p : Params} {msg : LaserMsg} {mount : Option (Pose2d × Bool)} {s : Sys} (h : RegionInv s) (sp : Spin) :
    RegionInv (laserSetup p msg mount s).1 ∧ RegionInv { (laserSetup p msg mount s).1 with spin := sp } := by
  unfold laserSetup
  dsimp only
  split
  · exact ⟨⟨h.1, h.2⟩, ⟨h.1, h.2⟩⟩
  · rename_i hl
    split
    · exact ⟨⟨h.1, h.2⟩, ⟨h.1, h.2⟩⟩
    · have hno : ∀ q cand, s.loop ≠ .matching q cand := fun q cand hq =>
        h.1 (by rw [(h.2 q cand hq).2.2]; simp) hl
      exact ⟨⟨fun _ => by simp, fun q cand hq => absurd hq (hno q cand)⟩,
        ⟨fun _ => by simp, fun q cand hq => absurd hq (hno q cand)⟩⟩

theorem regionInv_reach {p : Params} {s : Sys} (h : Reach p (FarMap p.rollingDepth) SmallGraph s) : RegionInv s := by
  suffices H : (GraphInv s ∧ OdomInv s ∧ LoopInv p s) ∧ RegionInv s from H.2
  refine Reach.inv (I := fun s => (GraphInv s ∧ OdomInv s ∧ LoopInv p s) ∧ RegionInv s) h ?_ ?_
  · intro enable file s0 hst hw
    refine ⟨loopInv_reach ⟨enable, file, s0, [], hst, hw, .nil⟩, ?_⟩
    rcases start_cases hst with ⟨-, rfl⟩ | ⟨bag, g, hf, hg, rfl⟩ <;>
      exact ⟨fun h => absurd rfl h, fun q c h => by simp [startWith] at h⟩
  · intro s e s' hI ha hw ht
    refine ⟨⟨graphInv_step hI.1.1 (fun a b he g hg => (hw a b he g hg).1) ht, odomInv_step hI.1.2.1 ht,
      loopInv_step hI.1.1 hI.1.2.1 hI.1.2.2 ha (fun a b he g hg => (hw a b he g hg).2) ht⟩, ?_⟩
    obtain ⟨⟨-, -, hL⟩, hR⟩ := hI
    cases ht with
    | laserIgnored msg mount odom odomEnd hi => exact (regionInv_setup hR .idle).1
    | laserScan msg mount odom odomEnd points hi hgo hinit ht => exact (regionInv_setup hR _).2
    | configureFlags action bag hi hl =>
      obtain ⟨en, ini, e, -⟩ := configureMapping_frame action s
      rw [e]; exact ⟨hR.1, hR.2⟩
    | load action bag g hi hl hg =>
      obtain ⟨en, ini, e, -⟩ := configureMapping_frame action s
      rw [e]
      refine ⟨hR.1, fun q cand hq => ?_⟩
      obtain ⟨h1, h2, h3⟩ := hR.2 q cand hq
      have hne : ¬ cand.epoch = s.epoch + 1 := by omega
      dsimp only
      rw [if_neg hne]
      exact ⟨by omega, h2, h3⟩
    | pushScan scan odom hi => exact ⟨hR.1, fun q cand hq => regionInv_append hR [scan] _ rfl q cand hq⟩
    | poseScan m odom visit near i rest hi he hn hf hnear hv hfind =>
      exact ⟨hR.1, fun q cand hq => regionInv_append hR [_] _ rfl q cand hq⟩
    | loopCandidate q i rest cand hi hr hc hg =>
      refine ⟨fun _ => hR.1 hg, fun q' cand' hq => ?_⟩
      have hrest := (hL.candidates _ hi).rest i (by rw [hr]; exact List.mem_cons_self)
      simp only [Loop.matching.injEq] at hq
      obtain ⟨-, rfl⟩ := hq
      obtain ⟨hlen, -⟩ := List.getElem?_eq_some_iff.mp hc
      refine ⟨le_rfl, hlen, ?_⟩
      dsimp only
      rw [if_pos hrest, show (if 0 < i then i - 1 else i) = i - 1 by split <;> omega]
      rfl
    | loopReject score correction cov q cand hi hs =>
      have hn := Node.afterAttempt_loop q s
      obtain ⟨n, l, e⟩ := afterAttempt_frame q s
      rw [e] at hn ⊢
      exact ⟨hR.1, fun q' cand' hq => absurd hq (hn q' cand')⟩
    | loopPush q c hi =>
      have hn := Node.afterAttempt_loop q { s with constraints := s.constraints ++ [c], update := true }
      obtain ⟨n, l, e⟩ := afterAttempt_frame q { s with constraints := s.constraints ++ [c], update := true }
      rw [e] at hn ⊢
      exact ⟨hR.1, fun q' cand' hq => absurd hq (hn q' cand')⟩
    | pubTf hi =>
      obtain ⟨x, e⟩ := pubTf_frame s
      rw [e]; exact ⟨hR.1, hR.2⟩
    | loopNext q hi hr =>
      have hn : ∀ q' c, (nextScan q.round s).loop ≠ .matching q' c := by intro q' c; simp [nextScan]
      refine ⟨hR.1, fun q' cand' hq => absurd hq (hn q' cand')⟩
    | loopDecide r hi =>
      refine ⟨hR.1, fun q' cand' hq => ?_⟩
      dsimp only at hq
      split at hq <;> cases hq
    | addWindow scan odom w hi hl hw => exact ⟨hR.1, hR.2⟩
    | _ => first
      | exact hR
      | exact ⟨hR.1, hR.2⟩
      | exact ⟨hR.1, fun q' cand' hq => by cases hq⟩

/-- The scans around a candidate: itself and the one before. -/
theorem region_members {l : List Scan} {i : ℕ} (hi : i < l.length) :
    ((l.take (i + 1)).drop (i - 1)).getLast? = l[i]? ∧ ((l.take (i + 1)).drop (i - 1)).length ≤ 2 ∧
    ∀ x ∈ (l.take (i + 1)).drop (i - 1), l[i]? = some x ∨ (0 < i ∧ l[i - 1]? = some x) := by
  refine ⟨?_, ?_, ?_⟩
  · rw [List.getLast?_drop, List.getLast?_take]
    simp [List.getElem?_eq_getElem hi]
    omega
  · rw [List.length_drop, List.length_take]; omega
  · intro x hx
    obtain ⟨k, hk, rfl⟩ := List.mem_iff_getElem.mp hx
    rw [List.length_drop, List.length_take] at hk
    rw [List.getElem_drop, List.getElem_take]
    rcases Nat.eq_zero_or_pos i with h0 | h0
    · left; rw [List.getElem?_eq_some_iff]; exact ⟨hi, by congr 1; omega⟩
    · by_cases hk0 : k = 0
      · right; refine ⟨h0, ?_⟩; rw [List.getElem?_eq_some_iff]; exact ⟨by omega, by congr 1; omega⟩
      · left; rw [List.getElem?_eq_some_iff]; exact ⟨hi, by congr 1; omega⟩

end

end Ndt
