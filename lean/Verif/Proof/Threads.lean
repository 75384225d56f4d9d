import Verif.Proof.Exec
import Mathlib.Tactic.NormNum

/-! # Helper lemmas: invariants of the mapper under every schedule -/

namespace Ndt

noncomputable section

open Spec Mapper

/-- The scan the executor is about to add to the graph. -/
def Pending : Spin → Scan → Prop
  | .window s _, t => s = t
  | .matching s _, t => s = t
  | .constraint _ s _, t => s = t
  | .append s _, t => s = t
  | _, _ => False

/-- The executor adds a scan after a constraint that ends at it. -/
structure GraphInv (s : Sys) : Prop where
  ids : ∀ e, IdsAreIndices (s.heap e)
  pend : ∀ scan, Pending s.spin scan → scan.id = s.scans.length

theorem startWith_heap (p : Params) (enable loaded : Bool) (g : Graph) (e : ℕ) :
    (startWith p enable loaded g).heap e = if e = 0 then g.scans else [] := rfl

theorem ids_nil : IdsAreIndices [] := by intro i s h; simp at h

theorem graphInv_start {p : Params} {enable : Bool} {file : Option (List BagMsg)} {s0 : Sys}
    (hst : Mapper.start p enable file = .ok s0)
    (hw : ∀ bag, file = some bag → ∀ g, Graph.load p.useBarycenter bag = .ok g → IdsAreIndices g.scans) : GraphInv s0 := by
  rcases start_cases hst with ⟨-, rfl⟩ | ⟨bag, g, hf, hg, rfl⟩
  · refine ⟨fun e => ?_, fun scan h => h.elim⟩
    rw [startWith_heap]; split <;> exact ids_nil
  · refine ⟨fun e => ?_, fun scan h => h.elim⟩
    rw [startWith_heap]; split
    · exact hw bag hf g hg
    · exact ids_nil

theorem graphInv_step {p : Params} {s s' : Sys} {e : Event} (hI : GraphInv s)
    (hw : ∀ action bag, e = .configure action bag → ∀ g, Graph.load p.useBarycenter bag = .ok g → IdsAreIndices g.scans)
    (ht : Trans p s e s') : GraphInv s' := by
  obtain ⟨hids, hp⟩ := hI
  cases ht with
  | laserIgnored msg mount odom odomEnd hi =>
    obtain ⟨r, l, g, m, e, -⟩ := setup_cases p msg mount s
    rw [e]; exact ⟨hids, hp⟩
  | laserScan msg mount odom odomEnd points hi hgo hinit ht =>
    obtain ⟨r, l, g, m, e, -⟩ := setup_cases p msg mount s
    rw [e]
    refine ⟨hids, fun scan h => ?_⟩
    simp only [branch] at h
    split at h
    · exact h.elim
    split at h
    · split at h
      · cases h; rfl
      · cases h; rfl
    · exact h.elim
  | filtered => exact ⟨hids, fun scan h => h.elim⟩
  | addWindow scan odom w hi hl hw =>
    refine ⟨hids, fun scan' h => ?_⟩
    cases h
    exact hp scan (by rw [hi]; rfl)
  | localMatched score correction cov scan back odom hi hb =>
    refine ⟨hids, fun scan' h => ?_⟩
    cases h
    exact hp scan (by rw [hi]; rfl)
  | pushConstraint c scan odom hi =>
    refine ⟨hids, fun scan' h => ?_⟩
    cases h
    exact hp scan (by rw [hi]; rfl)
  | pushScan scan odom hi =>
    refine ⟨fun e => ?_, fun scan h => h.elim⟩
    simp only
    split
    · exact ids_append (hids _) (hp scan (by rw [hi]; rfl))
    · exact hids e
  | globalMatched => exact ⟨hids, fun scan h => h.elim⟩
  | finishScan => exact ⟨hids, fun scan h => h.elim⟩
  | announce => exact ⟨hids, fun scan h => h.elim⟩
  | poseKept => exact ⟨hids, fun scan h => h.elim⟩
  | poseScan m odom visit near i rest hi he hn hf hnear hv hfind =>
    refine ⟨fun e => ?_, fun scan h => h.elim⟩
    simp only
    split
    · exact ids_append (hids _) rfl
    · exact hids e
  | setRobot => exact ⟨hids, fun scan h => h.elim⟩
  | setOdom => exact ⟨hids, fun scan h => h.elim⟩
  | configureFlags action bag hi hl =>
    obtain ⟨en, ini, e, -⟩ := configureMapping_frame action s
    rw [e]; exact ⟨hids, hp⟩
  | load action bag g hi hl hg =>
    obtain ⟨en, ini, e, -⟩ := configureMapping_frame action s
    rw [e]
    refine ⟨fun e => ?_, fun scan h => ?_⟩
    · simp only
      split
      · exact hw action bag rfl g hg
      · exact hids e
    · simp only [hi] at h; exact h.elim
  | loopAccept score correction cov q cand scan candidate hi hf hs h1 h2 =>
    refine ⟨fun e => ids_same (setPoseAt_same _ _ _ _) (hids e), fun scan h => ?_⟩
    rw [hp scan h]
    exact ((setPoseAt_same s.heap q.scan _ s.epoch).length).symm
  | loopReject score correction cov q cand hi hs =>
    obtain ⟨n, l, e⟩ := afterAttempt_frame q s
    rw [e]; exact ⟨hids, hp⟩
  | loopPush q c hi =>
    obtain ⟨n, l, e⟩ := afterAttempt_frame q { s with constraints := s.constraints ++ [c], update := true }
    rw [e]; exact ⟨hids, hp⟩
  | loopOptimise ceres b solver scans hi ho =>
    refine ⟨fun e => ?_, fun scan h => ?_⟩
    · simp only
      split
      · exact ids_same (optimize_same ho) (hids _)
      · exact hids e
    · rw [hp scan h]
      show _ = (if s.epoch = s.epoch then scans else _).length
      rw [if_pos rfl, (optimize_same ho).length]
  | pubTf hi =>
    obtain ⟨x, e⟩ := pubTf_frame s
    rw [e]; exact ⟨hids, hp⟩
  | _ => exact ⟨hids, hp⟩

/-! ### Links -/

/-- What the executor knows about the constraint of the scan it is about to add. -/
structure LinkInv (s : Sys) : Prop where
  linked : LinkedBack s.scans.length s.constraints
  made : ∀ c scan odom, s.spin = .constraint c scan odom → c.end_ = s.scans.length ∧ c.begin_ < s.scans.length
  pushed : ∀ scan odom, s.spin = .append scan odom →
    s.scans = [] ∨ ∃ c ∈ s.constraints, c.end_ = s.scans.length ∧ c.begin_ < s.scans.length

theorem linkedBack_mono {n : ℕ} {cs ds : List Constraint} (h : LinkedBack n cs) : LinkedBack n (cs ++ ds) := by
  intro j h0 hj
  obtain ⟨c, hc, h⟩ := h j h0 hj
  exact ⟨c, List.mem_append_left _ hc, h⟩

theorem linkedBack_succ {n : ℕ} {cs : List Constraint} (h : LinkedBack n cs)
    (hn : n = 0 ∨ ∃ c ∈ cs, c.end_ = n ∧ c.begin_ < n) : LinkedBack (n + 1) cs := by
  intro j h0 hj
  rcases Nat.lt_succ_iff_lt_or_eq.mp hj with hj | rfl
  · exact h j h0 hj
  · rcases hn with hn | hn
    · omega
    · exact hn

theorem linkInv_step {p : Params} {s s' : Sys} {e : Event} (hG : GraphInv s) (hI : LinkInv s)
    (hw : ∀ action bag, e = .configure action bag → ∀ g, Graph.load p.useBarycenter bag = .ok g →
      LinkedBack g.scans.length g.constraints)
    (ht : Trans p s e s') : LinkInv s' := by
  obtain ⟨h1, h2, h3⟩ := hI
  cases ht with
  | laserIgnored msg mount odom odomEnd hi =>
    obtain ⟨r, l, g, m, e, -⟩ := setup_cases p msg mount s
    rw [e]; exact ⟨h1, h2, h3⟩
  | laserScan msg mount odom odomEnd points hi hgo hinit ht =>
    obtain ⟨r, l, g, m, e, -⟩ := setup_cases p msg mount s
    rw [e]
    refine ⟨h1, fun c scan odom' h => ?_, fun scan odom' h => ?_⟩
    · simp only [branch] at h
      split_ifs at h
    · simp only [branch] at h
      split_ifs at h with _ _ h0
      exact Or.inl h0
  | filtered => exact ⟨h1, fun c scan odom h => by simp at h, fun scan odom h => by simp at h⟩
  | addWindow scan odom w hi hl hw => exact ⟨h1, fun c scan odom h => by simp at h, fun scan odom h => by simp at h⟩
  | localMatched score correction cov scan back odom hi hb =>
    refine ⟨h1, fun c scan' odom' h => ?_, fun scan odom h => by simp at h⟩
    simp only [Spin.constraint.injEq] at h
    obtain ⟨rfl, -, -⟩ := h
    have hlast : s.scans[s.scans.length - 1]? = some back := by rw [← hb, List.getLast?_eq_getElem?]
    have hlt := (List.getElem?_eq_some_iff.mp hlast).1
    refine ⟨hG.pend scan (by rw [hi]; rfl), ?_⟩
    show back.id < s.scans.length
    rw [hG.ids s.epoch _ _ hlast]
    exact hlt
  | pushConstraint c scan odom hi =>
    refine ⟨linkedBack_mono h1, fun c scan odom h => by simp at h, fun scan' odom' _ => ?_⟩
    obtain ⟨e1, e2⟩ := h2 c scan odom hi
    exact Or.inr ⟨c, by simp, e1, e2⟩
  | pushScan scan odom hi =>
    refine ⟨?_, fun c scan odom h => by simp at h, fun scan odom h => by simp at h⟩
    show LinkedBack (if s.epoch = s.epoch then s.scans ++ [scan] else _).length _
    rw [if_pos rfl, List.length_append]
    refine linkedBack_succ h1 ?_
    rcases h3 scan odom hi with h | h
    · left; rw [h]; rfl
    · exact Or.inr h
  | globalMatched => exact ⟨h1, fun c scan odom h => by simp at h, fun scan odom h => by simp at h⟩
  | finishScan => exact ⟨h1, fun c scan odom h => by simp at h, fun scan odom h => by simp at h⟩
  | announce => exact ⟨h1, fun c scan odom h => by simp at h, fun scan odom h => by simp at h⟩
  | poseKept => exact ⟨h1, fun c scan odom h => by simp at h, fun scan odom h => by simp at h⟩
  | poseScan m odom visit near i rest hi he hn hf hnear hv hfind =>
    refine ⟨?_, fun c scan odom h => by simp at h, fun scan odom h => by simp at h⟩
    show LinkedBack (if s.epoch = s.epoch then s.scans ++ [_] else _).length _
    rw [if_pos rfl, List.length_append]
    refine linkedBack_succ (linkedBack_mono h1) (Or.inr ⟨_, List.mem_append_right _ (List.mem_singleton_self _), rfl, ?_⟩)
    show near.id < s.scans.length
    rw [hG.ids s.epoch _ _ hnear]
    exact (List.getElem?_eq_some_iff.mp hnear).1
  | setRobot => exact ⟨h1, fun c scan odom h => by simp at h, fun scan odom h => by simp at h⟩
  | setOdom => exact ⟨h1, fun c scan odom h => by simp at h, fun scan odom h => by simp at h⟩
  | configureFlags action bag hi hl =>
    obtain ⟨en, ini, e, -⟩ := configureMapping_frame action s
    rw [e]; exact ⟨h1, h2, h3⟩
  | load action bag g hi hl hg =>
    obtain ⟨en, ini, e, -⟩ := configureMapping_frame action s
    rw [e]
    refine ⟨?_, fun c scan odom h => ?_, fun scan odom h => ?_⟩
    · show LinkedBack (if s.epoch + 1 = s.epoch + 1 then g.scans else _).length _
      rw [if_pos rfl]
      exact hw action bag rfl g hg
    · simp only [hi] at h; cases h
    · simp only [hi] at h; cases h
  | loopAccept score correction cov q cand scan candidate hi hf hs hq1 hq2 =>
    have hl := (setPoseAt_same s.heap q.scan (addCorrection correction scan.getPose) s.epoch).length
    refine ⟨?_, fun c scan' odom h => ?_, fun scan' odom h => ?_⟩
    · show LinkedBack (setPoseAt _ _ _ _).length _
      rw [hl]; exact h1
    · show _ = (setPoseAt _ _ _ _).length ∧ _ < (setPoseAt _ _ _ _).length
      rw [hl]; exact h2 c scan' odom h
    · show setPoseAt _ _ _ _ = [] ∨ ∃ c ∈ s.constraints, c.end_ = (setPoseAt _ _ _ _).length ∧ c.begin_ < (setPoseAt _ _ _ _).length
      rw [← List.length_eq_zero_iff, hl, List.length_eq_zero_iff]
      exact h3 scan' odom h
  | loopReject score correction cov q cand hi hs =>
    obtain ⟨n, l, e⟩ := afterAttempt_frame q s
    rw [e]; exact ⟨h1, h2, h3⟩
  | loopPush q c hi =>
    obtain ⟨n, l, e⟩ := afterAttempt_frame q { s with constraints := s.constraints ++ [c], update := true }
    rw [e]
    refine ⟨linkedBack_mono h1, h2, fun scan odom h => ?_⟩
    rcases h3 scan odom h with h | ⟨c', hc', h⟩
    · exact Or.inl h
    · exact Or.inr ⟨c', List.mem_append_left _ hc', h⟩
  | loopOptimise ceres b solver scans hi ho =>
    have hl : (if s.epoch = s.epoch then scans else s.heap s.epoch).length = s.scans.length := by
      rw [if_pos rfl, (optimize_same ho).length]
    refine ⟨?_, fun c scan' odom h => ?_, fun scan' odom h => ?_⟩
    · show LinkedBack (if s.epoch = s.epoch then scans else _).length _
      rw [hl]; exact h1
    · show _ = (if s.epoch = s.epoch then scans else _).length ∧ _ < (if s.epoch = s.epoch then scans else _).length
      rw [hl]; exact h2 c scan' odom h
    · show (if s.epoch = s.epoch then scans else _) = [] ∨ ∃ c ∈ s.constraints,
        c.end_ = (if s.epoch = s.epoch then scans else _).length ∧ c.begin_ < (if s.epoch = s.epoch then scans else _).length
      rw [← List.length_eq_zero_iff, hl, List.length_eq_zero_iff]
      exact h3 scan' odom h
  | pubTf hi =>
    obtain ⟨x, e⟩ := pubTf_frame s
    rw [e]; exact ⟨h1, h2, h3⟩
  | _ => exact ⟨h1, h2, h3⟩

end

end Ndt
