import Verif.Proof.NodeInv
import Verif.Proof.Scores
import Verif.Proof.Matcher
import Mathlib.Tactic.Linarith

/-! # Parameters that are not positive (C106) -/

namespace Ndt

noncomputable section

open Spec Mapper

theorem toU64F_div_zero (a b : ℝ) : toU64F (Fl.fin a / Fl.fin 0 + Fl.fin b) = .error .conversion := by
  show toU64F (Fl.add (Fl.div (.fin a) (.fin 0)) (.fin b)) = _
  unfold Fl.div
  simp only [if_true]
  split
  · rfl
  · split <;> rfl

theorem toU64_neg {x : ℝ} (h : x ≤ -1) : toU64 x = .error .conversion := by
  unfold toU64 truncZ
  rw [if_neg (show ¬ (0 ≤ x) by linarith), if_neg]
  rintro ⟨h0, -⟩
  have : ⌈x⌉ ≤ -1 := Int.ceil_le.mpr (by push_cast; exact h)
  omega

theorem toU32_neg {x : ℝ} (h : x ≤ -1) : toU32 x = .error .conversion := by
  unfold toU32 truncZ
  rw [if_neg (show ¬ (0 ≤ x) by linarith), if_neg]
  rintro ⟨h0, -⟩
  have : ⌈x⌉ ≤ -1 := Int.ceil_le.mpr (by push_cast; exact h)
  omega

theorem addScans_zero {mt : Matcher} (h : mt.resolution = 0) (scans : List Scan) :
    mt.addScans scans = .error .conversion := by
  unfold Matcher.addScans NdtGrid.new
  rw [h]
  simp only [toU64F_div_zero, Res.error_bind]

theorem bind_hang {α β : Type} {x : Res α} {f : α → Res β} (h : (x >>= f) = .error .hang) :
    x = .error .hang ∨ ∃ a, x = .ok a ∧ f a = .error .hang := by
  cases x with
  | error e =>
    have h : (.error e : Res β) = .error .hang := h
    cases h
    exact Or.inl rfl
  | ok a => exact Or.inr ⟨a, rfl, h⟩

theorem foldlM_no_hang {α β : Type} {f : β → α → Res β} (hf : ∀ b a, f b a ≠ .error .hang) (l : List α) (b : β) :
    l.foldlM f b ≠ .error .hang := by
  induction l generalizing b with
  | nil => simp
  | cons a l ih =>
    rw [List.foldlM_cons]
    intro h
    rcases bind_hang h with h | ⟨b', -, h⟩
    · exact hf _ _ h
    · exact ih b' h

/-- Nothing has been matched: no scan is on its way into a map that is not empty. -/
def Halted (s : Sys) : Prop :=
  (∀ c scan odom, s.spin ≠ .constraint c scan odom) ∧ ∀ scan odom, s.spin = .append scan odom → s.scans = []

theorem halted_of {s s' : Sys} (h : Halted s) (hs : s'.spin = s.spin) (hn : s.scans = [] → s'.scans = []) : Halted s' :=
  ⟨fun c scan odom => by rw [hs]; exact h.1 c scan odom,
   fun scan odom e => hn (h.2 scan odom (by rw [← hs]; exact e))⟩

theorem halted_spin {s : Sys} (h1 : ∀ c scan odom, s.spin ≠ .constraint c scan odom)
    (h2 : ∀ scan odom, s.spin ≠ .append scan odom) : Halted s :=
  ⟨h1, fun scan odom e => absurd e (h2 scan odom)⟩

theorem halted_trans {p : Params} {s s' : Sys} {e : Event} (ht : Trans p s e s') (h : Halted s)
    (he : ∀ score c cov, e ≠ .localMatched score c cov) : Halted s' := by
  have same : ∀ {t : Sys}, t.spin = s.spin → t.epoch = s.epoch → t.heap = s.heap → Halted t := by
    intro t h1 h2 h3
    exact halted_of h h1 fun h0 => by unfold Sys.scans at h0 ⊢; rw [h2, h3]; exact h0
  have idle : ∀ {t : Sys}, t.spin = .idle → Halted t := by
    intro t h1
    exact halted_spin (by simp [h1]) (by simp [h1])
  cases ht with
  | stutter => exact h
  | laserIgnored msg mount odom odomEnd hi =>
    obtain ⟨r, l, g, m, e, -⟩ := setup_cases p msg mount s
    rw [e]
    exact idle hi
  | laserScan msg mount odom odomEnd points hi hgo hinit htl =>
    obtain ⟨r, l, g, m, e, -⟩ := setup_cases p msg mount s
    rw [e]
    refine ⟨fun c scan odom => ?_, fun scan odom hb => ?_⟩
    · show branch _ _ _ _ ≠ _
      unfold branch
      split
      · simp
      · split
        · split <;> simp
        · simp
    · have hb : branch p s _ _ = .append scan odom := hb
      show s.scans = []
      unfold branch at hb
      split at hb
      · simp at hb
      · split at hb
        · split at hb
          · assumption
          · simp at hb
        · simp at hb
  | filtered => exact halted_spin (by simp) (by simp)
  | addWindow => exact halted_spin (by simp) (by simp)
  | localMatched score c cov => exact absurd rfl (he score c cov)
  | pushConstraint c scan odom hi => exact absurd hi (h.1 c scan odom)
  | pushScan => exact halted_spin (by simp) (by simp)
  | globalMatched => exact halted_spin (by simp) (by simp)
  | finishScan => exact halted_spin (by simp) (by simp)
  | announce => exact halted_spin (by simp) (by simp)
  | poseKept => exact halted_spin (by simp) (by simp)
  | poseScan => exact halted_spin (by simp) (by simp)
  | setRobot => exact halted_spin (by simp) (by simp)
  | setOdom => exact halted_spin (by simp) (by simp)
  | configureFlags action bag hi hl =>
    obtain ⟨en, ini, e, -⟩ := configureMapping_frame action s
    rw [e]
    exact idle hi
  | load action bag g hi hl hg =>
    obtain ⟨en, ini, e, -⟩ := configureMapping_frame action s
    rw [e]
    exact idle hi
  | loopAccept score correction cov q cand scan candidate hi hf hs h1 h2 =>
    refine halted_of h rfl fun h0 => ?_
    have h0 : s.heap s.epoch = [] := h0
    show setPoseAt s.heap q.scan _ s.epoch = []
    unfold setPoseAt
    rw [h0]
    split <;> simp
  | loopReject score correction cov q cand hi hs =>
    obtain ⟨n, l, e⟩ := afterAttempt_frame q s
    rw [e]
    exact same rfl rfl rfl
  | loopPush q c hi =>
    obtain ⟨n, l, e⟩ := afterAttempt_frame q { s with constraints := s.constraints ++ [c], update := true }
    rw [e]
    exact same rfl rfl rfl
  | loopOptimise ceres b solver scans hi ho =>
    refine halted_of h rfl fun h0 => ?_
    rw [h0] at ho
    cases ho
    show (if s.epoch = s.epoch then ([] : List Scan) else _) = []
    rw [if_pos rfl]
  | pubTf hi =>
    obtain ⟨x, e⟩ := pubTf_frame s
    rw [e]
    exact same rfl rfl rfl
  | _ => exact same rfl rfl rfl

/-- With such a matcher nothing is ever matched. -/
theorem halted_reach {np : NodeParams} (hu : Unusable np.localCfg) {W : Graph → Prop} {A : Node → Input → Prop} {n : Node}
    (h : NodeReach np W A n) : Halted n.sys := by
  suffices Halted n.sys ∧ Node.Tied np n from this.1
  refine Node.reach_inv (I := fun n => Halted n.sys ∧ Node.Tied np n) h (fun enable file n0 hst _ => ⟨?_, Node.tied_start hst⟩) fun n i n' hI _ _ hs =>
    ⟨?_, Node.tied_step hI.2 hs⟩
  · obtain ⟨k1, -, -⟩ := Node.start_sys hst
    rcases start_cases k1 with ⟨-, e⟩ | ⟨bag, g, -, -, e⟩ <;> rw [e] <;>
      exact halted_spin (fun _ _ _ => by simp [startWith]) (fun _ _ => by simp [startWith])
  · rcases Node.step_does hs with rfl | ⟨e, hd⟩
    · exact hI.1
    refine halted_trans (step_trans hd.ok) hI.1 fun score c cov he => ?_
    obtain ⟨junk, scan, odom, l, r, -, hi, hl, hr, -⟩ := hd.localMatched score c cov he
    obtain ⟨l', w, hl', -, hb⟩ := hI.2.window scan odom hi
    rw [hl] at hl'
    cases hl'
    obtain ⟨rng, hb⟩ := hb
    obtain ⟨g, e', -⟩ := addScans_computed hb
    rcases hu with h0 | h0
    · rw [addScans_zero (by simpa using h0)] at hb
      cases hb
    · have hend : l.Endless := by rw [e']; exact h0
      unfold Matcher.matchScan at hr
      rw [show l.ndt = some g by rw [e']] at hr
      simp only [if_pos hend] at hr
      cases hr

end

end Ndt
