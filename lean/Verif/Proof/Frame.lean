import Verif.Proof.Threads

/-! # Helper lemmas: which steps change the map -/

namespace Ndt

noncomputable section

open Spec Mapper

/-- The executor is in the mapping branch of the laser callback. -/
def InMapping : Spin → Prop
  | .window .. | .matching .. | .constraint .. | .append .. => True
  | _ => False

/-- The mapping branch is only taken while mapping and without the particle filter. -/
def MapInv (p : Params) (s : Sys) : Prop := InMapping s.spin → s.enable = true ∧ p.useFilter = false

theorem mapInv_step {p : Params} {s s' : Sys} {e : Event} (hI : MapInv p s) (ht : Trans p s e s') : MapInv p s' := by
  cases ht with
  | laserIgnored msg mount odom odomEnd hi =>
    obtain ⟨r, l, g, m, e, -⟩ := setup_cases p msg mount s
    rw [e]; exact hI
  | laserScan msg mount odom odomEnd points hi hgo hinit ht =>
    obtain ⟨r, l, g, m, e, -⟩ := setup_cases p msg mount s
    rw [e]
    intro h
    simp only [branch] at h
    split_ifs at h with h1 h2 h3
    · exact h.elim
    · exact ⟨h2, by simpa using h1⟩
    · exact ⟨h2, by simpa using h1⟩
    · exact h.elim
  | addWindow scan odom w hi hl hw => exact fun _ => hI (by rw [hi]; trivial)
  | localMatched score correction cov scan back odom hi hb => exact fun _ => hI (by rw [hi]; trivial)
  | pushConstraint c scan odom hi => exact fun _ => hI (by rw [hi]; trivial)
  | configureFlags action bag hi hl =>
    obtain ⟨en, ini, e, -⟩ := configureMapping_frame action s
    rw [e]; intro h; simp only [hi] at h; exact h.elim
  | load action bag g hi hl hg =>
    obtain ⟨en, ini, e, -⟩ := configureMapping_frame action s
    rw [e]; intro h; simp only [hi] at h; exact h.elim
  | loopReject score correction cov q cand hi hs =>
    obtain ⟨n, l, e⟩ := afterAttempt_frame q s
    rw [e]; exact hI
  | loopPush q c hi =>
    obtain ⟨n, l, e⟩ := afterAttempt_frame q { s with constraints := s.constraints ++ [c], update := true }
    rw [e]; exact hI
  | pubTf hi =>
    obtain ⟨x, e⟩ := pubTf_frame s
    rw [e]; exact hI
  | _ => first
    | exact hI
    | exact fun h => h.elim

/-- A step that is not one of the loop closure thread and no load changes the map only while mapping. -/
theorem sameMap_step {p : Params} {s s' : Sys} {e : Event} (hI : MapInv p s)
    (hl : ¬ Loads e) (hw : ¬ IsLoopWork e) (hd : s.enable = false ∨ p.useFilter = true) (ht : Trans p s e s') :
    SameMap s s' := by
  have hmap : ¬ InMapping s.spin := fun h => by
    obtain ⟨h1, h2⟩ := hI h
    rcases hd with hd | hd
    · rw [hd] at h1; cases h1
    · rw [hd] at h2; cases h2
  cases ht with
  | laserIgnored msg mount odom odomEnd hi =>
    obtain ⟨r, l, g, m, e, -⟩ := setup_cases p msg mount s
    rw [e]; exact ⟨rfl, rfl⟩
  | laserScan msg mount odom odomEnd points hi hgo hinit ht =>
    obtain ⟨r, l, g, m, e, -⟩ := setup_cases p msg mount s
    rw [e]; exact ⟨rfl, rfl⟩
  | pushConstraint c scan odom hi => exact absurd (by rw [hi]; trivial) hmap
  | pushScan scan odom hi => exact absurd (by rw [hi]; trivial) hmap
  | poseScan m odom visit near i rest hi he hn hf hnear hv hfind =>
    rcases hd with hd | hd
    · rw [hd] at he; cases he
    · rw [hd] at hf; cases hf
  | configureFlags action bag hi hl =>
    obtain ⟨en, ini, e, -⟩ := configureMapping_frame action s
    rw [e]; exact ⟨rfl, rfl⟩
  | load action bag g hi hl' hg => exact absurd ⟨action, bag, rfl, hl'⟩ hl
  | pubTf hi =>
    obtain ⟨x, e⟩ := pubTf_frame s
    rw [e]; exact ⟨rfl, rfl⟩
  | _ => first
    | exact absurd trivial hw
    | exact ⟨rfl, rfl⟩

/-- While mapping is disabled, the loop closure thread stays asleep once it is. -/
theorem asleep_step {p : Params} {s s' : Sys} {e : Event} (hd : s.enable = false) (hs : s.loop = .asleep)
    (hen : ¬ Enables e) (ht : Trans p s e s') : s'.enable = false ∧ s'.loop = .asleep := by
  have hcm : ∀ action bag, e = .configure action bag →
      (configureMapping action s).enable = false ∧ (configureMapping action s).loop = .asleep := by
    intro action bag he
    have h1 : action &&& 1#32 = 0#32 := by
      by_contra h; exact hen ⟨action, bag, he, h⟩
    unfold configureMapping
    rw [if_neg (by simp [h1])]
    split
    · exact ⟨rfl, hs⟩
    · exact ⟨hd, hs⟩
  cases ht with
  | laserIgnored msg mount odom odomEnd hi =>
    obtain ⟨r, l, g, m, e, -⟩ := setup_cases p msg mount s
    rw [e]; exact ⟨hd, hs⟩
  | laserScan msg mount odom odomEnd points hi hgo hinit ht =>
    obtain ⟨r, l, g, m, e, -⟩ := setup_cases p msg mount s
    rw [e]; exact ⟨hd, hs⟩
  | configureFlags action bag hi hl => exact hcm action bag rfl
  | load action bag g hi hl' hg => exact hcm action bag rfl
  | pubTf hi =>
    obtain ⟨x, e⟩ := pubTf_frame s
    rw [e]; exact ⟨hd, hs⟩
  | loopWake hi he => rw [hd] at he; cases he
  | loopShort hi => rw [hs] at hi; cases hi
  | loopCount hi => rw [hs] at hi; cases hi
  | loopPick visit r scan near hi => rw [hs] at hi; cases hi
  | loopLeave visit r hi => rw [hs] at hi; cases hi
  | loopNext q hi => rw [hs] at hi; cases hi
  | loopSkip q i rest cand hi => rw [hs] at hi; cases hi
  | loopCandidate q i rest cand hi => rw [hs] at hi; cases hi
  | loopAccept score correction cov q cand scan candidate hi => rw [hs] at hi; cases hi
  | loopReject score correction cov q cand hi => rw [hs] at hi; cases hi
  | loopPush q c hi => rw [hs] at hi; cases hi
  | loopDecide r hi => rw [hs] at hi; cases hi
  | loopOptimise ceres b solver scans hi => rw [hs] at hi; cases hi
  | _ => exact ⟨hd, hs⟩

/-- Work of the loop closure thread does nothing while it sleeps and mapping is disabled. -/
theorem asleep_work {p : Params} {s s' : Sys} {e : Event} (hd : s.enable = false) (hs : s.loop = .asleep)
    (hw : IsLoopWork e) (h : step p s e = .ok s') : s' = s := by
  cases e <;> first
    | exact hw.elim
    | (unfold step at h; rw [hs] at h; simp [hd] at h; exact h.symm)

theorem sameMap_trans {a b c : Sys} (h1 : SameMap a b) (h2 : SameMap b c) : SameMap a c :=
  ⟨h2.1.trans h1.1, h2.2.trans h1.2⟩

end

end Ndt
