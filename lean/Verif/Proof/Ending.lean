import Verif.Proof.Loop
import Verif.Spec.Mapper

/-! # Helper lemmas: how many steps a round of the loop closure thread, and a callback, can still take -/

namespace Ndt

noncomputable section

open Spec

namespace Mapper

/-! ### The loop closure thread -/

/-- How many steps are left of a round that began with `N` scans. -/
def roundLeft (N : ℕ) (s : Sys) : ℕ :=
  match s.loop with
  | .asleep | .counting => 0
  | .optimising => 1
  | .deciding _ => 2
  | .picking _ => (N - s.processed) * (3 * N + 2) + 3
  | .candidates q => (N - (s.processed + 1)) * (3 * N + 2) + 3 + (3 * q.rest.length + 1)
  | .matching q _ => (N - (s.processed + 1)) * (3 * N + 2) + 3 + (3 * q.rest.length + 3)
  | .pushing q _ => (N - (s.processed + 1)) * (3 * N + 2) + 3 + (3 * q.rest.length + 2)

/-- In a round that began with `N` scans. -/
def InRound (p : Params) (N : ℕ) (s : Sys) : Prop :=
  match s.loop with
  | .asleep | .optimising | .deciding _ => N ≤ s.processed
  | .counting => False
  | .picking r => r.n = N ∧ p.rollingDepth < s.processed
  | .candidates q | .matching q _ | .pushing q _ => q.round.n = N ∧ p.rollingDepth < s.processed ∧ s.processed < N

theorem findNearest_length {g : Graph} {visit : List ℕ} {scan : Scan} {d : ℝ} {k : ℤ} {near : List ℕ}
    (h : g.findNearest visit scan d k = .ok near) : near.length ≤ visit.length := by
  unfold Graph.findNearest at h
  simp only at h
  generalize hl : (if 0 < k then k.toNat else g.scans.length) = lim at h
  by_cases hc : g.scans.length < lim
  · rw [if_pos hc] at h; cases h
  · rw [if_neg hc] at h
    injection h with h
    rw [← h, List.length_mergeSort]
    exact List.length_filter_le _ _

/-- A step of the thread is never without effect. -/
theorem loopStep_moves {p : Params} {s s' : Sys} {e : Event} {N : ℕ} (hN : N < 2 ^ 31) (hI : InRound p N s)
    (hst : step p s e = .ok s') (hl : LoopStep p s e) : s'.loop ≠ s.loop := by
  unfold LoopStep at hl
  unfold InRound at hI
  have after : ∀ (q : Search) (u : Sys), (∃ c, s.loop = .matching q c) ∨ (∃ c, s.loop = .pushing q c) →
      (afterAttempt q u).loop ≠ s.loop := by
    intro q u h he
    unfold afterAttempt at he
    by_cases hz : (q.left + (2 ^ 64 - 1)) % 2 ^ 64 = 0
    · rw [if_pos hz] at he
      rcases h with ⟨c, h⟩ | ⟨c, h⟩ <;> rw [h] at he <;> simp [nextScan] at he
    · rw [if_neg hz] at he
      rcases h with ⟨c, h⟩ | ⟨c, h⟩ <;> rw [h] at he <;> simp at he
  cases hloop : s.loop with
  | asleep => rw [hloop] at hl; exact hl.elim
  | counting => rw [hloop] at hI; exact hI.elim
  | picking r =>
    rw [hloop] at hl hI
    obtain ⟨visit, rfl, hv⟩ := hl
    obtain ⟨hr, hd⟩ := hI
    unfold step at hst
    rw [hloop] at hst
    dsimp only at hst
    rw [if_neg] at hst
    · unfold loopPick at hst
      by_cases hc : s.processed < r.n
      · rw [if_pos hc] at hst
        dsimp only at hst
        cases hs : s.scans[s.processed]? with
        | none => rw [hs] at hst; cases hst
        | some scan =>
          rw [hs] at hst
          obtain ⟨near, -, hst⟩ := bind_ok hst
          injection hst with hst
          rw [← hst]; simp
      · rw [if_neg hc] at hst
        injection hst with hst
        rw [← hst]; simp
    · rintro ⟨hc, hn⟩
      apply hn
      rw [wrapI32_of_lt (by omega), if_pos (by omega)]
      simpa [Visits] using hv hc
  | candidates q =>
    rw [hloop] at hl
    obtain rfl := hl
    unfold step at hst
    rw [hloop] at hst
    dsimp only at hst
    unfold loopCandidate at hst
    cases hq : q.rest with
    | nil =>
      rw [hq] at hst
      injection hst with hst
      rw [← hst]; simp [nextScan]
    | cons i rest =>
      rw [hq] at hst
      dsimp only at hst
      cases hs : s.scans[i]? with
      | none => rw [hs] at hst; cases hst
      | some cand =>
        rw [hs] at hst
        dsimp only at hst
        by_cases hp : cand.getPoints = []
        · rw [if_pos hp] at hst
          injection hst with hst
          rw [← hst]
          intro he
          simp only [Loop.candidates.injEq] at he
          rw [← he] at hq
          simp at hq
        · rw [if_neg hp] at hst
          by_cases hx : s.scans.length < (if i < q.rolling then i + 1 else i) ∨
              (if i < q.rolling then i + 1 else i) < (if 0 < i then i - 1 else i)
          · rw [if_pos hx] at hst; cases hst
          · rw [if_neg hx] at hst
            cases hg : s.globalM with
            | none => rw [hg] at hst; cases hst
            | some w =>
              rw [hg] at hst
              injection hst with hst
              rw [← hst]; simp
  | matching q cand =>
    rw [hloop] at hl
    obtain ⟨score, correction, cov, rfl⟩ := hl
    unfold step at hst
    rw [hloop] at hst
    dsimp only at hst
    unfold loopMatched at hst
    by_cases hc : score.isFinite ∧ score < s.typical
    · rw [if_pos hc] at hst
      split at hst
      · injection hst with hst
        rw [← hst]; simp
      · injection hst
    · rw [if_neg hc] at hst
      injection hst with hst
      rw [← hst, ← hloop]
      exact after q s (Or.inl ⟨cand, hloop⟩)
  | pushing q c =>
    rw [hloop] at hl
    obtain rfl := hl
    unfold step at hst
    rw [hloop] at hst
    injection hst with hst
    rw [← hst, ← hloop]
    exact after q _ (Or.inr ⟨c, hloop⟩)
  | deciding r =>
    rw [hloop] at hl
    obtain rfl := hl
    unfold step at hst
    rw [hloop] at hst
    injection hst with hst
    rw [← hst]
    dsimp only
    split_ifs <;> simp
  | optimising =>
    rw [hloop] at hl
    obtain ⟨ceres, rfl⟩ := hl
    unfold step at hst
    rw [hloop] at hst
    obtain ⟨⟨b, solver, scans⟩, -, hst⟩ := bind_ok hst
    injection hst with hst
    rw [← hst]; simp

theorem inRound_after {p : Params} {N : ℕ} {s u : Sys} {q : Search} (hq : q.round.n = N) (hd : p.rollingDepth < s.processed)
    (hn : s.processed < N) (hu : u.processed = s.processed) :
    InRound p N (afterAttempt q u) ∧
      roundLeft N (afterAttempt q u) < (N - (s.processed + 1)) * (3 * N + 2) + 3 + (3 * q.rest.length + 2) := by
  rcases afterAttempt_cases q u with ⟨-, e⟩ | ⟨-, e⟩
  · rw [e]
    unfold InRound roundLeft nextScan
    dsimp only
    rw [hu]
    exact ⟨⟨hq, by omega⟩, by omega⟩
  · rw [e]
    unfold InRound roundLeft
    dsimp only
    rw [hu]
    exact ⟨⟨hq, hd, hn⟩, by omega⟩

attribute [local irreducible] afterAttempt in
/-- Each step of the thread leaves less to do, and no step of another thread leaves more. -/
theorem roundLeft_step {p : Params} {s s' : Sys} {e : Event} {N : ℕ} (hN : N < 2 ^ 31) (hI : InRound p N s)
    (ha : s.loop ≠ .asleep) (ht : Trans p s e s') :
    InRound p N s' ∧ ((s'.loop = s.loop ∧ s'.processed = s.processed) ∨ roundLeft N s' < roundLeft N s) := by
  have same : ∀ {t : Sys}, t.loop = s.loop → t.processed = s.processed →
      InRound p N t ∧ ((t.loop = s.loop ∧ t.processed = s.processed) ∨ roundLeft N t < roundLeft N s) := by
    intro t h1 h2
    refine ⟨?_, Or.inl ⟨h1, h2⟩⟩
    unfold InRound at hI ⊢
    rw [h1, h2]
    exact hI
  cases ht with
  | laserIgnored msg mount odom odomEnd hi =>
    obtain ⟨r, l, g, m, e, -⟩ := setup_cases p msg mount s
    rw [e]; exact same rfl rfl
  | laserScan msg mount odom odomEnd points hi hgo hinit ht =>
    obtain ⟨r, l, g, m, e, -⟩ := setup_cases p msg mount s
    rw [e]; exact same rfl rfl
  | configureFlags action bag hi hl =>
    obtain ⟨en, ini, e, -⟩ := configureMapping_frame action s
    rw [e]; exact same rfl rfl
  | load action bag g hi hl hg =>
    obtain ⟨en, ini, e, -⟩ := configureMapping_frame action s
    rw [e]; exact same rfl rfl
  | pubTf hi =>
    obtain ⟨x, e⟩ := pubTf_frame s
    rw [e]; exact same rfl rfl
  | loopWake hi he => exact absurd hi ha
  | loopShort hi hn => unfold InRound at hI; rw [hi] at hI; exact hI.elim
  | loopCount hi hn => unfold InRound at hI; rw [hi] at hI; exact hI.elim
  | loopPick visit r scan near hi hn hs hv hf =>
    unfold InRound at hI
    rw [hi] at hI
    obtain ⟨hr, hd⟩ := hI
    have hw : wrapI32 (s.processed - p.rollingDepth) = ((s.processed - p.rollingDepth : ℕ) : ℤ) := wrapI32_of_lt (by omega)
    rw [hw, if_pos (by omega)] at hv
    have hlen : near.length ≤ N := by
      have h1 := findNearest_length hf
      have h2 := hv.length_eq
      simp only [Int.toNat_natCast, List.length_range] at h2
      omega
    refine ⟨⟨hr, hd, by dsimp only; omega⟩, Or.inr ?_⟩
    unfold roundLeft
    rw [hi]
    dsimp only
    obtain ⟨k, hk⟩ : ∃ k, N - s.processed = k + 1 := ⟨N - s.processed - 1, by omega⟩
    have hm : (k + 1) * (3 * N + 2) = k * (3 * N + 2) + (3 * N + 2) := Nat.succ_mul _ _
    rw [hk, show N - (s.processed + 1) = k by omega, hm]
    omega
  | loopLeave visit r hi hn =>
    unfold InRound at hI
    rw [hi] at hI
    refine ⟨by unfold InRound; dsimp only; omega, Or.inr ?_⟩
    unfold roundLeft
    rw [hi]
    dsimp only
    omega
  | loopNext q hi hr =>
    unfold InRound at hI
    rw [hi] at hI
    refine ⟨⟨hI.1, by dsimp only [nextScan]; omega⟩, Or.inr ?_⟩
    unfold roundLeft
    rw [hi]
    dsimp only [nextScan]
    omega
  | loopSkip q i rest cand hi hr hc hp =>
    unfold InRound at hI
    rw [hi] at hI
    refine ⟨hI, Or.inr ?_⟩
    unfold roundLeft
    rw [hi]
    dsimp only
    rw [hr, List.length_cons]
    omega
  | loopCandidate q i rest cand hi hr hc hg =>
    unfold InRound at hI
    rw [hi] at hI
    refine ⟨hI, Or.inr ?_⟩
    unfold roundLeft
    rw [hi]
    dsimp only
    rw [hr, List.length_cons]
    omega
  | loopAccept score correction cov q cand scan candidate hi hf hs h1 h2 =>
    unfold InRound at hI
    rw [hi] at hI
    refine ⟨hI, Or.inr ?_⟩
    unfold roundLeft
    rw [hi]
    dsimp only
    omega
  | loopReject score correction cov q cand hi hs =>
    unfold InRound at hI
    rw [hi] at hI
    obtain ⟨h1, h2⟩ := inRound_after (p := p) (u := s) hI.1 hI.2.1 hI.2.2 rfl
    refine ⟨h1, Or.inr (lt_trans h2 ?_)⟩
    unfold roundLeft
    rw [hi]
    dsimp only
    omega
  | loopPush q c hi =>
    unfold InRound at hI
    rw [hi] at hI
    obtain ⟨h1, h2⟩ := inRound_after (p := p) (s := s) (u := { s with constraints := s.constraints ++ [c], update := true })
      hI.1 hI.2.1 hI.2.2 rfl
    refine ⟨h1, Or.inr (lt_of_lt_of_le h2 ?_)⟩
    unfold roundLeft
    rw [hi]
  | loopDecide r hi =>
    unfold InRound at hI
    rw [hi] at hI
    by_cases hc : shouldOptimise p r s
    · rw [if_pos hc]
      exact ⟨hI, Or.inr (by unfold roundLeft; rw [hi]; dsimp only; omega)⟩
    · rw [if_neg hc]
      exact ⟨hI, Or.inr (by unfold roundLeft; rw [hi]; dsimp only; omega)⟩
  | loopOptimise ceres b solver scans hi ho =>
    unfold InRound at hI
    rw [hi] at hI
    exact ⟨hI, Or.inr (by unfold roundLeft; rw [hi]; dsimp only; omega)⟩
  | _ => exact same rfl rfl

/-! ### Callbacks -/

/-- How many steps are left of a callback. -/
def callbackLeft : Spin → ℕ
  | .idle => 0
  | .filter _ _ => 2
  | .window _ _ => 5
  | .matching _ _ => 4
  | .constraint _ _ _ => 3
  | .append _ _ => 2
  | .localise _ _ => 2
  | .finish _ _ | .announce _ _ => 1
  | .poseRobot _ _ => 2
  | .poseOdom _ => 1

theorem callbackLeft_le (s : Spin) : callbackLeft s ≤ 5 := by cases s <;> simp [callbackLeft]

/-- A step of a callback is never without effect. -/
theorem callbackStep_moves {p : Params} {s s' : Sys} {e : Event} (hst : step p s e = .ok s') (hl : CallbackStep s e) :
    callbackLeft s'.spin < callbackLeft s.spin := by
  unfold CallbackStep at hl
  cases hspin : s.spin with
  | idle => rw [hspin] at hl; exact hl.elim
  | filter scan odom =>
    rw [hspin] at hl
    obtain ⟨mean, rfl⟩ := hl
    unfold step at hst
    rw [hspin] at hst
    dsimp only at hst
    split at hst
    · cases hst
    · injection hst with hst
      rw [← hst]; simp [callbackLeft]
  | window scan odom =>
    rw [hspin] at hl
    obtain rfl := hl
    unfold step at hst
    rw [hspin] at hst
    dsimp only [addWindow] at hst
    split at hst
    · cases hst
    · split at hst
      · injection hst with hst
        rw [← hst]; simp [callbackLeft]
      · split at hst
        · cases hst
        · injection hst with hst
          rw [← hst]; simp [callbackLeft]
  | matching scan odom =>
    rw [hspin] at hl
    obtain ⟨score, correction, cov, rfl⟩ := hl
    unfold step at hst
    rw [hspin] at hst
    dsimp only [localMatched] at hst
    split at hst
    · cases hst
    · injection hst with hst
      rw [← hst]; simp [callbackLeft]
  | constraint c scan odom =>
    rw [hspin] at hl
    obtain rfl := hl
    unfold step at hst
    rw [hspin] at hst
    injection hst with hst
    rw [← hst]; simp [callbackLeft]
  | append scan odom =>
    rw [hspin] at hl
    obtain rfl := hl
    unfold step at hst
    rw [hspin] at hst
    injection hst with hst
    rw [← hst]; simp [callbackLeft]
  | localise scan odom =>
    rw [hspin] at hl
    obtain ⟨correction, rfl⟩ := hl
    unfold step at hst
    rw [hspin] at hst
    dsimp only at hst
    split at hst
    · cases hst
    · injection hst with hst
      rw [← hst]; simp [callbackLeft]
  | finish robot odom =>
    rw [hspin] at hl
    obtain rfl := hl
    unfold step at hst
    rw [hspin] at hst
    injection hst with hst
    rw [← hst]; simp [callbackLeft]
  | announce a odom =>
    rw [hspin] at hl
    obtain rfl := hl
    unfold step at hst
    rw [hspin] at hst
    dsimp only at hst
    split at hst
    · cases hst
    · injection hst with hst
      rw [← hst]; simp [callbackLeft]
  | poseRobot robot odom =>
    rw [hspin] at hl
    obtain rfl := hl
    unfold step at hst
    rw [hspin] at hst
    injection hst with hst
    rw [← hst]; simp [callbackLeft]
  | poseOdom odom =>
    rw [hspin] at hl
    obtain rfl := hl
    unfold step at hst
    rw [hspin] at hst
    injection hst with hst
    rw [← hst]; simp [callbackLeft]

/-- A step of another thread leaves the callback where it is. -/
theorem callbackLeft_step {p : Params} {s s' : Sys} {e : Event} (hi : s.spin ≠ .idle) (ht : Trans p s e s') :
    callbackLeft s'.spin ≤ callbackLeft s.spin := by
  cases ht with
  | laserIgnored msg mount odom odomEnd h => exact absurd h hi
  | laserScan msg mount odom odomEnd points h hgo hinit ht => exact absurd h hi
  | configureFlags action bag h hl => exact absurd h hi
  | load action bag g h hl hg => exact absurd h hi
  | poseKept m odom visit h he => exact absurd h hi
  | poseScan m odom visit near i rest h he hn hf hnear hv hfind => exact absurd h hi
  | pubTf h =>
    obtain ⟨x, e⟩ := pubTf_frame s
    rw [e]
  | loopReject score correction cov q cand h hs =>
    obtain ⟨n, l, e⟩ := afterAttempt_frame q s
    rw [e]
  | loopPush q c h =>
    obtain ⟨n, l, e⟩ := afterAttempt_frame q { s with constraints := s.constraints ++ [c], update := true }
    rw [e]
  | filtered mean scan odom h => rw [h]; simp [callbackLeft]
  | addWindow scan odom w h hl hw => rw [h]; simp [callbackLeft]
  | localMatched score correction cov scan back odom h hb => rw [h]; simp [callbackLeft]
  | pushConstraint c scan odom h => rw [h]; simp [callbackLeft]
  | pushScan scan odom h => rw [h]; simp [callbackLeft]
  | globalMatched correction scan odom h => rw [h]; simp [callbackLeft]
  | finishScan robot odom h => rw [h]; simp [callbackLeft]
  | announce a odom scan h hs => rw [h]; simp [callbackLeft]
  | setRobot robot odom h => rw [h]; simp [callbackLeft]
  | setOdom odom h => rw [h]; simp [callbackLeft]
  | _ => exact le_refl _

end Mapper

end

end Ndt
