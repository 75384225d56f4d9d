import Verif.Proof.Loop
import Verif.Proof.Ends

/-! # Helper lemmas: matchers, pointers and indices -/

namespace Ndt

noncomputable section

open Spec Mapper

/-! ### Matchers -/

/-- The executor works on a laser message. -/
def LaserBusy : Spin → Prop
  | .filter .. | .window .. | .matching .. | .constraint .. | .append .. | .localise .. => True
  | _ => False

structure MatcherInv (s : Sys) : Prop where
  made : s.laser ≠ none → s.globalM ≠ none ∧ s.localM ≠ none
  busy : LaserBusy s.spin → s.laser ≠ none

theorem matcherInv_step {p : Params} {s s' : Sys} {e : Event} (hI : MatcherInv s) (ht : Trans p s e s') : MatcherInv s' := by
  obtain ⟨h1, h2⟩ := hI
  have setup : ∀ msg mount, ∃ r l g m, (laserSetup p msg mount s).1 =
      { s with rangeMax := r, laser := l, globalM := g, localM := m } ∧ (l ≠ none → g ≠ none ∧ m ≠ none) ∧
      ((laserSetup p msg mount s).2 = true → l ≠ none) ∧ (s.laser ≠ none → l ≠ none) := by
    intro msg mount
    obtain ⟨r, l, g, m, e, k1, k2, k3, k4, k5, k6⟩ := setup_cases p msg mount s
    refine ⟨r, l, g, m, e, fun h => ?_, k5, fun h => ?_⟩
    · rcases k6 h with k | k
      · obtain ⟨a, b⟩ := h1 k
        exact ⟨k1 a, k2 b⟩
      · exact k
    · rw [(k3 h).1]; exact h
  cases ht with
  | laserIgnored msg mount odom odomEnd hi =>
    obtain ⟨r, l, g, m, e, k1, k2, k3⟩ := setup msg mount
    rw [e]
    exact ⟨k1, fun h => k3 (h2 h)⟩
  | laserScan msg mount odom odomEnd points hi hgo hinit ht =>
    obtain ⟨r, l, g, m, e, k1, k2, k3⟩ := setup msg mount
    rw [e]
    exact ⟨k1, fun _ => k2 hgo⟩
  | addWindow scan odom w hi hl hw => exact ⟨fun h => ⟨(h1 h).1, by simp⟩, fun _ => h2 (by rw [hi]; trivial)⟩
  | localMatched score correction cov scan back odom hi hb => exact ⟨h1, fun _ => h2 (by rw [hi]; trivial)⟩
  | pushConstraint c scan odom hi => exact ⟨h1, fun _ => h2 (by rw [hi]; trivial)⟩
  | configureFlags action bag hi hl =>
    obtain ⟨en, ini, e, -⟩ := configureMapping_frame action s
    rw [e]; exact ⟨h1, h2⟩
  | load action bag g hi hl hg =>
    obtain ⟨en, ini, e, -⟩ := configureMapping_frame action s
    rw [e]; exact ⟨h1, h2⟩
  | loopCandidate q i rest cand hi hr hc hg => exact ⟨fun h => ⟨by simp, (h1 h).2⟩, h2⟩
  | loopReject score correction cov q cand hi hs =>
    obtain ⟨n, l, e⟩ := afterAttempt_frame q s
    rw [e]; exact ⟨h1, h2⟩
  | loopPush q c hi =>
    obtain ⟨n, l, e⟩ := afterAttempt_frame q { s with constraints := s.constraints ++ [c], update := true }
    rw [e]; exact ⟨h1, h2⟩
  | pubTf hi =>
    obtain ⟨x, e⟩ := pubTf_frame s
    rw [e]; exact ⟨h1, h2⟩
  | _ => first
    | exact ⟨h1, h2⟩
    | exact ⟨h1, fun h => h.elim⟩

/-- The global matcher stays once it is there. -/
theorem globalM_stays {p : Params} {s s' : Sys} {e : Event} (hg : s.globalM ≠ none) (ht : Trans p s e s') :
    s'.globalM ≠ none := by
  cases ht with
  | laserIgnored msg mount odom odomEnd hi =>
    obtain ⟨r, l, g, m, e, k, -⟩ := setup_cases p msg mount s
    rw [e]; exact k hg
  | laserScan msg mount odom odomEnd points hi hgo hinit ht =>
    obtain ⟨r, l, g, m, e, k, -⟩ := setup_cases p msg mount s
    rw [e]; exact k hg
  | configureFlags action bag hi hl =>
    obtain ⟨en, ini, e, -⟩ := configureMapping_frame action s
    rw [e]; exact hg
  | load action bag g hi hl hg' =>
    obtain ⟨en, ini, e, -⟩ := configureMapping_frame action s
    rw [e]; exact hg
  | loopReject score correction cov q cand hi hs =>
    obtain ⟨n, l, e⟩ := afterAttempt_frame q s
    rw [e]; exact hg
  | loopPush q c hi =>
    obtain ⟨n, l, e⟩ := afterAttempt_frame q { s with constraints := s.constraints ++ [c], update := true }
    rw [e]; exact hg
  | pubTf hi =>
    obtain ⟨x, e⟩ := pubTf_frame s
    rw [e]; exact hg
  | loopCandidate q i rest cand hi hr hc hg => simp
  | _ => exact hg

/-- Before the matchers exist the graph is empty, and the loop closure thread has nothing to do. -/
def EarlyInv (s : Sys) : Prop := s.globalM = none → s.scans = [] ∧ (s.loop = .asleep ∨ s.loop = .counting)

theorem earlyInv_step {p : Params} {s s' : Sys} {e : Event} (hM : MatcherInv s) (hI : EarlyInv s)
    (ha : Loads e → s.globalM ≠ none) (ht : Trans p s e s') : EarlyInv s' := by
  intro h0
  have hg : s.globalM = none := by
    by_contra h; exact globalM_stays h ht h0
  obtain ⟨h1, h2⟩ := hI hg
  have nb : ¬ LaserBusy s.spin := fun h => (hM.made (hM.busy h)).1 hg
  cases ht with
  | laserIgnored msg mount odom odomEnd hi =>
    obtain ⟨r, l, g, m, e, -⟩ := setup_cases p msg mount s
    rw [e]; exact ⟨h1, h2⟩
  | laserScan msg mount odom odomEnd points hi hgo hinit ht =>
    obtain ⟨r, l, g, m, e, -⟩ := setup_cases p msg mount s
    rw [e]; exact ⟨h1, h2⟩
  | pushScan scan odom hi => exact absurd (by rw [hi]; trivial) nb
  | poseScan m odom visit near i rest hi he hn hf hnear hv hfind => rw [h1] at hnear; simp at hnear
  | configureFlags action bag hi hl =>
    obtain ⟨en, ini, e, -⟩ := configureMapping_frame action s
    rw [e]; exact ⟨h1, h2⟩
  | load action bag g hi hl hg' => exact absurd hg (ha ⟨action, bag, rfl, hl⟩)
  | pubTf hi =>
    obtain ⟨x, e⟩ := pubTf_frame s
    rw [e]; exact ⟨h1, h2⟩
  | loopWake hi he => exact ⟨h1, Or.inr rfl⟩
  | loopShort hi hn => exact ⟨h1, Or.inl rfl⟩
  | loopCount hi hn => rw [h1] at hn; simp at hn
  | loopPick visit r scan near hi => rw [hi] at h2; simp at h2
  | loopLeave visit r hi => rw [hi] at h2; simp at h2
  | loopNext q hi => rw [hi] at h2; simp at h2
  | loopSkip q i rest cand hi => rw [hi] at h2; simp at h2
  | loopCandidate q i rest cand hi => rw [hi] at h2; simp at h2
  | loopAccept score correction cov q cand scan candidate hi => rw [hi] at h2; simp at h2
  | loopReject score correction cov q cand hi => rw [hi] at h2; simp at h2
  | loopPush q c hi => rw [hi] at h2; simp at h2
  | loopDecide r hi => rw [hi] at h2; simp at h2
  | loopOptimise ceres b solver scans hi => rw [hi] at h2; simp at h2
  | _ => exact ⟨h1, h2⟩

/-! ### Pointers -/

/-- The pointer points to a scan of the current graph or of an older one. -/
def PtrOK (s : Sys) (a : Ptr) : Prop := a.epoch ≤ s.epoch ∧ a.idx < (s.heap a.epoch).length

structure PtrInv (s : Sys) : Prop where
  candidates : ∀ q, s.loop = .candidates q → PtrOK s q.scan
  matching : ∀ q cand, s.loop = .matching q cand → PtrOK s q.scan ∧ PtrOK s cand
  pushing : ∀ q c, s.loop = .pushing q c → PtrOK s q.scan

/-- Graphs up to the current one do not lose scans. -/
theorem heap_grows {p : Params} {s s' : Sys} {e : Event} (ht : Trans p s e s') :
    s.epoch ≤ s'.epoch ∧ ∀ k ≤ s.epoch, (s.heap k).length ≤ (s'.heap k).length := by
  cases ht with
  | laserIgnored msg mount odom odomEnd hi =>
    obtain ⟨r, l, g, m, e, -⟩ := setup_cases p msg mount s
    rw [e]; exact ⟨le_refl _, fun k _ => le_refl _⟩
  | laserScan msg mount odom odomEnd points hi hgo hinit ht =>
    obtain ⟨r, l, g, m, e, -⟩ := setup_cases p msg mount s
    rw [e]; exact ⟨le_refl _, fun k _ => le_refl _⟩
  | pushScan scan odom hi =>
    refine ⟨le_refl _, fun k _ => ?_⟩
    simp only
    split
    · rename_i h; rw [h]; simp [Sys.scans]
    · exact le_refl _
  | poseScan m odom visit near i rest hi he hn hf hnear hv hfind =>
    refine ⟨le_refl _, fun k _ => ?_⟩
    simp only
    split
    · rename_i h; rw [h]; simp [Sys.scans]
    · exact le_refl _
  | configureFlags action bag hi hl =>
    obtain ⟨en, ini, e, -⟩ := configureMapping_frame action s
    rw [e]; exact ⟨le_refl _, fun k _ => le_refl _⟩
  | load action bag g hi hl hg =>
    obtain ⟨en, ini, e, -⟩ := configureMapping_frame action s
    rw [e]
    refine ⟨Nat.le_succ _, fun k hk => ?_⟩
    simp only
    rw [if_neg (by omega)]
  | loopAccept score correction cov q cand scan candidate hi hf hs hq1 hq2 =>
    exact ⟨le_refl _, fun k _ => le_of_eq (setPoseAt_same s.heap q.scan _ k).length.symm⟩
  | loopReject score correction cov q cand hi hs =>
    obtain ⟨n, l, e⟩ := afterAttempt_frame q s
    rw [e]; exact ⟨le_refl _, fun k _ => le_refl _⟩
  | loopPush q c hi =>
    obtain ⟨n, l, e⟩ := afterAttempt_frame q { s with constraints := s.constraints ++ [c], update := true }
    rw [e]; exact ⟨le_refl _, fun k _ => le_refl _⟩
  | loopOptimise ceres b solver scans hi ho =>
    refine ⟨le_refl _, fun k _ => ?_⟩
    simp only
    split
    · rename_i h; rw [h, (optimize_same ho).length]; exact le_refl _
    · exact le_refl _
  | pubTf hi =>
    obtain ⟨x, e⟩ := pubTf_frame s
    rw [e]; exact ⟨le_refl _, fun k _ => le_refl _⟩
  | _ => exact ⟨le_refl _, fun k _ => le_refl _⟩

theorem ptrOK_step {p : Params} {s s' : Sys} {e : Event} {a : Ptr} (h : PtrOK s a) (ht : Trans p s e s') : PtrOK s' a := by
  obtain ⟨h1, h2⟩ := heap_grows ht
  exact ⟨le_trans h.1 h1, lt_of_lt_of_le h.2 (h2 _ h.1)⟩

/-- A state of the loop closure thread made of the pointers it had. -/
theorem afterAttempt_loop (q : Search) (s : Sys) :
    (afterAttempt q s).loop = .picking q.round ∨ ∃ q', (afterAttempt q s).loop = .candidates q' ∧ q'.scan = q.scan ∧
      q'.round = q.round ∧ q'.rolling = q.rolling ∧ q'.rest = q.rest := by
  rcases afterAttempt_cases q s with ⟨-, e⟩ | ⟨-, e⟩
  · rw [e]; exact Or.inl rfl
  · rw [e]; exact Or.inr ⟨_, rfl, rfl, rfl, rfl, rfl⟩

theorem ptrInv_step {p : Params} {s s' : Sys} {e : Event} (hI : PtrInv s) (ht : Trans p s e s') : PtrInv s' := by
  have hp := fun {a : Ptr} (h : PtrOK s a) => ptrOK_step h ht
  have keep : s'.loop = s.loop → PtrInv s' := by
    intro h
    refine ⟨fun q hq => ?_, fun q c hq => ?_, fun q c hq => ?_⟩ <;> rw [h] at hq
    · exact hp (hI.1 q hq)
    · exact ⟨hp (hI.2 q c hq).1, hp (hI.2 q c hq).2⟩
    · exact hp (hI.3 q c hq)
  have drop : ¬ HoldsPointers s'.loop → PtrInv s' := by
    intro h
    refine ⟨fun q hq => ?_, fun q c hq => ?_, fun q c hq => ?_⟩ <;> exact absurd (by rw [hq]; trivial) h
  have after : ∀ q t, s'.loop = (afterAttempt q t).loop → PtrOK s' q.scan → PtrInv s' := by
    intro q t h hq
    rcases afterAttempt_loop q t with k | ⟨q', k, k1, -⟩
    · exact drop (by rw [h, k]; exact id)
    · refine ⟨fun q'' hq' => ?_, fun q c hq => ?_, fun q c hq => ?_⟩
      · rw [h, k] at hq'; cases hq'; rw [k1]; exact hq
      · rw [h, k] at hq; cases hq
      · rw [h, k] at hq; cases hq
  cases ht with
  | laserIgnored msg mount odom odomEnd hi =>
    obtain ⟨r, l, g, m, e, -⟩ := setup_cases p msg mount s
    exact keep (by rw [e])
  | laserScan msg mount odom odomEnd points hi hgo hinit ht =>
    obtain ⟨r, l, g, m, e, -⟩ := setup_cases p msg mount s
    exact keep (by rw [e])
  | configureFlags action bag hi hl =>
    obtain ⟨en, ini, e, -⟩ := configureMapping_frame action s
    exact keep (by rw [e])
  | load action bag g hi hl hg =>
    obtain ⟨en, ini, e, -⟩ := configureMapping_frame action s
    exact keep (by simp [e])
  | pubTf hi =>
    obtain ⟨x, e⟩ := pubTf_frame s
    exact keep (by rw [e])
  | loopWake hi he => exact drop id
  | loopShort hi hn => exact drop id
  | loopCount hi hn => exact drop id
  | loopPick visit r scan near hi hn hs hv hf =>
    refine ⟨fun q hq => ?_, fun q c hq => by simp at hq, fun q c hq => by simp at hq⟩
    simp only [Loop.candidates.injEq] at hq
    subst hq
    exact ⟨le_refl _, (List.getElem?_eq_some_iff.mp hs).1⟩
  | loopLeave visit r hi hn => exact drop id
  | loopNext q hi hr => exact drop id
  | loopSkip q i rest cand hi hr hc hp' =>
    refine ⟨fun q' hq => ?_, fun q c hq => by simp at hq, fun q c hq => by simp at hq⟩
    simp only [Loop.candidates.injEq] at hq
    subst hq
    exact hI.1 q hi
  | loopCandidate q i rest cand hi hr hc hg =>
    refine ⟨fun q hq => by simp at hq, fun q' c hq => ?_, fun q c hq => by simp at hq⟩
    simp only [Loop.matching.injEq] at hq
    obtain ⟨rfl, rfl⟩ := hq
    exact ⟨hI.1 q hi, le_refl _, (List.getElem?_eq_some_iff.mp hc).1⟩
  | loopAccept score correction cov q cand scan candidate hi hf hs hq1 hq2 =>
    refine ⟨fun q hq => by simp at hq, fun q' c hq => by simp at hq, fun q' c hq => ?_⟩
    simp only [Loop.pushing.injEq] at hq
    obtain ⟨rfl, -⟩ := hq
    exact hp (hI.2 q cand hi).1
  | loopReject score correction cov q cand hi hs => exact after q s rfl (hp (hI.2 q cand hi).1)
  | loopPush q c hi => exact after q _ rfl (hp (hI.3 q c hi))
  | loopDecide r hi => exact drop (by simp only; split_ifs <;> exact id)
  | loopOptimise ceres b solver scans hi ho => exact drop id
  | _ => exact keep rfl

/-! ### Indices -/

/-- The loop closure thread is in a round: it works with the number of scans counted at its beginning. -/
def InRound : Loop → Prop
  | .picking .. | .candidates .. | .matching .. | .pushing .. => True
  | _ => False

/-- No map is loaded during a round of the loop closure thread. -/
def LoadsBetweenRounds (s : Sys) (e : Event) : Prop := Loads e → ¬ InRound s.loop

structure RoundInv (s : Sys) : Prop where
  picking : ∀ r, s.loop = .picking r → r.n ≤ s.scans.length
  candidates : ∀ q, s.loop = .candidates q → q.round.n ≤ s.scans.length ∧ s.processed < q.round.n
  matching : ∀ q cand, s.loop = .matching q cand → q.round.n ≤ s.scans.length ∧ s.processed < q.round.n
  pushing : ∀ q c, s.loop = .pushing q c → q.round.n ≤ s.scans.length ∧ s.processed < q.round.n

/-- Without loading, the current graph does not lose scans. -/
theorem scans_grow {p : Params} {s s' : Sys} {e : Event} (hl : ¬ Loads e) (ht : Trans p s e s') :
    s.scans.length ≤ s'.scans.length := by
  have h := (heap_grows ht).2 s.epoch (le_refl _)
  have he : s'.epoch = s.epoch := by
    cases ht with
    | laserIgnored msg mount odom odomEnd hi =>
      obtain ⟨r, l, g, m, e, -⟩ := setup_cases p msg mount s
      rw [e]
    | laserScan msg mount odom odomEnd points hi hgo hinit ht =>
      obtain ⟨r, l, g, m, e, -⟩ := setup_cases p msg mount s
      rw [e]
    | configureFlags action bag hi hl =>
      obtain ⟨en, ini, e, -⟩ := configureMapping_frame action s
      rw [e]
    | load action bag g hi hl' hg => exact absurd ⟨action, bag, rfl, hl'⟩ hl
    | loopReject score correction cov q cand hi hs =>
      obtain ⟨n, l, e⟩ := afterAttempt_frame q s
      rw [e]
    | loopPush q c hi =>
      obtain ⟨n, l, e⟩ := afterAttempt_frame q { s with constraints := s.constraints ++ [c], update := true }
      rw [e]
    | pubTf hi =>
      obtain ⟨x, e⟩ := pubTf_frame s
      rw [e]
    | _ => rfl
  unfold Sys.scans
  rw [he]; exact h

theorem afterAttempt_round {q : Search} {s : Sys} (h : q.round.n ≤ s.scans.length ∧ s.processed < q.round.n) :
    RoundInv (afterAttempt q s) := by
  rcases afterAttempt_cases q s with ⟨-, e⟩ | ⟨-, e⟩
  · rw [e]
    refine ⟨fun r hr => ?_, fun q hq => by simp [nextScan] at hq, fun q c hq => by simp [nextScan] at hq,
      fun q c hq => by simp [nextScan] at hq⟩
    simp only [nextScan, Loop.picking.injEq] at hr
    rw [← hr]; exact h.1
  · rw [e]
    generalize (q.left + (2 ^ 64 - 1)) % 2 ^ 64 = left
    refine ⟨fun r hr => by simp at hr, fun q' hq => ?_, fun q c hq => by simp at hq, fun q c hq => by simp at hq⟩
    simp only [Loop.candidates.injEq] at hq
    rw [← hq]; exact h

theorem roundInv_step {p : Params} {s s' : Sys} {e : Event} (hI : RoundInv s) (ha : LoadsBetweenRounds s e)
    (ht : Trans p s e s') : RoundInv s' := by
  have keep : s'.loop = s.loop → s'.processed = s.processed → s.scans.length ≤ s'.scans.length → RoundInv s' := by
    intro h hp hl
    refine ⟨fun r hr => ?_, fun q hq => ?_, fun q c hq => ?_, fun q c hq => ?_⟩
    · rw [h] at hr; exact le_trans (hI.1 r hr) hl
    · rw [h] at hq; rw [hp]; exact ⟨le_trans (hI.2 q hq).1 hl, (hI.2 q hq).2⟩
    · rw [h] at hq; rw [hp]; exact ⟨le_trans (hI.3 q c hq).1 hl, (hI.3 q c hq).2⟩
    · rw [h] at hq; rw [hp]; exact ⟨le_trans (hI.4 q c hq).1 hl, (hI.4 q c hq).2⟩
  have drop : ¬ InRound s'.loop → RoundInv s' := by
    intro h
    refine ⟨fun r hr => ?_, fun q hq => ?_, fun q c hq => ?_, fun q c hq => ?_⟩
    · exact absurd (by rw [hr]; trivial) h
    all_goals exact absurd (by rw [hq]; trivial) h
  have grow : ¬ Loads e → s.scans.length ≤ s'.scans.length := fun h => scans_grow h ht
  have nl : (∀ action bag, e ≠ .configure action bag) → ¬ Loads e := by
    rintro h ⟨a, b, h', -⟩; exact h a b h'
  cases ht with
  | laserIgnored msg mount odom odomEnd hi =>
    have := grow (nl (by simp))
    obtain ⟨r, l, g, m, e, -⟩ := setup_cases p msg mount s
    exact keep (by rw [e]) (by rw [e]) this
  | laserScan msg mount odom odomEnd points hi hgo hinit ht =>
    have := grow (nl (by simp))
    obtain ⟨r, l, g, m, e, -⟩ := setup_cases p msg mount s
    exact keep (by rw [e]) (by rw [e]) this
  | configureFlags action bag hi hl =>
    obtain ⟨en, ini, e, -⟩ := configureMapping_frame action s
    exact keep (by rw [e]) (by rw [e]) (by rw [e]; exact le_refl _)
  | load action bag g hi hl hg =>
    obtain ⟨en, ini, e, -⟩ := configureMapping_frame action s
    exact drop (by rw [e]; exact ha ⟨action, bag, rfl, hl⟩)
  | pubTf hi =>
    obtain ⟨x, e⟩ := pubTf_frame s
    exact keep (by rw [e]) (by rw [e]) (by rw [e]; exact le_refl _)
  | loopWake hi he => exact drop id
  | loopShort hi hn => exact drop id
  | loopCount hi hn =>
    refine ⟨fun r hr => ?_, fun q hq => by simp at hq, fun q c hq => by simp at hq, fun q c hq => by simp at hq⟩
    simp only [Loop.picking.injEq] at hr
    rw [← hr]; exact le_refl _
  | loopPick visit r scan near hi hn hs hv hf =>
    refine ⟨fun r hr => by simp at hr, fun q hq => ?_, fun q c hq => by simp at hq, fun q c hq => by simp at hq⟩
    simp only [Loop.candidates.injEq] at hq
    rw [← hq]
    exact ⟨hI.1 r hi, hn⟩
  | loopLeave visit r hi hn => exact drop id
  | loopNext q hi hr =>
    refine ⟨fun r hr => ?_, fun q hq => by simp [nextScan] at hq, fun q c hq => by simp [nextScan] at hq,
      fun q c hq => by simp [nextScan] at hq⟩
    simp only [nextScan, Loop.picking.injEq] at hr
    rw [← hr]; exact (hI.2 q hi).1
  | loopSkip q i rest cand hi hr hc hp' =>
    refine ⟨fun r hr => by simp at hr, fun q' hq => ?_, fun q c hq => by simp at hq, fun q c hq => by simp at hq⟩
    simp only [Loop.candidates.injEq] at hq
    rw [← hq]
    exact hI.2 q hi
  | loopCandidate q i rest cand hi hr hc hg =>
    refine ⟨fun r hr => by simp at hr, fun q hq => by simp at hq, fun q' c hq => ?_, fun q c hq => by simp at hq⟩
    simp only [Loop.matching.injEq] at hq
    rw [← hq.1]
    exact hI.2 q hi
  | loopAccept score correction cov q cand scan candidate hi hf hs hq1 hq2 =>
    have hl := setPoseAt_len s q.scan (addCorrection correction scan.getPose)
    refine ⟨fun r hr => by simp at hr, fun q hq => by simp at hq, fun q' c hq => by simp at hq, fun q' c hq => ?_⟩
    simp only [Loop.pushing.injEq] at hq
    rw [← hq.1]
    refine ⟨?_, (hI.3 q cand hi).2⟩
    show _ ≤ (setPoseAt _ _ _ _).length
    rw [hl]; exact (hI.3 q cand hi).1
  | loopReject score correction cov q cand hi hs => exact afterAttempt_round (hI.3 q cand hi)
  | loopPush q c hi =>
    exact afterAttempt_round (s := { s with constraints := s.constraints ++ [c], update := true }) (hI.4 q c hi)
  | loopDecide r hi => exact drop (by simp only; split_ifs <;> exact id)
  | loopOptimise ceres b solver scans hi ho => exact drop id
  | pushScan scan odom hi => exact keep rfl rfl (grow (nl (by simp)))
  | poseScan m odom visit near i rest hi he hn hf hnear hv hfind => exact keep rfl rfl (grow (nl (by simp)))
  | _ => exact keep rfl rfl (le_refl _)

/-- `findNearest` with a limit within the graph is defined. -/
theorem findNearest_defined (g : Graph) (visit : List ℕ) (scan : Scan) (d : ℝ) (k : ℤ) (h : k.toNat ≤ g.scans.length) :
    ∃ near, g.findNearest visit scan d k = .ok near := by
  unfold Graph.findNearest
  simp only
  rw [if_neg]
  · exact ⟨_, rfl⟩
  · split <;> omega

end

end Ndt
