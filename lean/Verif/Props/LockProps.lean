import Verif.Model.Locks

/-! # The mutexes (C65) -/

namespace Ndt

open Locks

/-- The mutex a thread owns at a place. -/
def heldAt : Place → Option Mutex
  | .configureWork | .configureUnlock | .poseInside | .poseReturn | .poseUnlock | .constraintPush | .constraintUnlock |
    .scanPush | .scanUnlock | .countRead | .countUnlock | .pickRead | .pickUnlock | .candidateRead | .candidateSkip |
    .candidateUnlock | .pushInside | .pushUnlock | .optimiseInside | .optimiseUnlock | .gridInside | .gridUnlock |
    .graphInside | .graphUnlock => some .graph
  | .prevWrite | .prevUnlock | .tfRead | .tfUnlock => some .prevPose
  | _ => none

/-- Steps left until the mutex that is held is released. -/
def insideLeft : Place → ℕ
  | .configureWork | .poseInside | .constraintPush | .scanPush | .countRead | .pickRead | .candidateRead | .pushInside |
    .optimiseInside | .gridInside | .graphInside | .prevWrite | .tfRead => 2
  | .configureUnlock | .poseReturn | .poseUnlock | .constraintUnlock | .scanUnlock | .countUnlock | .pickUnlock |
    .candidateSkip | .candidateUnlock | .pushUnlock | .optimiseUnlock | .gridUnlock | .graphUnlock | .prevUnlock |
    .tfUnlock => 1
  | _ => 0

theorem held_work {p q : Place} (h : p.act = .work) (hq : q ∈ p.next) : heldAt q = heldAt p := by
  have key : p.act = .work → ∀ q ∈ p.next, heldAt q = heldAt p := by cases p <;> decide
  exact key h q hq

theorem held_acquire {p q : Place} {m : Mutex} (h : p.act = .acquire m) (hq : q ∈ p.next) :
    heldAt p = none ∧ heldAt q = some m := by
  cases p <;> simp [Place.act] at h <;> simp [Place.next] at hq <;> subst hq <;> subst h <;> exact ⟨rfl, rfl⟩

theorem held_release {p q : Place} {m : Mutex} (h : p.act = .release m) (hq : q ∈ p.next) :
    heldAt p = some m ∧ heldAt q = none := by
  cases p <;> simp [Place.act] at h <;> simp [Place.next] at hq <;> subst hq <;> subst h <;> exact ⟨rfl, rfl⟩

theorem next_nonempty (p : Place) : ∃ q, q ∈ p.next := by
  cases p <;> exact ⟨_, List.mem_cons_self⟩

/-- The owners are what the places say. -/
def Owned (s : State) : Prop := ∀ t m, s.owner m = some t ↔ heldAt (s.place t) = some m

theorem owned_initial : Owned initial := by
  intro t m
  cases t <;> simp [initial, heldAt]

theorem owned_step {s s' : State} {t : Thread} {q : Place} (h : Owned s) (hq : q ∈ (s.place t).next)
    (hs : step s t q = .ok s') : Owned s' := by
  unfold step at hs
  split at hs
  · rename_i ha
    injection hs with hs
    subst hs
    intro u m
    rw [h u m]
    by_cases hu : u = t
    · subst hu
      simp only [Function.update_self]
      rw [held_work ha hq]
    · simp only [Function.update_of_ne hu]
  · rename_i m ha
    obtain ⟨h1, h2⟩ := held_acquire ha hq
    split at hs
    · rename_i ho
      injection hs with hs
      subst hs
      intro u m'
      by_cases hu : u = t
      · subst hu
        simp only [Function.update_self]
        rw [h2]
        by_cases hm : m' = m
        · subst hm; simp
        · rw [Function.update_of_ne hm, h u m', h1]
          simp [Ne.symm hm]
      · simp only [Function.update_of_ne hu]
        by_cases hm : m' = m
        · subst hm
          rw [Function.update_self, ← h u m', ho]
          simp [Ne.symm hu]
        · rw [Function.update_of_ne hm]; exact h u m'
    · split at hs <;> cases hs
  · rename_i m ha
    obtain ⟨h1, h2⟩ := held_release ha hq
    split at hs
    · rename_i ho
      injection hs with hs
      subst hs
      intro u m'
      by_cases hu : u = t
      · subst hu
        simp only [Function.update_self]
        rw [h2]
        by_cases hm : m' = m
        · subst hm; simp
        · rw [Function.update_of_ne hm, h u m', h1]
          simp [Ne.symm hm]
      · simp only [Function.update_of_ne hu]
        by_cases hm : m' = m
        · subst hm
          rw [Function.update_self, ← h u m', ho]
          simp [Ne.symm hu]
        · rw [Function.update_of_ne hm]; exact h u m'
    · cases hs

theorem owned_reachable {s : State} (h : Reachable s) : Owned s := by
  induction h with
  | initial => exact owned_initial
  | step _ hq hs ih => exact owned_step ih hq hs

/-- **C65** A thread that wants a mutex owns none. -/
theorem c65_waiting_thread_owns_nothing (s : State) (h : Reachable s) (t : Thread) (m m' : Mutex)
    (hw : (s.place t).act = .acquire m) : s.owner m' ≠ some t := by
  obtain ⟨q, hq⟩ := next_nonempty (s.place t)
  rw [Ne, owned_reachable h t m', (held_acquire hw hq).1]
  simp

/-- **C65** No schedule locks a mutex twice from one thread or unlocks one that is not owned. -/
theorem c65_locking_is_defined (s : State) (h : Reachable s) (t : Thread) (q : Place) (hq : q ∈ (s.place t).next) :
    step s t q ≠ .undefined := by
  have hO := owned_reachable h
  unfold step
  split
  · simp
  · rename_i m ha
    split
    · simp
    · rename_i u hu
      rw [if_neg]
      · simp
      · rintro rfl
        exact c65_waiting_thread_owns_nothing s h u m m ha hu
  · rename_i m ha
    rw [if_pos ((hO t m).mpr (held_release ha hq).1)]
    simp

/-- **C65** No deadlock: a thread can go on, or it waits for a mutex whose owner is another thread that can go on. -/
theorem c65_no_deadlock (s : State) (h : Reachable s) (t : Thread) :
    (∀ q ∈ (s.place t).next, ∃ s', step s t q = .ok s') ∨
    ∃ m u, (s.place t).act = .acquire m ∧ s.owner m = some u ∧ u ≠ t ∧ ∀ q ∈ (s.place u).next, ∃ s', step s u q = .ok s' := by
  have go : ∀ u, (∀ m, (s.place u).act = .acquire m → s.owner m = none) → ∀ q ∈ (s.place u).next, ∃ s', step s u q = .ok s' := by
    intro u hu q hq
    have hd := c65_locking_is_defined s h u q hq
    cases hr : step s u q with
    | ok s' => exact ⟨s', rfl⟩
    | undefined => exact absurd hr hd
    | waits =>
      exfalso
      unfold step at hr
      split at hr
      · cases hr
      · rename_i m ha
        rw [hu m ha] at hr
        cases hr
      · split at hr <;> cases hr
  by_cases hw : ∃ m u, (s.place t).act = .acquire m ∧ s.owner m = some u
  · obtain ⟨m, u, ha, ho⟩ := hw
    right
    refine ⟨m, u, ha, ho, ?_, go u fun m' ha' => ?_⟩
    · rintro rfl
      exact c65_waiting_thread_owns_nothing s h u m m ha ho
    · exact absurd ho (c65_waiting_thread_owns_nothing s h u m' m ha')
  · left
    refine go t fun m ha => ?_
    cases ho : s.owner m with
    | none => rfl
    | some u => exact absurd ⟨m, u, ha, ho⟩ hw

/-- **C65** A mutex is owned for at most two more steps of its owner, none of which waits. -/
theorem c65_released_soon (s : State) (h : Reachable s) (t : Thread) (m : Mutex) (ho : s.owner m = some t) (q : Place)
    (hq : q ∈ (s.place t).next) : 1 ≤ insideLeft (s.place t) ∧ insideLeft (s.place t) ≤ 2 ∧
    insideLeft q + 1 = insideLeft (s.place t) ∧ (∃ s', step s t q = .ok s' ∧ (insideLeft q = 0 → s'.owner m = none)) := by
  have hh := (owned_reachable h t m).mp ho
  have hstep : ∃ s', step s t q = .ok s' := by
    rcases c65_no_deadlock s h t with hn | ⟨m', u, ha, -⟩
    · exact hn q hq
    · exact absurd ho (c65_waiting_thread_owns_nothing s h t m' m ha)
  obtain ⟨s', hs'⟩ := hstep
  have hq' := hq
  have key : ∀ p : Place, heldAt p = some m → q ∈ p.next →
      1 ≤ insideLeft p ∧ insideLeft p ≤ 2 ∧ insideLeft q + 1 = insideLeft p ∧ (insideLeft q = 0 → p.act = .release m) := by
    intro p hp hq
    cases p <;> simp [heldAt] at hp <;> subst hp <;> simp [Place.next] at hq <;>
      (first | (subst hq; simp [insideLeft, Place.act]) | (rcases hq with rfl | rfl <;> simp [insideLeft]))
  obtain ⟨k1, k2, k3, k4⟩ := key _ hh hq'
  refine ⟨k1, k2, k3, s', hs', fun h0 => ?_⟩
  have ha := k4 h0
  unfold step at hs'
  rw [ha] at hs'
  simp only at hs'
  rw [if_pos ho] at hs'
  injection hs' with hs'
  rw [← hs']
  simp

/-- **C65** Two threads are never in critical sections of the same mutex. -/
theorem c65_mutual_exclusion (s : State) (h : Reachable s) (t u : Thread) (m : Mutex) (ht : heldAt (s.place t) = some m)
    (hu : heldAt (s.place u) = some m) : t = u := by
  have hO := owned_reachable h
  have a := (hO t m).mpr ht
  have b := (hO u m).mpr hu
  rw [a] at b
  exact Option.some.inj b

/-- Example: the executor is adding a scan, the publishing thread waits for the graph. -/
example : ∃ s, Reachable s ∧ s.place .spin = .scanPush ∧ s.place .pub = .gridLock ∧ step s .pub .gridInside = .waits := by
  have h1 := Reachable.step (t := .spin) (q := .laserWork) .initial (by decide) rfl
  have h2 := Reachable.step (t := .spin) (q := .scanLock) h1 (by decide) rfl
  have h3 := Reachable.step (t := .spin) (q := .scanPush) h2 (by decide) rfl
  have h4 := Reachable.step (t := .pub) (q := .gridLock) h3 (by decide) rfl
  exact ⟨_, h4, rfl, rfl, rfl⟩

end Ndt
