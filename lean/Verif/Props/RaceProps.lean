import Verif.Props.LockProps

/-! # Data races (C69)

A data race makes the behaviour of a C++ program undefined: two threads are about to access the same member, at least one of
them writing, and nothing orders them. -/

namespace Ndt

open Locks

/-- Two different threads can perform conflicting accesses to `v` next. -/
def RaceOn (v : Member) (s : State) : Prop :=
  ∃ t u a b, t ≠ u ∧ (v, a) ∈ (s.place t).accesses ∧ (v, b) ∈ (s.place u).accesses ∧ (a = .writes ∨ b = .writes)

theorem constraints_locked (p : Place) (a : Access) (h : (Member.constraints, a) ∈ p.accesses) : heldAt p = some .graph := by
  cases p <;> simp [Place.accesses] at h <;> rfl

/-- **C69** (constraints) The list of constraints is never raced on: every access is under the graph mutex.
Missing: the other members, see below. -/
theorem c69_constraints_partial (s : State) (h : Reachable s) : ¬ RaceOn .constraints s := by
  rintro ⟨t, u, a, b, htu, ha, hb, -⟩
  exact htu (c65_mutual_exclusion s h t u .graph (constraints_locked _ a ha) (constraints_locked _ b hb))

/-- The threads keep to their own places. -/
def spinPlace : Place → Bool
  | .idle | .configureFlags | .configureLock | .configureWork | .configureUnlock | .poseWork | .poseLock | .poseInside |
    .poseReturn | .poseUnlock | .poseWrite | .laserWork | .constraintLock | .constraintPush | .constraintUnlock | .scanLock |
    .scanPush | .scanUnlock | .prevLock | .prevWrite | .prevUnlock => true
  | _ => false

def pubPlace : Place → Bool
  | .check | .gridLock | .gridInside | .gridUnlock | .gridPublish | .graphLock | .graphInside | .graphUnlock |
    .graphPublish | .tfLock | .tfRead | .tfUnlock | .tfSend => true
  | _ => false

/-- Which thread runs the code at a place. -/
def threadOf (p : Place) : Thread := if spinPlace p then .spin else if pubPlace p then .pub else .loop

theorem threadOf_next (p : Place) : ∀ q ∈ p.next, threadOf q = threadOf p := by
  cases p <;> decide

theorem threadOf_reachable {s : State} (h : Reachable s) : ∀ t, threadOf (s.place t) = t := by
  induction h with
  | initial => intro t; cases t <;> rfl
  | @step s s' u q _ hq hs ih =>
    have key : ∀ t, threadOf (Function.update s.place u q t) = t := by
      intro t
      by_cases ht : t = u
      · subst ht
        rw [Function.update_self, threadOf_next _ q hq, ih]
      · rw [Function.update_of_ne ht, ih]
    unfold step at hs
    split at hs
    · injection hs with hs; subst hs; exact key
    · split at hs
      · injection hs with hs; subst hs; exact key
      · split at hs <;> cases hs
    · split at hs
      · injection hs with hs; subst hs; exact key
      · cases hs

theorem scans_locked (p : Place) (a : Access) (h : (Member.scans, a) ∈ p.accesses) :
    heldAt p = some .graph ∨ (a = .reads ∧ (p = .laserWork ∨ p = .graphPublish)) := by
  cases p <;> simp [Place.accesses] at h <;> simp [heldAt, h]

theorem scans_written (p : Place) (h : (Member.scans, Access.writes) ∈ p.accesses) : threadOf p = .spin := by
  cases p <;> simp [Place.accesses] at h <;> rfl

/-- **C69** (scans) The only race on the list of scans is that of the publishing thread at line 717, which asks whether it
is empty without the mutex. -/
theorem c69_scans_partial (s : State) (h : Reachable s) (hr : RaceOn .scans s) : s.place .pub = .graphPublish := by
  obtain ⟨t, u, a, b, htu, ha, hb, hw⟩ := hr
  have hT := threadOf_reachable h
  -- one of the two writes: it is the executor inside the mutex
  have main : ∀ t u b, t ≠ u → (Member.scans, Access.writes) ∈ (s.place t).accesses → (Member.scans, b) ∈ (s.place u).accesses →
      s.place .pub = .graphPublish := by
    intro t u b htu ha hb
    rcases scans_locked _ _ ha with h1 | ⟨h1, -⟩
    · rcases scans_locked _ _ hb with h2 | ⟨-, h2 | h2⟩
      · exact absurd (c65_mutual_exclusion s h t u .graph h1 h2) htu
      · have e1 := hT u
        rw [h2] at e1
        have e2 := hT t
        rw [scans_written _ ha] at e2
        exact absurd (e2.symm.trans e1) htu
      · have e1 := hT u
        rw [h2] at e1
        have : u = .pub := e1.symm
        rw [← this, h2]
    · cases h1
  rcases hw with rfl | rfl
  · exact main t u b htu ha hb
  · exact main u t a (Ne.symm htu) hb ha

/-- **C69** (poses) The only race on the previous poses is that of the initial pose callback, which writes them without the
mutex, with the publishing thread. -/
theorem c69_poses_partial (s : State) (h : Reachable s) (hr : RaceOn .prevPoses s) :
    s.place .spin = .poseWrite ∧ s.place .pub = .tfRead := by
  obtain ⟨t, u, a, b, htu, ha, hb, hw⟩ := hr
  have hT := threadOf_reachable h
  have key : ∀ (p : Place) (a : Access), (Member.prevPoses, a) ∈ p.accesses →
      (p = .poseWrite ∧ a = .writes) ∨ (p = .prevWrite ∧ a = .writes) ∨ (p = .laserWork ∧ a = .reads) ∨
        (p = .tfRead ∧ a = .reads) := by
    intro p a h
    cases p <;> simp [Place.accesses] at h <;> simp [h]
  have hx : s.place .spin = .prevWrite → s.place .pub ≠ .tfRead := by
    intro h1 h2
    have := c65_mutual_exclusion s h .spin .pub .prevPose (by rw [h1]; rfl) (by rw [h2]; rfl)
    cases this
  have et := hT t
  have eu := hT u
  rcases key _ _ ha with ⟨h1, ra⟩ | ⟨h1, ra⟩ | ⟨h1, ra⟩ | ⟨h1, ra⟩ <;>
    rcases key _ _ hb with ⟨h2, rb⟩ | ⟨h2, rb⟩ | ⟨h2, rb⟩ | ⟨h2, rb⟩ <;> rw [h1] at et <;> rw [h2] at eu <;>
    simp only [threadOf, spinPlace, pubPlace, if_true] at et eu <;> subst et <;> subst eu <;>
    first
      | exact absurd rfl htu
      | exact ⟨h1, h2⟩
      | exact ⟨h2, h1⟩
      | exact absurd h2 (hx h1)
      | exact absurd h1 (hx h2)
      | (rw [ra, rb] at hw; simp at hw; done)

/-- A schedule: which thread moves where. -/
def runPlaces (s : State) : List (Thread × Place) → Option State
  | [] => some s
  | (t, q) :: r => if q ∈ (s.place t).next then (match step s t q with | .ok s' => runPlaces s' r | _ => none) else none

theorem runPlaces_reachable (l : List (Thread × Place)) {s s' : State} (h : Reachable s) (hr : runPlaces s l = some s') :
    Reachable s' := by
  induction l generalizing s with
  | nil => injection hr with hr; rw [← hr]; exact h
  | cons e l ih =>
    unfold runPlaces at hr
    split at hr
    · rename_i hq
      split at hr
      · rename_i s1 hs
        exact ih (.step h hq hs) hr
      · cases hr
    · cases hr

/-- **C69** Refuted: `enable_mapping_` is written by the configure service while the loop closure thread reads it. -/
theorem c69_race_on_enable_mapping : ∃ s, Reachable s ∧ RaceOn .enableMapping s :=
  ⟨_, runPlaces_reachable [(.spin, .configureFlags)] .initial rfl,
    .spin, .loop, .writes, .reads, by decide, by decide, by decide, by decide⟩

/-- **C69** Refuted: `map_update_available_` is written under the pose mutex by a laser callback while the publishing
thread reads and clears it without any. -/
theorem c69_race_on_map_update : ∃ s, Reachable s ∧ RaceOn .mapUpdateAvailable s :=
  ⟨_, runPlaces_reachable [(.spin, .laserWork), (.spin, .prevLock), (.spin, .prevWrite)] .initial rfl,
    .spin, .pub, .writes, .writes, by decide, by decide, by decide, by decide⟩

/-- **C69** Refuted: the initial pose is written while the publishing thread reads the poses. -/
theorem c69_race_on_poses : ∃ s, Reachable s ∧ RaceOn .prevPoses s :=
  ⟨_, runPlaces_reachable [(.spin, .poseWork), (.spin, .poseWrite), (.pub, .graphPublish), (.pub, .tfLock), (.pub, .tfRead)]
      .initial rfl,
    .spin, .pub, .writes, .reads, by decide, by decide, by decide, by decide⟩

/-- **C69** Refuted: the publishing thread looks at the scans at line 717 while a scan is appended. -/
theorem c69_race_on_scans : ∃ s, Reachable s ∧ RaceOn .scans s :=
  ⟨_, runPlaces_reachable [(.spin, .laserWork), (.spin, .scanLock), (.spin, .scanPush), (.pub, .graphPublish)] .initial rfl,
    .spin, .pub, .writes, .reads, by decide, by decide, by decide, by decide⟩

/-- **C69** Refuted: the publishing thread follows `graph_` at line 717 while a loaded graph replaces it. -/
theorem c69_race_on_graph_pointer : ∃ s, Reachable s ∧ RaceOn .graphPointer s :=
  ⟨_, runPlaces_reachable [(.spin, .configureFlags), (.spin, .configureLock), (.spin, .configureWork), (.pub, .graphPublish)]
      .initial rfl,
    .spin, .pub, .writes, .reads, by decide, by decide, by decide, by decide⟩

/-- **C69** Refuted: the loop closure thread corrects the pose of a scan (line 655) without the mutex while the grid is
rendered from it. -/
theorem c69_race_on_scan_poses : ∃ s, Reachable s ∧ RaceOn .scanData s :=
  ⟨_, runPlaces_reachable [(.loop, .countLock), (.loop, .countRead), (.loop, .countUnlock), (.loop, .round),
      (.loop, .pickLock), (.loop, .pickRead), (.loop, .pickUnlock), (.loop, .candidates), (.loop, .candidateLock),
      (.loop, .candidateRead), (.loop, .candidateUnlock), (.loop, .matching), (.pub, .gridLock), (.pub, .gridInside)]
      .initial rfl,
    .loop, .pub, .writes, .reads, by decide, by decide, by decide, by decide⟩

/-- **C69** Refuted: the typical response is updated by a laser callback while the loop closure thread compares with it. -/
theorem c69_race_on_typical_response : ∃ s, Reachable s ∧ RaceOn .typicalResponse s :=
  ⟨_, runPlaces_reachable [(.loop, .countLock), (.loop, .countRead), (.loop, .countUnlock), (.loop, .round),
      (.loop, .pickLock), (.loop, .pickRead), (.loop, .pickUnlock), (.loop, .candidates), (.loop, .candidateLock),
      (.loop, .candidateRead), (.loop, .candidateUnlock), (.loop, .matching), (.spin, .laserWork)]
      .initial rfl,
    .spin, .loop, .writes, .reads, by decide, by decide, by decide, by decide⟩

/-- Example for the theorems above: the executor inside the graph mutex writes constraints, the others wait or work. -/
example : ∃ s, Reachable s ∧ s.place .spin = .constraintPush ∧ s.place .loop = .countLock ∧ s.place .pub = .graphPublish :=
  ⟨_, runPlaces_reachable [(.spin, .laserWork), (.spin, .constraintLock), (.spin, .constraintPush), (.loop, .countLock),
      (.pub, .graphPublish)] .initial rfl, rfl, rfl, rfl⟩

end Ndt
