import Verif.Proof.Mapper
import Verif.Spec.Mapper

/-! # Helper lemmas: induction over executions -/

namespace Ndt

noncomputable section

open Spec Mapper

theorem Exec.inv {p : Params} {A : Sys → Event → Prop} {I : Sys → Prop} {s t : Sys} {es : List Event}
    (hs : ∀ s e s', I s → A s e → Trans p s e s' → I s') (h : Exec p A s es t) (h0 : I s) : I t := by
  induction h with
  | nil => exact h0
  | snoc _ ha hst ih => exact hs _ _ _ ih ha (step_trans hst)

theorem Exec.mono {p : Params} {A B : Sys → Event → Prop} (hab : ∀ s e, A s e → B s e) {s t : Sys} {es : List Event}
    (h : Exec p A s es t) : Exec p B s es t := by
  induction h with
  | nil => exact .nil
  | snoc _ ha hst ih => exact .snoc ih (hab _ _ ha) hst

theorem run_append (p : Params) (s : Sys) (a b : List Event) :
    run p s (a ++ b) = (run p s a >>= fun s => run p s b) := by
  unfold run; rw [List.foldlM_append]

theorem run_cons (p : Params) (s : Sys) (e : Event) (es : List Event) :
    run p s (e :: es) = (step p s e >>= fun s => run p s es) := by
  unfold run; rw [List.foldlM_cons]

/-- Executions are runs. -/
theorem exec_iff_run (p : Params) (B : Event → Prop) (s t : Sys) (es : List Event) :
    Exec p (fun _ e => B e) s es t ↔ run p s es = .ok t ∧ ∀ e ∈ es, B e := by
  constructor
  · intro h
    induction h with
    | nil => exact ⟨rfl, by simp⟩
    | snoc _ ha hst ih =>
      refine ⟨?_, ?_⟩
      · rw [run_append, ih.1]
        show run p _ [_] = _
        rw [run_cons, hst]; rfl
      · intro e he
        rcases List.mem_append.mp he with h | h
        · exact ih.2 e h
        · simp at h; subst h; exact ha
  · rintro ⟨h, hb⟩
    induction es using List.reverseRecOn generalizing t with
    | nil => cases h; exact .nil
    | append_singleton es e ih =>
      rw [run_append] at h
      obtain ⟨u, h1, h2⟩ := bind_ok h
      rw [run_cons] at h2
      obtain ⟨v, h3, h4⟩ := bind_ok h2
      cases h4
      exact .snoc (ih _ h1 fun e he => hb e (by simp [he])) (hb e (by simp)) h3

/-- Induction over reachable states. -/
theorem Reach.inv {p : Params} {W : Graph → Prop} {A : Sys → Event → Prop} {I : Sys → Prop} {s : Sys}
    (h : Reach p W A s) (h0 : ∀ enable file s0, Mapper.start p enable file = .ok s0 →
      (∀ bag, file = some bag → ∀ g, Graph.load p.useBarycenter bag = .ok g → W g) → I s0)
    (hs : ∀ s e s', I s → A s e →
      (∀ action bag, e = .configure action bag → ∀ g, Graph.load p.useBarycenter bag = .ok g → W g) →
      Trans p s e s' → I s') : I s := by
  obtain ⟨enable, file, s0, es, hst, hw, he⟩ := h
  exact Exec.inv (I := I) (fun s e s' hI ha ht => hs s e s' hI ha.1 ha.2 ht) he (h0 enable file s0 hst hw)

theorem start_cases {p : Params} {enable : Bool} {file : Option (List BagMsg)} {s : Sys}
    (h : Mapper.start p enable file = .ok s) :
    (file = none ∧ s = startWith p enable false (Graph.new p.useBarycenter)) ∨
    ∃ bag g, file = some bag ∧ Graph.load p.useBarycenter bag = .ok g ∧ s = startWith p enable true g := by
  unfold Mapper.start at h
  split at h
  · cases h; exact Or.inl ⟨rfl, rfl⟩
  · obtain ⟨g, hg, h⟩ := bind_ok h
    cases h; exact Or.inr ⟨_, g, rfl, hg, rfl⟩

theorem afterAttempt_cases (q : Search) (s : Sys) :
    ((q.left + (2 ^ 64 - 1)) % 2 ^ 64 = 0 ∧ afterAttempt q s = nextScan q.round s) ∨
    ((q.left + (2 ^ 64 - 1)) % 2 ^ 64 ≠ 0 ∧
      afterAttempt q s = { s with loop := .candidates { q with left := (q.left + (2 ^ 64 - 1)) % 2 ^ 64 } }) := by
  unfold afterAttempt
  by_cases h : (q.left + (2 ^ 64 - 1)) % 2 ^ 64 = 0
  · exact Or.inl ⟨h, if_pos h⟩
  · exact Or.inr ⟨h, if_neg h⟩

/-- What an attempt changes: only the place of the loop closure thread, and its counter. -/
theorem afterAttempt_frame (q : Search) (s : Sys) :
    ∃ n l, afterAttempt q s = { s with processed := n, loop := l } := by
  rcases afterAttempt_cases q s with ⟨-, e⟩ | ⟨-, e⟩
  · exact ⟨_, _, e⟩
  · exact ⟨s.processed, _, e⟩

theorem configureMapping_frame (a : BitVec 32) (s : Sys) :
    ∃ en ini, configureMapping a s = { s with enable := en, initialized := ini } ∧ (ini = true → s.initialized = true) := by
  unfold configureMapping
  split
  · exact ⟨_, s.initialized, rfl, id⟩
  · split
    · exact ⟨_, _, rfl, by simp⟩
    · exact ⟨s.enable, s.initialized, rfl, id⟩

theorem pubTf_frame (s : Sys) : ∃ t, pubTf s = { s with lastTf := t, pub := .check } := by
  unfold pubTf
  split
  · exact ⟨s.lastTf, rfl⟩
  · exact ⟨_, rfl⟩

/-! ### Scans up to their poses -/

/-- Two lists of scans differ in poses (and cached barycenters) only. -/
def SameButPoses (a b : List Scan) : Prop := a.map (fun s => (s.id, s.points)) = b.map fun s => (s.id, s.points)

theorem SameButPoses.length {a b : List Scan} (h : SameButPoses a b) : a.length = b.length := by
  have := congrArg List.length h
  simpa using this

theorem SameButPoses.get {a b : List Scan} (h : SameButPoses a b) {i : ℕ} {s : Scan} (hs : a[i]? = some s) :
    ∃ t, b[i]? = some t ∧ t.id = s.id ∧ t.points = s.points := by
  have := congrArg (fun l => l[i]?) h
  simp only [List.getElem?_map, hs, Option.map_some] at this
  cases hb : b[i]? with
  | none => rw [hb] at this; simp at this
  | some t =>
    rw [hb] at this
    simp at this
    exact ⟨t, rfl, this.1.symm, this.2.symm⟩

theorem SameButPoses.symm {a b : List Scan} (h : SameButPoses a b) : SameButPoses b a := Eq.symm h

theorem setPoseAt_same (heap : ℕ → List Scan) (a : Ptr) (pose : Pose2d) (e : ℕ) :
    SameButPoses (setPoseAt heap a pose e) (heap e) := by
  unfold setPoseAt SameButPoses
  split
  · apply List.ext_getElem?
    intro i
    rw [List.getElem?_map, List.getElem?_map, List.getElem?_modify]
    cases (heap e)[i]? with
    | none => rfl
    | some x =>
      simp only [Option.map_some]
      split <;> rfl
  · rfl

theorem writeBack_same (s : Solver) (scans : List Scan) : SameButPoses (s.writeBack scans) scans := by
  unfold Solver.writeBack SameButPoses
  rw [List.map_map]
  apply List.map_congr_left
  intro x _
  simp only [Function.comp]
  split <;> rfl

theorem optimize_same {ceres : Solver → Solver.Outcome} {s s' : Solver} {cs : List Constraint} {scans scans' : List Scan}
    {b : Bool} (h : s.optimize ceres cs scans = .ok (b, s', scans')) : SameButPoses scans' scans := by
  unfold Solver.optimize at h
  split at h
  · cases h; rfl
  · obtain ⟨s1, -, h⟩ := bind_ok h
    simp only at h
    split at h
    · cases h; exact writeBack_same _ _
    · cases h; rfl

theorem ids_same {a b : List Scan} (h : SameButPoses a b) (hb : IdsAreIndices b) : IdsAreIndices a := by
  intro i s hs
  obtain ⟨t, ht, e, -⟩ := h.get hs
  rw [← e]; exact hb i t ht

theorem ids_append {a : List Scan} {s : Scan} (ha : IdsAreIndices a) (hs : s.id = a.length) : IdsAreIndices (a ++ [s]) := by
  intro i t ht
  rcases lt_or_ge i a.length with h | h
  · rw [List.getElem?_append_left h] at ht
    exact ha i t ht
  · rw [List.getElem?_append_right h] at ht
    by_cases h0 : i - a.length = 0
    · rw [h0] at ht
      simp at ht
      rw [← ht, hs]; omega
    · rw [List.getElem?_eq_none (by simp; omega)] at ht
      cases ht

end

end Ndt
