import Verif.Proof.Exec
import Verif.Props.GraphProps

/-! # The scans of the mapper are built by calls -/

namespace Ndt

noncomputable section

open Spec Mapper

theorem Spec.BuiltByCalls.op {s : Scan} (h : BuiltByCalls s) (op : ScanOp) : BuiltByCalls (s.step op).1 := by
  obtain ⟨id, ops, rfl⟩ := h
  exact ⟨id, ops ++ [op], by rw [List.foldl_append]; rfl⟩

theorem Spec.BuiltByCalls.setPose {s : Scan} (h : BuiltByCalls s) (p : Pose2d) : BuiltByCalls (s.setPose p) :=
  h.op (.setPose p)

theorem Spec.BuiltByCalls.setPoints {s : Scan} (h : BuiltByCalls s) (ps : List Point) : BuiltByCalls (s.setPoints ps) :=
  h.op (.setPoints ps)

theorem Spec.BuiltByCalls.new (id : ℕ) : BuiltByCalls (Scan.new id) := ⟨id, [], rfl⟩

theorem built_load {use : Bool} {bag : List BagMsg} {g : Graph} (h : Graph.load use bag = .ok g) :
    ∀ s ∈ g.scans, BuiltByCalls s := by
  suffices H : ∀ (bag : List BagMsg) (g0 g : Graph), bag.foldlM Graph.loadMsg g0 = .ok g →
      (∀ s ∈ g0.scans, BuiltByCalls s) → ∀ s ∈ g.scans, BuiltByCalls s from
    H bag _ g h (by simp [Graph.new])
  intro bag
  induction bag with
  | nil => intro g0 g h h0; cases h; exact h0
  | cons m bag ih =>
    intro g0 g h h0
    rw [List.foldlM_cons] at h
    obtain ⟨g1, h1, h⟩ := bind_ok h
    refine ih g1 g h ?_
    unfold Graph.loadMsg at h1
    split at h1
    · split at h1
      · injection h1 with h1
        rw [← h1]
        intro s hs
        rcases List.mem_append.mp hs with hs | hs
        · exact h0 s hs
        · rw [List.mem_singleton.mp hs]
          exact ((BuiltByCalls.new _).setPose _).setPoints _
      · cases h1
    · split at h1
      · injection h1 with h1
        rw [← h1]; exact h0
      · cases h1

/-- The scan a callback works on. -/
def Spin.scan? : Spin → Option Scan
  | .filter s _ | .window s _ | .matching s _ | .constraint _ s _ | .append s _ | .localise s _ => some s
  | _ => none

/-- All scans were made by calls of `Scan`. -/
def AllBuilt (s : Sys) : Prop := (∀ e, ∀ x ∈ s.heap e, BuiltByCalls x) ∧ ∀ x, s.spin.scan? = some x → BuiltByCalls x

theorem built_branch {p : Params} {s : Sys} {scan : Scan} {odom : Pose2d} (h : BuiltByCalls scan) :
    ∀ x, (branch p s scan odom).scan? = some x → BuiltByCalls x := by
  intro x hx
  unfold branch at hx
  split at hx
  · cases hx; exact h
  · split at hx
    · split at hx <;> (cases hx; exact h)
    · cases hx; exact h

theorem built_step {p : Params} {s s' : Sys} {e : Event} (h : AllBuilt s) (ht : Trans p s e s') : AllBuilt s' := by
  have add : ∀ {x : Scan}, BuiltByCalls x → ∀ e, ∀ y ∈ (if e = s.epoch then s.scans ++ [x] else s.heap e),
      BuiltByCalls y := by
    intro x hx e y hy
    split at hy
    · rcases List.mem_append.mp hy with hy | hy
      · exact h.1 _ y hy
      · rw [List.mem_singleton.mp hy]; exact hx
    · exact h.1 _ y hy
  cases ht with
  | laserIgnored msg mount odom odomEnd hi =>
    obtain ⟨r, l, g, m, e, -⟩ := setup_cases p msg mount s
    rw [e]; exact h
  | laserScan msg mount odom odomEnd points hi hgo hinit ht =>
    obtain ⟨r, l, g, m, e, -⟩ := setup_cases p msg mount s
    rw [e]
    exact ⟨h.1, built_branch (((BuiltByCalls.new _).setPose _).setPoints _)⟩
  | localMatched score correction cov scan back odom hi hb =>
    refine ⟨h.1, fun x hx => ?_⟩
    cases hx
    exact (h.2 scan (by rw [hi]; rfl)).setPose _
  | addWindow scan odom w hi hl hw =>
    refine ⟨h.1, fun x hx => ?_⟩
    cases hx
    exact h.2 scan (by rw [hi]; rfl)
  | pushConstraint c scan odom hi =>
    refine ⟨h.1, fun x hx => ?_⟩
    cases hx
    exact h.2 scan (by rw [hi]; rfl)
  | pushScan scan odom hi => exact ⟨add (h.2 scan (by rw [hi]; rfl)), fun x hx => by cases hx⟩
  | poseScan m odom visit near i rest hi he hn hf hnear hv hfind =>
    exact ⟨add ((BuiltByCalls.new _).setPose _), fun x hx => by cases hx⟩
  | configureFlags action bag hi hl =>
    obtain ⟨en, ini, e, -⟩ := configureMapping_frame action s
    rw [e]; exact h
  | load action bag g hi hl hg =>
    obtain ⟨en, ini, e, -⟩ := configureMapping_frame action s
    rw [e]
    refine ⟨fun e x hx => ?_, h.2⟩
    dsimp only at hx
    split at hx
    · exact built_load hg x hx
    · exact h.1 _ x hx
  | loopNext q hi hr => exact h
  | loopAccept score correction cov q cand scan candidate hi hf hs h1 h2 =>
    refine ⟨fun e x hx => ?_, h.2⟩
    dsimp only [setPoseAt] at hx
    split at hx
    · rw [List.mem_iff_getElem?] at hx
      obtain ⟨i, hi⟩ := hx
      rw [List.getElem?_modify] at hi
      cases hy : (s.heap e)[i]? with
      | none => rw [hy] at hi; cases hi
      | some y =>
        have hb := h.1 e y (List.mem_of_getElem? hy)
        rw [hy] at hi
        simp only [Option.map_eq_map, Option.map_some, Option.some.injEq] at hi
        rw [← hi]
        split
        · exact hb.setPose _
        · exact hb
    · exact h.1 _ x hx
  | loopReject score correction cov q cand hi hs =>
    obtain ⟨l, pr, e⟩ := afterAttempt_frame q s
    rw [e]; exact h
  | loopPush q c hi =>
    obtain ⟨l, pr, e⟩ := afterAttempt_frame q { s with constraints := s.constraints ++ [c], update := true }
    rw [e]; exact h
  | loopOptimise ceres b solver scans hi ho =>
    refine ⟨fun e x hx => ?_, h.2⟩
    dsimp only at hx
    split at hx
    · have key : scans = s.scans ∨ ∃ sv : Solver, scans = sv.writeBack s.scans := by
        unfold Solver.optimize at ho
        split at ho
        · rename_i he
          cases ho; exact Or.inl he.symm
        · obtain ⟨sv, -, ho⟩ := bind_ok ho
          simp only at ho
          split at ho
          · cases ho; exact Or.inr ⟨_, rfl⟩
          · cases ho; exact Or.inl rfl
      rcases key with key | ⟨sv, key⟩
      · rw [key] at hx; exact h.1 _ x hx
      · rw [key] at hx
        unfold Solver.writeBack at hx
        obtain ⟨y, hy, rfl⟩ := List.mem_map.mp hx
        have hb := h.1 s.epoch y hy
        split
        · exact hb.setPose _
        · exact hb
    · exact h.1 _ x hx
  | pubTf hi =>
    obtain ⟨x, e⟩ := pubTf_frame s
    rw [e]; exact h
  | _ => first
    | exact h
    | exact ⟨h.1, fun x hx => by cases hx⟩

theorem built_start {p : Params} {enable : Bool} {file : Option (List BagMsg)} {s : Sys}
    (h : Mapper.start p enable file = .ok s) : AllBuilt s := by
  obtain ⟨loaded, g, rfl, hg⟩ : ∃ loaded g, s = startWith p enable loaded g ∧ ∀ x ∈ g.scans, BuiltByCalls x := by
    unfold Mapper.start at h
    split at h
    · cases h; exact ⟨_, _, rfl, by simp [Graph.new]⟩
    · obtain ⟨g, hg, h⟩ := bind_ok h
      cases h; exact ⟨_, _, rfl, built_load hg⟩
  refine ⟨fun e x hx => ?_, fun x hx => by cases hx⟩
  dsimp only [startWith] at hx
  split at hx
  · exact hg x hx
  · simp at hx

theorem built_reach {p : Params} {W : Graph → Prop} {A : Sys → Event → Prop} {s : Sys} (h : Reach p W A s) : AllBuilt s := by
  obtain ⟨enable, file, s0, es, h0, -, hex⟩ := h
  induction hex with
  | nil => exact built_start h0
  | snoc _ _ hst ih => exact built_step ih (step_trans hst)

end

end Ndt
