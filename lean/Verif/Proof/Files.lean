import Verif.Spec.Files
import Verif.Proof.Exec

/-! # Helper lemmas about map files -/

namespace Ndt

noncomputable section

open Spec

theorem Station.request_cases {p : Params} {action : BitVec 32} {name : String} {read : List BagMsg} {w w' : Station}
    (h : Station.request p action name read w = .ok w') :
    (∃ bag, action &&& 4#32 ≠ 0#32 ∧ w.disk name = some bag ∧ Mapper.configure p action bag w.sys = .ok w'.sys ∧
      w'.disk = w.disk) ∨
    (AsksToSave action ∧ w.disk name = none ∧ w'.sys = Mapper.configureMapping action w.sys ∧
      Interleaving read (w'.sys.graph p).save ∧ w'.disk = Station.store w.disk name read) ∨
    (action &&& 4#32 = 0#32 ∧ action &&& 8#32 = 0#32 ∧ w'.sys = Mapper.configureMapping action w.sys ∧ w'.disk = w.disk) ∨
    (AsksToSave action ∧ w.disk name = none ∧ w' = w) := by
  unfold Station.request at h
  by_cases hl : action &&& 4#32 ≠ 0#32
  · rw [if_pos hl] at h
    cases hd : w.disk name with
    | none => rw [hd] at h; cases h
    | some bag =>
      rw [hd] at h
      obtain ⟨s, h1, h2⟩ := Mapper.bind_ok h
      injection h2 with h2
      subst h2
      exact Or.inl ⟨bag, hl, rfl, h1, rfl⟩
  · rw [if_neg hl] at h
    obtain ⟨s, h1, h2⟩ := Mapper.bind_ok h
    have hs : s = Mapper.configureMapping action w.sys := by
      unfold Mapper.configure Mapper.configureFile at h1
      rw [if_neg hl] at h1
      injection h1 with h1
      exact h1.symm
    push Not at hl
    by_cases hv : action &&& 8#32 ≠ 0#32
    · rw [if_pos hv] at h2
      cases hd : w.disk name with
      | some bag => rw [hd] at h2; cases h2
      | none =>
        rw [hd] at h2
        dsimp only at h2
        by_cases hi : Station.Returns read (s.graph p).save
        · rw [if_pos hi] at h2
          injection h2 with h2
          subst h2
          exact Or.inr (Or.inl ⟨⟨hv, hl⟩, rfl, hs, hi, rfl⟩)
        · rw [if_neg hi] at h2
          injection h2 with h2
          exact Or.inr (Or.inr (Or.inr ⟨⟨hv, hl⟩, rfl, h2.symm⟩))
    · rw [if_neg hv] at h2
      injection h2 with h2
      subst h2
      push Not at hv
      exact Or.inr (Or.inr (Or.inl ⟨hl, hv, hs, rfl⟩))

theorem Station.step_disk {p : Params} {w w' : Station} {h : Happening} (hst : Station.step p w h = .ok w') (name : String)
    (bag : List BagMsg) (hd : w.disk name = some bag) : w'.disk name = some bag := by
  cases h with
  | mapper e =>
    cases e <;> first
      | (injection hst with hst; rw [← hst]; exact hd)
      | (obtain ⟨s, -, h2⟩ := Mapper.bind_ok hst
         injection h2 with h2
         rw [← h2]; exact hd)
  | request action n read =>
    unfold Station.step at hst
    dsimp only at hst
    split at hst
    · rcases Station.request_cases hst with ⟨b, -, -, -, e⟩ | ⟨-, hn, -, -, e⟩ | ⟨-, -, -, e⟩ | ⟨-, -, e⟩
      · rw [e]; exact hd
      · rw [e]
        unfold Station.store
        rw [if_neg]
        · exact hd
        · rintro rfl
          rw [hn] at hd; cases hd
      · rw [e]; exact hd
      · rw [e]; exact hd
    · injection hst with hst
      rw [← hst]; exact hd

/-- What saving does: the file holds the map, and the map is as it was. -/
theorem Station.saved {p : Params} {w w' : Station} {action : BitVec 32} {name : String} {read : List BagMsg}
    (hi : w.sys.spin = .idle) (ha : AsksToSave action) (hst : Station.step p w (.request action name read) = .ok w')
    (hr : Interleaving read (w.sys.graph p).save) :
    w'.disk name = some read ∧ w'.sys = Mapper.configureMapping action w.sys ∧ w'.sys.graph p = w.sys.graph p := by
  have hg : (Mapper.configureMapping action w.sys).graph p = w.sys.graph p := by
    obtain ⟨en, ini, e, -⟩ := configureMapping_frame action w.sys
    rw [e]; rfl
  unfold Station.step at hst
  rw [hi] at hst
  unfold Station.request at hst
  dsimp only at hst
  rw [if_neg (by simp [ha.2])] at hst
  have hc : Mapper.configure p action [] w.sys = .ok (Mapper.configureMapping action w.sys) := by
    unfold Mapper.configure Mapper.configureFile
    rw [if_neg (by simp [ha.2])]
  rw [hc, Res.ok_bind, if_pos ha.1] at hst
  cases hd : w.disk name with
  | some bag => rw [hd] at hst; cases hst
  | none =>
    rw [hd] at hst
    dsimp only at hst
    rw [hg, if_pos (show Station.Returns read (w.sys.graph p).save from hr)] at hst
    injection hst with hst
    subst hst
    exact ⟨by simp [Station.store], rfl, hg⟩

/-- What loading does. -/
theorem Station.loaded {p : Params} {w w' : Station} {action : BitVec 32} {name : String} {read : List BagMsg}
    (hi : w.sys.spin = .idle) (ha : action &&& 4#32 ≠ 0#32) (hst : Station.step p w (.request action name read) = .ok w') :
    ∃ bag g, w.disk name = some bag ∧ Graph.load p.useBarycenter bag = .ok g ∧ w'.sys.scans = g.scans ∧
      w'.sys.constraints = g.constraints ∧ w'.sys.update = true ∧ w'.sys.initialized = false := by
  unfold Station.step at hst
  rw [hi] at hst
  rcases Station.request_cases hst with ⟨b, -, hd, hc, -⟩ | ⟨h, -⟩ | ⟨h, -⟩ | ⟨h, -⟩
  · unfold Mapper.configure Mapper.configureFile at hc
    rw [if_pos ha] at hc
    obtain ⟨g, h1, h2⟩ := Mapper.bind_ok hc
    injection h2 with h2
    refine ⟨b, g, hd, h1, ?_, ?_, ?_, ?_⟩ <;> rw [← h2]
    simp [Sys.scans]
  · exact absurd h.2 ha
  · exact absurd h ha
  · exact absurd h.2 ha

/-- A step with files is a step of the mapper, or none. -/
theorem Station.refines_step {p : Params} {w w' : Station} {h : Happening} (hst : Station.step p w h = .ok w') :
    w'.sys = w.sys ∨ ∃ e, Mapper.step p w.sys e = .ok w'.sys ∧ (∀ action bag, e = .configure action bag →
      action &&& 4#32 ≠ 0#32 → ∃ name, w.disk name = some bag) := by
  cases h with
  | mapper e =>
    cases e with
    | configure action bag =>
      injection hst with hst
      rw [← hst]; exact Or.inl rfl
    | _ =>
      obtain ⟨s, h1, h2⟩ := Mapper.bind_ok hst
      injection h2 with h2
      rw [← h2]
      exact Or.inr ⟨_, h1, fun action bag he => by cases he⟩
  | request action n read =>
    unfold Station.step at hst
    dsimp only at hst
    cases hi : w.sys.spin with
    | idle =>
      rw [hi] at hst
      rcases Station.request_cases hst with ⟨b, -, hd, hc, -⟩ | ⟨ha, -, e, -⟩ | ⟨ha, -, e, -⟩ | ⟨-, -, e⟩
      · refine Or.inr ⟨.configure action b, ?_, ?_⟩
        · unfold Mapper.step; rw [hi]; exact hc
        · rintro _ _ he -
          cases he
          exact ⟨n, hd⟩
      · refine Or.inr ⟨.configure action [], ?_, ?_⟩
        · unfold Mapper.step; rw [hi]
          dsimp only
          unfold Mapper.configure Mapper.configureFile
          rw [if_neg (by simp [ha.2]), e]
        · rintro _ _ he hl
          cases he
          exact absurd ha.2 hl
      · refine Or.inr ⟨.configure action [], ?_, ?_⟩
        · unfold Mapper.step; rw [hi]
          dsimp only
          unfold Mapper.configure Mapper.configureFile
          rw [if_neg (by simp [ha]), e]
        · rintro _ _ he hl
          cases he
          exact absurd ha hl
      · rw [e]; exact Or.inl rfl
    | _ =>
      rw [hi] at hst
      injection hst with hst
      rw [← hst]; exact Or.inl rfl

theorem typed_loads {bag : List BagMsg} (h : TypedBag bag) : ∀ g : Graph, ∃ g', bag.foldlM Graph.loadMsg g = .ok g' := by
  induction bag with
  | nil => exact fun g => ⟨g, rfl⟩
  | cons m ms ih =>
    intro g
    obtain ⟨h1, h2⟩ := h m (by simp)
    have h' : TypedBag ms := fun m hm => h m (by simp [hm])
    rw [List.foldlM_cons]
    unfold Graph.loadMsg
    by_cases ht : m.topic = "scans"
    · obtain ⟨s, e⟩ := h1 ht
      rw [if_pos ht, e]
      exact ih h' _
    · obtain ⟨c, e⟩ := h2 ht
      rw [if_neg ht, e]
      exact ih h' _

end

end Ndt
