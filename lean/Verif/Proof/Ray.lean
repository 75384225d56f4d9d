import Verif.Model.OccupancyGrid
import Mathlib.Tactic.Linarith
import Mathlib.Tactic.Ring
import Mathlib.Tactic.LinearCombination

/-! # The ray loop in offsets from the start -/

namespace Ndt.OccGrid

noncomputable section

/-- The loop body in terms of the number of steps taken along x and y. -/
def nstep (a b i j : ℤ) : Option (ℤ × ℤ) :=
  let i' := if b * (2 * i + 1) ≤ 2 * a * (1 + j) then i + 1 else i
  if a * (2 * j + 1) ≤ 2 * b * (1 + i') then (if j = b then none else some (i', j + 1)) else some (i', j)

/-- The loop in terms of steps. -/
def nloop (a b : ℤ) : ℕ → ℤ → ℤ → Option (List GCell × GCell)
  | 0, _, _ => none
  | n + 1, i, j =>
      if i = a ∧ j = b then some ([], (i, j))
      else match nstep a b i j with
        | none => some ([(i, j)], (i, j))
        | some s => (nloop a b n s.1 s.2).map fun q => ((i, j) :: q.1, q.2)

namespace Ray

variable (r : Ray)

/-- The cell reached by `i` steps along x and `j` along y. -/
def cell (c : GCell) : GCell := (r.startX + r.sx * c.1, r.startY + r.sy * c.2)

/-- The loop state after `i` and `j` steps. -/
def st (i j : ℤ) : RayState :=
  ⟨r.startX + r.sx * i, r.startY + r.sy * j, r.dx * (1 + j) - (-r.dy) * (1 + i)⟩

theorem sx_ne : r.sx ≠ 0 := by unfold sx; split <;> decide
theorem sy_ne : r.sy ≠ 0 := by unfold sy; split <;> decide
theorem dx_nonneg : 0 ≤ r.dx := abs_nonneg _
theorem dy_nonneg : 0 ≤ -r.dy := by unfold dy; rw [neg_neg]; exact abs_nonneg _

theorem endX_eq : r.endX = r.startX + r.sx * r.dx := by
  unfold sx dx
  split
  · rw [abs_of_pos (by omega)]; ring
  · rw [abs_of_nonpos (by omega)]; ring

theorem endY_eq : r.endY = r.startY + r.sy * -r.dy := by
  unfold sy dy
  rw [neg_neg]
  split
  · rw [abs_of_pos (by omega)]; ring
  · rw [abs_of_nonpos (by omega)]; ring

theorem x_eq_iff (i : ℤ) : r.startX + r.sx * i = r.endX ↔ i = r.dx := by
  rw [endX_eq]
  constructor
  · intro h
    exact mul_left_cancel₀ r.sx_ne (by linarith)
  · rintro rfl; rfl

theorem y_eq_iff (j : ℤ) : r.startY + r.sy * j = r.endY ↔ j = -r.dy := by
  rw [endY_eq]
  constructor
  · intro h
    exact mul_left_cancel₀ r.sy_ne (by linarith)
  · rintro rfl; rfl

theorem start_eq : r.start = r.st 0 0 := by
  unfold start st
  simp

end Ray

/-- The inner break on x is never taken. -/
theorem no_x_overrun {a b j : ℤ} (ha : 0 ≤ a) (hj : 0 ≤ j) (hjb : j < b) : ¬ b * (2 * a + 1) ≤ 2 * a * (1 + j) := by
  intro h
  have : 2 * a * (1 + j) ≤ 2 * a * b := mul_le_mul_of_nonneg_left (by omega) (by omega)
  nlinarith

theorem Ray.step_st (r : Ray) {i j : ℤ} (hj0 : 0 ≤ j) (hj : j ≤ -r.dy)
    (hne : ¬ (i = r.dx ∧ j = -r.dy)) :
    r.step (r.st i j) = (nstep r.dx (-r.dy) i j).map fun s => r.st s.1 s.2 := by
  have e1 : (2 * (r.st i j).error ≥ r.dy) ↔ -r.dy * (2 * i + 1) ≤ 2 * r.dx * (1 + j) := by
    unfold st
    simp only
    constructor <;> intro h <;> nlinarith
  have ha := r.dx_nonneg
  have hy : (r.st i j).y = r.endY ↔ j = -r.dy := r.y_eq_iff j
  unfold step nstep
  by_cases h1 : -r.dy * (2 * i + 1) ≤ 2 * r.dx * (1 + j)
  · have hx : ¬ (r.st i j).x = r.endX := by
      intro hx
      have hia : i = r.dx := (r.x_eq_iff i).mp hx
      subst hia
      rcases lt_or_eq_of_le hj with hlt | heq
      · exact no_x_overrun ha hj0 hlt h1
      · exact hne ⟨rfl, heq⟩
    rw [if_pos (e1.mpr h1), if_neg hx]
    simp only [if_pos h1]
    have e2 : ({ r.st i j with error := (r.st i j).error + r.dy, x := (r.st i j).x + r.sx } : RayState) =
        r.st (i + 1) j := by
      unfold st
      simp only [RayState.mk.injEq]
      refine ⟨by ring, trivial, by ring⟩
    show (if 2 * ((r.st i j).error + r.dy) ≤ r.dx then _ else _) = _
    have e3 : (2 * ((r.st i j).error + r.dy) ≤ r.dx) ↔ r.dx * (2 * j + 1) ≤ 2 * -r.dy * (1 + (i + 1)) := by
      unfold st
      simp only
      constructor <;> intro h <;> nlinarith
    by_cases h2 : r.dx * (2 * j + 1) ≤ 2 * -r.dy * (1 + (i + 1))
    · rw [if_pos (e3.mpr h2), if_pos h2]
      by_cases h3 : j = -r.dy
      · have h4 : (r.st i j).y = r.endY := hy.mpr h3
        simp only [h4, ↓reduceIte]
        rw [if_pos h3]
        rfl
      · have h4 : ¬ (r.st i j).y = r.endY := fun h => h3 (hy.mp h)
        simp only [h4, h3, ↓reduceIte]
        simp only [Option.map_some, Option.some.injEq, st, RayState.mk.injEq]
        refine ⟨by ring, by ring, by ring⟩
    · rw [if_neg (fun h => h2 (e3.mp h)), if_neg h2]
      simp only [Option.map_some, Option.some.injEq]
      exact e2
  · rw [if_neg (fun h => h1 (e1.mp h))]
    simp only [if_neg h1]
    show (if 2 * (r.st i j).error ≤ r.dx then _ else _) = _
    have e3 : (2 * (r.st i j).error ≤ r.dx) ↔ r.dx * (2 * j + 1) ≤ 2 * -r.dy * (1 + i) := by
      unfold st
      simp only
      constructor <;> intro h <;> nlinarith
    by_cases h2 : r.dx * (2 * j + 1) ≤ 2 * -r.dy * (1 + i)
    · rw [if_pos (e3.mpr h2), if_pos h2]
      by_cases h3 : j = -r.dy
      · have h4 : (r.st i j).y = r.endY := hy.mpr h3
        simp only [h4, ↓reduceIte]
        rw [if_pos h3]
        rfl
      · have h4 : ¬ (r.st i j).y = r.endY := fun h => h3 (hy.mp h)
        simp only [h4, h3, ↓reduceIte]
        simp only [Option.map_some, Option.some.injEq, st, RayState.mk.injEq]
        refine ⟨trivial, by ring, by ring⟩
    · rw [if_neg (fun h => h2 (e3.mp h)), if_neg h2]
      rfl

/-- One step: along x, along y, or both, and never beyond the end; or the inner break on y, next to the end. -/
theorem nstep_some {a b i j : ℤ} (ha : 0 ≤ a) (hb : 0 ≤ b) (hi : i ≤ a) (hj0 : 0 ≤ j) (hj : j ≤ b)
    (hne : ¬ (i = a ∧ j = b)) {s : ℤ × ℤ} (h : nstep a b i j = some s) :
    (s = (i + 1, j) ∨ s = (i, j + 1) ∨ s = (i + 1, j + 1)) ∧ s.1 ≤ a ∧ s.2 ≤ b := by
  unfold nstep at h
  by_cases h1 : b * (2 * i + 1) ≤ 2 * a * (1 + j)
  · simp only [if_pos h1] at h
    have hia : i < a := by
      rcases lt_or_eq_of_le hi with h | h
      · exact h
      · subst h
        rcases lt_or_eq_of_le hj with hlt | heq
        · exact absurd h1 (no_x_overrun ha hj0 hlt)
        · exact absurd ⟨rfl, heq⟩ hne
    split at h
    · split at h
      · cases h
      · injection h with h
        subst h
        exact ⟨Or.inr (Or.inr rfl), by simp; omega, by simp; omega⟩
    · injection h with h
      subst h
      exact ⟨Or.inl rfl, by simp; omega, hj⟩
  · simp only [if_neg h1] at h
    split at h
    · split at h
      · cases h
      · injection h with h
        subst h
        exact ⟨Or.inr (Or.inl rfl), hi, by simp; omega⟩
    · rename_i h2
      exfalso
      push Not at h1 h2
      nlinarith

theorem nstep_none {a b i j : ℤ} (ha : 0 ≤ a) (hb : 0 ≤ b) (hi0 : 0 ≤ i) (hi : i ≤ a) (hj : j ≤ b)
    (hne : ¬ (i = a ∧ j = b)) (h : nstep a b i j = none) : i = a - 1 ∧ j = b ∧ a ≤ 2 * b := by
  unfold nstep at h
  have hjb : j = b ∧ ∃ i', (i' = i ∨ i' = i + 1) ∧ (i' = i → ¬ b * (2 * i + 1) ≤ 2 * a * (1 + j)) ∧
      a * (2 * j + 1) ≤ 2 * b * (1 + i') := by
    by_cases h1 : b * (2 * i + 1) ≤ 2 * a * (1 + j)
    · simp only [if_pos h1] at h
      split at h
      · rename_i h2
        split at h
        · rename_i h3
          exact ⟨h3, i + 1, Or.inr rfl, fun hc => by omega, h2⟩
        · cases h
      · cases h
    · simp only [if_neg h1] at h
      split at h
      · rename_i h2
        split at h
        · rename_i h3
          exact ⟨h3, i, Or.inl rfl, fun _ => h1, h2⟩
        · cases h
      · cases h
  obtain ⟨rfl, i', hi', hx, hy⟩ := hjb
  have hia : i < a := by
    rcases lt_or_eq_of_le hi with h | h
    · exact h
    · exact absurd ⟨h, rfl⟩ hne
  rcases hi' with rfl | rfl
  · exfalso
    apply hx rfl
    have : j * (2 * i' + 1) ≤ j * (2 * a) := mul_le_mul_of_nonneg_left (by omega) hb
    nlinarith
  · have : i = a - 1 := by
      by_contra hc
      have : i + 2 ≤ a := by omega
      have : j * (i + 2) ≤ j * a := mul_le_mul_of_nonneg_left this hb
      nlinarith
    subst this
    exact ⟨rfl, rfl, by nlinarith⟩

theorem Ray.loop_st (r : Ray) (n : ℕ) : ∀ (i j : ℤ), 0 ≤ i → i ≤ r.dx → 0 ≤ j → j ≤ -r.dy →
    r.loop n (r.st i j) = (nloop r.dx (-r.dy) n i j).map fun q => (q.1.map r.cell, r.cell q.2) := by
  induction n with
  | zero => intros; rfl
  | succ n ih =>
    intro i j hi0 hi hj0 hj
    unfold loop nloop
    by_cases hend : i = r.dx ∧ j = -r.dy
    · rw [if_pos ⟨(r.x_eq_iff i).mpr hend.1, (r.y_eq_iff j).mpr hend.2⟩, if_pos hend]
      rfl
    · rw [if_neg (fun h => hend ⟨(r.x_eq_iff i).mp h.1, (r.y_eq_iff j).mp h.2⟩), if_neg hend]
      rw [r.step_st hj0 hj hend]
      cases hs : nstep r.dx (-r.dy) i j with
      | none => rfl
      | some s =>
        obtain ⟨h1, h2, h3⟩ := nstep_some r.dx_nonneg r.dy_nonneg hi hj0 hj hend hs
        have h01 : 0 ≤ s.1 ∧ 0 ≤ s.2 := by
          rcases h1 with rfl | rfl | rfl <;> simp <;> omega
        simp only [Option.map_some]
        rw [ih s.1 s.2 h01.1 h2 h01.2 h3]
        cases nloop r.dx (-r.dy) n s.1 s.2 with
        | none => rfl
        | some q => rfl

/-- One step of a monotone staircase: right, up, or both. -/
def Stair (p q : GCell) : Prop := q = (p.1 + 1, p.2) ∨ q = (p.1, p.2 + 1) ∨ q = (p.1 + 1, p.2 + 1)

/-- The loop ends and walks a monotone staircase; the cells visited are those counted empty and, unless the loop was
left by the inner break, the end. -/
theorem nloop_path {a b : ℤ} (ha : 0 ≤ a) (hb : 0 ≤ b) (n : ℕ) : ∀ (i j : ℤ), 0 ≤ i → i ≤ a → 0 ≤ j → j ≤ b →
    (a - i) + (b - j) < n →
    ∃ es h, nloop a b n i j = some (es, h) ∧
      ((h = (a, b) ∧ List.IsChain Stair (es ++ [h]) ∧ (es ++ [h]).head? = some (i, j) ∧
          ∀ c ∈ es ++ [h], c.1 ≤ a ∧ c.2 ≤ b) ∨
       (h = (a - 1, b) ∧ a ≤ 2 * b ∧ List.IsChain Stair es ∧ es.head? = some (i, j) ∧ es.getLast? = some h ∧
          ∀ c ∈ es, c.1 ≤ a ∧ c.2 ≤ b)) := by
  induction n with
  | zero => intro i j _ _ _ _ hn; simp at hn; omega
  | succ n ih =>
    intro i j hi0 hi hj0 hj hn
    unfold nloop
    by_cases hend : i = a ∧ j = b
    · rw [if_pos hend]
      obtain ⟨rfl, rfl⟩ := hend
      exact ⟨[], (i, j), rfl, Or.inl ⟨rfl, by simp, rfl, by simp⟩⟩
    · rw [if_neg hend]
      cases hs : nstep a b i j with
      | none =>
        obtain ⟨h1, h2, h3⟩ := nstep_none ha hb hi0 hi hj hend hs
        refine ⟨[(i, j)], (i, j), rfl, Or.inr ⟨by rw [h1, h2], h3, by simp, rfl, rfl, ?_⟩⟩
        intro c hc
        simp at hc
        subst hc
        exact ⟨hi, hj⟩
      | some s =>
        obtain ⟨h1, h2, h3⟩ := nstep_some ha hb hi hj0 hj hend hs
        have h01 : 0 ≤ s.1 ∧ 0 ≤ s.2 ∧ i + j + 1 ≤ s.1 + s.2 := by
          rcases h1 with rfl | rfl | rfl <;> simp <;> omega
        obtain ⟨es, h, e, hcase⟩ := ih s.1 s.2 h01.1 h2 h01.2.1 h3 (by push_cast at hn; omega)
        refine ⟨(i, j) :: es, h, by simp only [e, Option.map_some], ?_⟩
        have hst : Stair (i, j) s := h1
        rcases hcase with ⟨g1, g2, g3, g4⟩ | ⟨g1, g2, g3, g4, g5, g6⟩
        · left
          refine ⟨g1, ?_, rfl, ?_⟩
          · rw [List.cons_append, List.isChain_cons]
            exact ⟨fun y hy => by rw [g3] at hy; cases hy; exact hst, g2⟩
          · intro c hc
            rw [List.cons_append] at hc
            rcases List.mem_cons.mp hc with rfl | hc
            · exact ⟨hi, hj⟩
            · exact g4 c hc
        · right
          refine ⟨g1, g2, ?_, rfl, ?_, ?_⟩
          · rw [List.isChain_cons]
            exact ⟨fun y hy => by rw [g4] at hy; cases hy; exact hst, g3⟩
          · cases es with
            | nil => simp at g4
            | cons x es => rw [List.getLast?_cons_cons]; exact g5
          · intro c hc
            rcases List.mem_cons.mp hc with rfl | hc
            · exact ⟨hi, hj⟩
            · exact g6 c hc

/-- On a flat-or-steep ray (|dx| ≤ |dy|) the hit is the end. -/
theorem nloop_hit_steep {a b : ℤ} (ha : 0 ≤ a) (hab : a ≤ b) (n : ℕ) : ∀ (i j : ℤ), 0 ≤ i → i ≤ a → 0 ≤ j → j ≤ b →
    2 * a * j ≤ b * (2 * i + 1) → ∀ q, nloop a b n i j = some q → q.2 = (a, b) := by
  induction n with
  | zero => intro i j _ _ _ _ _ q h; cases h
  | succ n ih =>
    intro i j hi0 hi hj0 hj hinv q h
    have hb : 0 ≤ b := ha.trans hab
    unfold nloop at h
    by_cases hend : i = a ∧ j = b
    · rw [if_pos hend] at h
      injection h with h
      subst h
      rw [hend.1, hend.2]
    · rw [if_neg hend] at h
      cases hs : nstep a b i j with
      | none =>
        obtain ⟨h1, h2, h3⟩ := nstep_none ha hb hi0 hi hj hend hs
        exfalso
        subst h1 h2
        have hb0 : 0 < j := by omega
        nlinarith
      | some s =>
        rw [hs] at h
        obtain ⟨h1, h2, h3⟩ := nstep_some ha hb hi hj0 hj hend hs
        have h01 : 0 ≤ s.1 ∧ 0 ≤ s.2 := by
          rcases h1 with rfl | rfl | rfl <;> simp <;> omega
        simp only at h
        cases hn : nloop a b n s.1 s.2 with
        | none => rw [hn] at h; cases h
        | some q' =>
          rw [hn] at h
          injection h with h
          rw [← h]
          refine ih s.1 s.2 h01.1 h2 h01.2 h3 ?_ q' hn
          -- the invariant
          unfold nstep at hs
          by_cases hx : b * (2 * i + 1) ≤ 2 * a * (1 + j)
          · simp only [if_pos hx] at hs
            split at hs
            · split at hs
              · cases hs
              · injection hs with hs
                rw [← hs]
                simp only
                nlinarith
            · injection hs with hs
              rw [← hs]
              simp only
              nlinarith
          · simp only [if_neg hx] at hs
            push Not at hx
            split at hs
            · split at hs
              · cases hs
              · injection hs with hs
                rw [← hs]
                simp only
                nlinarith
            · injection hs with hs
              rw [← hs]
              simp only
              nlinarith

/-- On a shallow ray (|dy| < |dx|) the hit is the end, or the cell before it if |dx| ≤ 2 |dy|. -/
theorem nloop_hit_shallow {a b : ℤ} (hb : 0 ≤ b) (hab : b < a) (n : ℕ) : ∀ (i j : ℤ), 0 ≤ i → i ≤ a → 0 ≤ j → j ≤ b →
    (i = a → j = b ∧ 2 * b < a) → (j = i ∨ 2 * b * (i + 1) < a * (2 * j + 1)) → ∀ q, nloop a b n i j = some q →
    q.2 = if a ≤ 2 * b then (a - 1, b) else (a, b) := by
  induction n with
  | zero => intro i j _ _ _ _ _ _ q h; cases h
  | succ n ih =>
    intro i j hi0 hi hj0 hj hlast hinv q h
    have ha : 0 ≤ a := by omega
    unfold nloop at h
    by_cases hend : i = a ∧ j = b
    · rw [if_pos hend] at h
      injection h with h
      subst h
      have := (hlast hend.1).2
      rw [if_neg (by omega), hend.1, hend.2]
    · rw [if_neg hend] at h
      have hia : i < a := by
        rcases lt_or_eq_of_le hi with h | h
        · exact h
        · exact absurd ⟨h, (hlast h).1⟩ hend
      cases hs : nstep a b i j with
      | none =>
        obtain ⟨h1, h2, h3⟩ := nstep_none ha hb hi0 hi hj hend hs
        rw [hs] at h
        injection h with h
        rw [← h, if_pos h3, h1, h2]
      | some s =>
        rw [hs] at h
        obtain ⟨h1, h2, h3⟩ := nstep_some ha hb hi hj0 hj hend hs
        have h01 : 0 ≤ s.1 ∧ 0 ≤ s.2 := by
          rcases h1 with rfl | rfl | rfl <;> simp <;> omega
        simp only at h
        cases hn : nloop a b n s.1 s.2 with
        | none => rw [hn] at h; cases h
        | some q' =>
          rw [hn] at h
          injection h with h
          rw [← h]
          simp only
          -- x is stepped every time
          have hx : b * (2 * i + 1) ≤ 2 * a * (1 + j) := by
            rcases hinv with rfl | hinv
            · nlinarith
            · nlinarith
          unfold nstep at hs
          simp only [if_pos hx] at hs
          -- at the last column j = b
          have hj_last : i = a - 1 → j = b := by
            intro hi1
            rcases hinv with hji | hinv
            · omega
            · subst hi1
              by_contra hc
              have : j + 1 ≤ b := by omega
              nlinarith
          refine ih s.1 s.2 h01.1 h2 h01.2 h3 ?_ ?_ q' hn
          · intro hsa
            split at hs
            · rename_i hy
              split at hs
              · cases hs
              · rename_i hjb
                injection hs with hs
                rw [← hs] at hsa
                simp only at hsa
                exact absurd (hj_last (by omega)) hjb
            · rename_i hy
              injection hs with hs
              rw [← hs] at hsa ⊢
              simp only at hsa ⊢
              have hjb := hj_last (by omega)
              refine ⟨hjb, ?_⟩
              subst hjb
              push Not at hy
              have : i = a - 1 := by omega
              subst this
              nlinarith
          · split at hs
            · rename_i hy
              split at hs
              · cases hs
              · injection hs with hs
                rw [← hs]
                simp only
                rcases hinv with hji | hinv
                · left; omega
                · right; nlinarith
            · rename_i hy
              injection hs with hs
              rw [← hs]
              simp only
              right
              push Not at hy
              nlinarith

end

end Ndt.OccGrid
