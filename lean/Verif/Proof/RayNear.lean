import Verif.Proof.OccupancyGrid
import Verif.Spec.RayNear

/-! # How far the cells of a ray are from the line -/

namespace Ndt.OccGrid

noncomputable section

open Spec

/-- Any property of the steps that the loop keeps holds for all the cells it counts. -/
theorem nloop_inv {a b : ℤ} {P : ℤ → ℤ → Prop}
    (hP : ∀ i j s, P i j → ¬ (i = a ∧ j = b) → nstep a b i j = some s → P s.1 s.2) (n : ℕ) :
    ∀ i j q, P i j → nloop a b n i j = some q → ∀ c ∈ q.1 ++ [q.2], P c.1 c.2 := by
  induction n with
  | zero => intro i j q _ h; cases h
  | succ n ih =>
    intro i j q hij h c hc
    unfold nloop at h
    split at h
    · cases h
      simp only [List.nil_append, List.mem_singleton] at hc
      subst hc; exact hij
    · rename_i hne
      cases hs : nstep a b i j with
      | none =>
        rw [hs] at h
        cases h
        simp only [List.cons_append, List.nil_append, List.mem_cons, List.not_mem_nil, or_false, or_self] at hc
        subst hc; exact hij
      | some s =>
        rw [hs] at h
        simp only [Option.map_eq_some_iff] at h
        obtain ⟨q', hq', rfl⟩ := h
        simp only [List.cons_append, List.mem_cons] at hc
        rcases hc with rfl | hc
        · exact hij
        · exact ih _ _ q' (hP i j s hij hne hs) hq' c hc

/-- Steps of a steep ray. -/
theorem nstep_steep {a b : ℤ} (ha : 0 ≤ a) (hab : a ≤ b) (i j : ℤ) (s : ℤ × ℤ)
    (h : -b ≤ 2 * (a * j - b * i) ∧ 2 * (a * j - b * i) ≤ b) (hs : nstep a b i j = some s) :
    -b ≤ 2 * (a * s.2 - b * s.1) ∧ 2 * (a * s.2 - b * s.1) ≤ b := by
  unfold nstep at hs
  simp only at hs
  by_cases hx : b * (2 * i + 1) ≤ 2 * a * (1 + j)
  · rw [if_pos hx] at hs
    split at hs
    · split at hs
      · cases hs
      · cases hs
        simp only
        constructor <;> nlinarith
    · rename_i hy
      cases hs
      simp only
      exfalso; apply hy; nlinarith
  · rw [if_neg hx] at hs
    split at hs
    · split at hs
      · cases hs
      · cases hs
        simp only
        constructor <;> nlinarith
    · rename_i hy
      exfalso; apply hy; nlinarith

/-- Steps of a flat ray. -/
theorem nstep_flat {a b : ℤ} (hb : 0 ≤ b) (hab : b < a) (i j : ℤ) (s : ℤ × ℤ)
    (h : -a ≤ 2 * (a * j - b * i) ∧ 2 * (a * j - b * i) ≤ a + 2 * b) (hs : nstep a b i j = some s) :
    -a ≤ 2 * (a * s.2 - b * s.1) ∧ 2 * (a * s.2 - b * s.1) ≤ a + 2 * b := by
  unfold nstep at hs
  simp only at hs
  have hx : b * (2 * i + 1) ≤ 2 * a * (1 + j) := by nlinarith
  rw [if_pos hx] at hs
  split at hs
  · split at hs
    · cases hs
    · cases hs
      simp only
      constructor <;> nlinarith
  · rename_i hy
    cases hs
    simp only
    constructor <;> nlinarith

/-- The steps that lead to the cells counted by a ray. -/
theorem traced_steps {s e : GCell} {t : List GCell × GCell} (ht : Traced s e t) {P : ℤ → ℤ → Prop} (h0 : P 0 0)
    (hP : ∀ i j q, P i j → nstep |e.1 - s.1| |e.2 - s.2| i j = some q → P q.1 q.2) :
    ∀ c ∈ t.1 ++ [t.2], ∃ i j, (0 ≤ i ∧ i ≤ |e.1 - s.1|) ∧ (0 ≤ j ∧ j ≤ |e.2 - s.2|) ∧ P i j ∧
      c = (Ray.mk s.1 s.2 e.1 e.2).cell (i, j) := by
  obtain ⟨n, h⟩ := ht
  have hdx : (Ray.mk s.1 s.2 e.1 e.2).dx = |e.1 - s.1| := rfl
  have hdy : -(Ray.mk s.1 s.2 e.1 e.2).dy = |e.2 - s.2| := by unfold Ray.dy; simp
  rw [Ray.start_eq, Ray.loop_st _ _ 0 0 le_rfl (Ray.dx_nonneg _) le_rfl (Ray.dy_nonneg _), hdx, hdy,
    Option.map_eq_some_iff] at h
  obtain ⟨q, hq, rfl⟩ := h
  intro c hc
  have hc' : c ∈ (q.1 ++ [q.2]).map (Ray.mk s.1 s.2 e.1 e.2).cell := by simpa using hc
  obtain ⟨k, hk, rfl⟩ := List.mem_map.mp hc'
  obtain ⟨⟨h1, h2⟩, ⟨h3, h4⟩, h5⟩ := nloop_inv (P := fun i j => (0 ≤ i ∧ i ≤ |e.1 - s.1|) ∧ (0 ≤ j ∧ j ≤ |e.2 - s.2|) ∧ P i j)
    (fun i j q ⟨⟨a1, a2⟩, ⟨a3, a4⟩, a5⟩ hne hs => by
      obtain ⟨b1, b2, b3⟩ := nstep_some (abs_nonneg _) (abs_nonneg _) a2 a3 a4 hne hs
      refine ⟨⟨?_, b2⟩, ⟨?_, b3⟩, hP i j q a5 hs⟩
      · rcases b1 with rfl | rfl | rfl <;> simp <;> omega
      · rcases b1 with rfl | rfl | rfl <;> simp <;> omega)
    n 0 0 q ⟨⟨le_rfl, abs_nonneg _⟩, ⟨le_rfl, abs_nonneg _⟩, h0⟩ hq k hk
  exact ⟨k.1, k.2, ⟨h1, h2⟩, ⟨h3, h4⟩, h5, rfl⟩

/-- The side of a cell in terms of steps. -/
theorem aside_cell (s e : GCell) (i j : ℤ) : |aside s e ((Ray.mk s.1 s.2 e.1 e.2).cell (i, j))| =
    |(|e.1 - s.1| * j - |e.2 - s.2| * i)| := by
  unfold aside Ray.cell Ray.sx Ray.sy
  simp only [add_sub_cancel_left]
  rcases lt_or_ge s.1 e.1 with hx | hx <;> rcases lt_or_ge s.2 e.2 with hy | hy
  · rw [if_pos hx, if_pos hy, abs_of_pos (a := e.1 - s.1) (by omega), abs_of_pos (a := e.2 - s.2) (by omega)]
    congr 1; ring
  · rw [if_pos hx, if_neg (not_lt.mpr hy), abs_of_pos (a := e.1 - s.1) (by omega), abs_of_nonpos (a := e.2 - s.2) (by omega),
      ← abs_neg]
    congr 1; ring
  · rw [if_neg (not_lt.mpr hx), if_pos hy, abs_of_nonpos (a := e.1 - s.1) (by omega), abs_of_pos (a := e.2 - s.2) (by omega),
      ← abs_neg]
    congr 1; ring
  · rw [if_neg (not_lt.mpr hx), if_neg (not_lt.mpr hy), abs_of_nonpos (a := e.1 - s.1) (by omega),
      abs_of_nonpos (a := e.2 - s.2) (by omega)]
    congr 1; ring

end

end Ndt.OccGrid
