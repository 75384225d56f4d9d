import Verif.Model.Discrete

/-! # Lemmas about the discrete distribution -/

namespace Ndt.Discrete

noncomputable section

variable {rd : ℝ → ℝ}

/-- Bisection finds a place where the elements stop being smaller, sorted or not. -/
theorem lowerBound_spec (cp : List Fl) (p : Fl) (n : ℕ) : ∀ (len first : ℕ), first + len ≤ n →
    (first = 0 ∨ cp.getD (first - 1) .nan < p) → (first + len = n ∨ ¬ cp.getD (first + len) .nan < p) →
    lowerBound cp p first len ≤ n ∧ (lowerBound cp p first len = 0 ∨ cp.getD (lowerBound cp p first len - 1) .nan < p) ∧
      (lowerBound cp p first len = n ∨ ¬ cp.getD (lowerBound cp p first len) .nan < p) := by
  intro len
  induction len using Nat.strong_induction_on with
  | _ len ih =>
    intro first h1 h2 h3
    rw [lowerBound]
    by_cases h0 : len = 0
    · subst h0
      rw [if_pos rfl]
      exact ⟨h1, h2, h3⟩
    · rw [if_neg h0]
      by_cases hm : cp.getD (first + len / 2) .nan < p
      · rw [if_pos hm]
        refine ih _ (by omega) _ (by omega) (Or.inr ?_) ?_
        · rwa [Nat.add_sub_cancel]
        · rwa [show first + len / 2 + 1 + (len - len / 2 - 1) = first + len by omega]
      · rw [if_neg hm]
        exact ih _ (by omega) _ (by omega) h2 (Or.inr hm)

theorem sumsFrom_length (s : Fl) (ws : List Fl) : (sumsFrom rd s ws).length = ws.length := by
  induction ws generalizing s with
  | nil => rfl
  | cons w ws ih => simp [sumsFrom, ih]

theorem partialSums_length (ws : List Fl) : (partialSums rd ws).length = ws.length := by
  cases ws with
  | nil => rfl
  | cons w ws => simp [partialSums, sumsFrom_length]

theorem cumulative_length (ws : List Fl) : (cumulative rd ws).length = ws.length := by
  simp [cumulative, partialSums_length, shares]

theorem cumulative_last {ws : List Fl} (h : 0 < ws.length) : (cumulative rd ws).getD (ws.length - 1) .nan = .fin 1 := by
  have : ws.length - 1 < (partialSums rd (shares rd ws)).length := by
    rw [partialSums_length, shares, List.length_map]; omega
  rw [cumulative, List.getD_eq_getElem?_getD, List.getElem?_set_self this]
  rfl

theorem cumulative_inner {ws : List Fl} {i : ℕ} (h : i + 1 < ws.length) :
    (cumulative rd ws).getD i .nan = (partialSums rd (shares rd ws)).getD i .nan := by
  rw [cumulative, List.getD_eq_getElem?_getD, List.getElem?_set_ne (by omega), ← List.getD_eq_getElem?_getD]

/-- Where the number drawn stands among the sums. -/
theorem pick_spec {ws : List Fl} {p : ℝ} (h : 2 ≤ ws.length) (hp : p ≤ 1) : pick rd ws p < ws.length ∧
    (pick rd ws p = 0 ∨ (cumulative rd ws).getD (pick rd ws p - 1) .nan < .fin p) ∧
    ¬ (cumulative rd ws).getD (pick rd ws p) .nan < .fin p := by
  have hl := cumulative_last (rd := rd) (show 0 < ws.length by omega)
  have hpk : pick rd ws p = lowerBound (cumulative rd ws) (.fin p) 0 ws.length := by rw [pick, if_neg (by omega)]
  obtain ⟨h1, h2, h3⟩ := lowerBound_spec (cumulative rd ws) (.fin p) ws.length ws.length 0 (by omega) (Or.inl rfl) (Or.inl (by omega))
  rw [← hpk] at h1 h2 h3
  have hne : pick rd ws p ≠ ws.length := by
    intro he
    rcases h2 with h2 | h2
    · omega
    · rw [he, hl, Fl.fin_lt] at h2
      linarith
  exact ⟨by omega, h2, h3.resolve_left hne⟩

theorem rounded_nan : Fl.rounded rd .nan = .nan := rfl

theorem foldl_nan (ws : List Fl) : ws.foldl (fun s w => (s + w).rounded rd) .nan = .nan := by
  induction ws with
  | nil => rfl
  | cons w ws ih => rw [List.foldl_cons, Fl.nan_add, rounded_nan, ih]

theorem foldl_mem_nan {ws : List Fl} (h : Fl.nan ∈ ws) (s : Fl) : ws.foldl (fun s w => (s + w).rounded rd) s = .nan := by
  induction ws generalizing s with
  | nil => cases h
  | cons w ws ih =>
    rw [List.foldl_cons]
    rcases List.mem_cons.mp h with h | h
    · rw [← h, Fl.add_nan, rounded_nan, foldl_nan]
    · exact ih h _

theorem total_zero (hz : rd 0 = 0) {ws : List Fl} (h : ∀ w ∈ ws, w = .fin 0) : total rd ws = .fin 0 := by
  unfold total
  induction ws with
  | nil => rfl
  | cons w ws ih =>
    rw [List.foldl_cons, h w List.mem_cons_self, Fl.fin_add, add_zero, Fl.rounded_fin, hz]
    exact ih fun w hw => h w (List.mem_cons_of_mem _ hw)

theorem sumsFrom_nan (s : Fl) (ws : List Fl) (h : ∀ w ∈ ws, w = .nan) : ∀ x ∈ sumsFrom rd s ws, x = .nan := by
  induction ws generalizing s with
  | nil => simp [sumsFrom]
  | cons w ws ih =>
    intro x hx
    have hw := h w List.mem_cons_self
    simp only [sumsFrom, List.mem_cons] at hx
    rcases hx with hx | hx
    · rw [hx, hw, Fl.add_nan, rounded_nan]
    · exact ih _ (fun w hw => h w (List.mem_cons_of_mem _ hw)) x hx

/-- If all shares are NaN the first element is drawn. -/
theorem pick_nan {ws : List Fl} (h : ∀ w ∈ shares rd ws, w = .nan) {p : ℝ} (hp : p ≤ 1) : pick rd ws p = 0 := by
  by_cases h2 : 2 ≤ ws.length
  · obtain ⟨a, b, -⟩ := pick_spec (rd := rd) h2 hp
    rcases b with b | b
    · exact b
    · exfalso
      by_cases h0 : pick rd ws p = 0
      · rw [h0] at b
        have hin : (cumulative rd ws).getD 0 .nan = (partialSums rd (shares rd ws)).getD 0 .nan := cumulative_inner (by omega)
        rw [Nat.zero_sub, hin] at b
        cases hs : shares rd ws with
        | nil => rw [hs] at b; exact Fl.nan_lt _ b
        | cons w l =>
          rw [hs] at b
          have : w = .nan := h w (by rw [hs]; exact List.mem_cons_self)
          rw [this] at b
          exact Fl.nan_lt _ b
      · have hin : (cumulative rd ws).getD (pick rd ws p - 1) .nan = (partialSums rd (shares rd ws)).getD (pick rd ws p - 1) .nan :=
          cumulative_inner (by omega)
        rw [hin] at b
        have hn : ∀ x ∈ partialSums rd (shares rd ws), x = .nan := by
          cases hs : shares rd ws with
          | nil => simp [partialSums]
          | cons w l =>
            rw [hs] at h
            intro x hx
            simp only [partialSums, List.mem_cons] at hx
            rcases hx with hx | hx
            · rw [hx]; exact h w List.mem_cons_self
            · exact sumsFrom_nan _ _ (fun w hw => h w (List.mem_cons_of_mem _ hw)) x hx
        have hlt : pick rd ws p - 1 < (partialSums rd (shares rd ws)).length := by
          rw [partialSums_length, shares, List.length_map]; omega
        rw [List.getD_eq_getElem?_getD, List.getElem?_eq_getElem hlt, Option.getD_some, hn _ (List.getElem_mem hlt)] at b
        exact Fl.nan_lt _ b
  · rw [pick, if_pos (by omega)]

/-! ## Weights that are numbers -/

/-- The sum that goes with the element `i`. -/
def sumTo (rd : ℝ → ℝ) (u : List ℝ) (i : ℕ) : ℝ := (u.tail.take i).foldl (fun s w => rd (s + w)) (u.headD 0)

theorem sumTo_zero (u : List ℝ) : sumTo rd u 0 = u.headD 0 := rfl

theorem sumTo_succ (u : List ℝ) {i : ℕ} (h : i + 1 < u.length) : sumTo rd u (i + 1) = rd (sumTo rd u i + u[i + 1]) := by
  cases u with
  | nil => simp at h
  | cons a u =>
    simp only [List.length_cons, Nat.add_lt_add_iff_right] at h
    simp only [sumTo, List.tail_cons, List.headD_cons, List.getElem_cons_succ]
    rw [List.take_add_one, List.getElem?_eq_getElem h, Option.toList_some, List.foldl_append]
    rfl

/-- The weights' sum. -/
def realTotal (rd : ℝ → ℝ) (v : List ℝ) : ℝ := v.foldl (fun s w => rd (s + w)) 0

theorem foldl_fin (v : List ℝ) (s : ℝ) :
    (v.map Fl.fin).foldl (fun s w => (s + w).rounded rd) (.fin s) = .fin (v.foldl (fun s w => rd (s + w)) s) := by
  induction v generalizing s with
  | nil => rfl
  | cons a v ih => simp only [List.map_cons, List.foldl_cons, Fl.fin_add, Fl.rounded_fin, ih]

theorem total_fin (v : List ℝ) : total rd (v.map Fl.fin) = .fin (realTotal rd v) := foldl_fin v 0

/-- The shares of weights that are numbers. -/
def realShares (rd : ℝ → ℝ) (v : List ℝ) : List ℝ := v.map fun w => rd (w / realTotal rd v)

theorem shares_fin {v : List ℝ} (h : realTotal rd v ≠ 0) : shares rd (v.map Fl.fin) = (realShares rd v).map Fl.fin := by
  rw [shares, total_fin, realShares, List.map_map, List.map_map]
  apply List.map_congr_left
  intro w _
  simp only [Function.comp, Fl.fin_div h, Fl.rounded_fin]

theorem sumsFrom_fin (u : List ℝ) (s : ℝ) {i : ℕ} (h : i < u.length) : (sumsFrom rd (.fin s) (u.map Fl.fin))[i]? =
    some (.fin ((u.take (i + 1)).foldl (fun s w => rd (s + w)) s)) := by
  induction u generalizing s i with
  | nil => simp at h
  | cons a u ih =>
    simp only [List.map_cons, sumsFrom, Fl.fin_add, Fl.rounded_fin]
    cases i with
    | zero => simp
    | succ i =>
      rw [List.getElem?_cons_succ, ih _ (by simpa using h)]
      simp

theorem partialSums_fin (u : List ℝ) {i : ℕ} (h : i < u.length) : (partialSums rd (u.map Fl.fin)).getD i .nan = .fin (sumTo rd u i) := by
  cases u with
  | nil => simp at h
  | cons a u =>
    simp only [List.map_cons, partialSums]
    cases i with
    | zero => simp [sumTo]
    | succ i =>
      rw [List.getD_cons_succ, List.getD_eq_getElem?_getD, sumsFrom_fin _ _ (by simpa using h)]
      simp [sumTo]

theorem cumulative_fin {v : List ℝ} (h : realTotal rd v ≠ 0) {i : ℕ} (hi : i + 1 < v.length) :
    (cumulative rd (v.map Fl.fin)).getD i .nan = .fin (sumTo rd (realShares rd v) i) := by
  rw [cumulative_inner (by simpa using hi), shares_fin h, partialSums_fin _ (by simp [realShares]; omega)]

/-- The bounds between which the number drawn for the element `i` is. -/
theorem pick_fin {v : List ℝ} (h : realTotal rd v ≠ 0) (hv : 2 ≤ v.length) {p : ℝ} (hp : p ≤ 1) :
    pick rd (v.map Fl.fin) p < v.length ∧
    (∀ i, pick rd (v.map Fl.fin) p = i + 1 → sumTo rd (realShares rd v) i < p) ∧
    (pick rd (v.map Fl.fin) p + 1 < v.length → p ≤ sumTo rd (realShares rd v) (pick rd (v.map Fl.fin) p)) := by
  have hl : (v.map Fl.fin).length = v.length := List.length_map _
  obtain ⟨a, b, c⟩ := pick_spec (rd := rd) (ws := v.map Fl.fin) (by omega) hp
  rw [hl] at a
  refine ⟨a, ?_, ?_⟩
  · intro i hi
    rcases b with b | b
    · omega
    · rw [hi, Nat.add_sub_cancel, cumulative_fin h (by omega), Fl.fin_lt] at b
      exact b
  · intro hlt
    rw [cumulative_fin h hlt, Fl.fin_lt, not_lt] at c
    exact c

end

end Ndt.Discrete
