import Verif.Spec.Chance
import Verif.Proof.Filter
import Mathlib.Tactic.Linarith
import Mathlib.Tactic.FieldSimp
import Mathlib.Algebra.BigOperators.Fin
import Mathlib.Algebra.BigOperators.Field
import Mathlib.Algebra.Order.BigOperators.Ring.Finset

/-! # Helper lemmas about random draws -/

namespace Ndt

noncomputable section

open Spec

variable {m n : ℕ}

theorem sum_prod (f : Fin n → Fin m → ℝ) : ∑ d : Fin n → Fin m, ∏ k, f k (d k) = ∏ k, ∑ j, f k j := by
  rw [Finset.prod_univ_sum, Fintype.piFinset_univ]

theorem expected_one {w : Fin m → ℝ} (hs : ∑ i, w i = 1) : ∑ d : Fin n → Fin m, chance w d = 1 := by
  unfold chance
  rw [sum_prod fun _ => w, Finset.prod_congr rfl fun _ _ => hs, Finset.prod_const_one]

theorem expected_draw {w : Fin m → ℝ} (hs : ∑ i, w i = 1) (k : Fin n) (i : Fin m) :
    expected w (fun d : Fin n → Fin m => if d k = i then 1 else 0) = w i := by
  unfold expected chance
  have h : ∀ d : Fin n → Fin m, (∏ k', w (d k')) * (if d k = i then (1 : ℝ) else 0) =
      ∏ k', (if k' = k then (if d k' = i then w (d k') else 0) else w (d k')) := by
    intro d
    by_cases hd : d k = i
    · rw [if_pos hd, mul_one]
      apply Finset.prod_congr rfl
      intro k' _
      by_cases hk : k' = k
      · rw [if_pos hk, hk, if_pos hd]
      · rw [if_neg hk]
    · rw [if_neg hd, mul_zero]
      symm
      apply Finset.prod_eq_zero (Finset.mem_univ k)
      rw [if_pos rfl, if_neg hd]
  rw [Finset.sum_congr rfl fun d _ => h d, sum_prod fun k' j => if k' = k then (if j = i then w j else 0) else w j]
  rw [Finset.prod_eq_single k]
  · simp
  · intro k' _ hk
    simp only [if_neg hk]
    exact hs
  · intro h
    exact absurd (Finset.mem_univ k) h

/-- How often `i` was drawn. -/
def times (d : Fin n → Fin m) (i : Fin m) : ℝ := ∑ k, if d k = i then 1 else 0

theorem expected_times {w : Fin m → ℝ} (hs : ∑ i, w i = 1) (i : Fin m) :
    expected w (fun d : Fin n → Fin m => times d i) = n * w i := by
  unfold expected times
  simp only [Finset.mul_sum]
  rw [Finset.sum_comm]
  rw [Finset.sum_congr rfl fun k _ => show ∑ d : Fin n → Fin m, chance w d * (if d k = i then (1 : ℝ) else 0) = w i from
    expected_draw hs k i]
  simp

/-- The weights after resampling a fixed number of particles. -/
theorem resample_weights {f g : Filter} {err z : ℝ} {w : Fin m → ℝ} {P : Fin m → Pose2d} (hn : 0 < n)
    (hmin : f.minP = n) (hmax : f.maxP = n) (hw : f.weights = List.ofFn fun i => .fin (w i)) (hp : f.particles = List.ofFn P)
    (hpos : ∀ i, 0 < w i) (d : Fin n → Fin m) (h : f.resample err z (stream d) = .ok g) :
    g.particles = List.ofFn (fun k => P (d k)) ∧
      g.weights = List.ofFn (fun k => .fin (w (d k) / ∑ k', w (d k'))) := by
  obtain ⟨rs, ws, kd, mx, hinv, -, hle, hge, hu⟩ := Filter.resample_ok h
  obtain ⟨-, -, -, e3, e4, -⟩ := Filter.updateStatistics_ok hu
  have e3 : g.particles = rs := e3
  have hl : rs.length = n := by rw [hmin, hmax] at *; omega
  have ers : rs = List.ofFn (fun k => P (d k)) := by
    apply List.ext_getElem?
    intro k
    by_cases hk : k < n
    · rw [(hinv.drawn k (by omega)).1, hp]
      simp [stream, hk]
    · rw [List.getElem?_eq_none (by omega), List.getElem?_eq_none (by simp; omega)]
  have ews : ws = (List.ofFn (fun k => w (d k))).map .fin := by
    apply List.ext_getElem?
    intro k
    by_cases hk : k < n
    · rw [(hinv.drawn k (by omega)).2, hw]
      simp [stream, hk]
    · rw [List.getElem?_eq_none (by rw [hinv.len]; omega), List.getElem?_eq_none (by simp; omega)]
  refine ⟨by rw [e3, ers], ?_⟩
  have hs : 0 < ∑ k', w (d k') := Finset.sum_pos (fun k _ => hpos _) ⟨⟨0, hn⟩, Finset.mem_univ _⟩
  have e4 : g.weights = ws.map (· / Filter.sumWeights ws) := e4
  rw [e4, ews, Filter.sumWeights_fin, List.sum_ofFn, List.map_map, List.map_ofFn]
  congr 1
  funext k
  show Fl.fin (w (d k)) / Fl.fin _ = _
  exact Fl.fin_div (ne_of_gt hs)

/-- The weight of a pose after resampling: how often its particle was drawn, times its weight, over the sum. -/
theorem weightAt_resampled {f g : Filter} {err z : ℝ} {w : Fin m → ℝ} {P : Fin m → Pose2d} (hn : 0 < n)
    (hmin : f.minP = n) (hmax : f.maxP = n) (hw : f.weights = List.ofFn fun i => .fin (w i)) (hp : f.particles = List.ofFn P)
    (hpos : ∀ i, 0 < w i) (hinj : Function.Injective P) (d : Fin n → Fin m) (h : f.resample err z (stream d) = .ok g)
    (i : Fin m) : weightAt g (P i) = times d i * w i / ∑ k', w (d k') := by
  obtain ⟨e1, e2⟩ := resample_weights hn hmin hmax hw hp hpos d h
  unfold weightAt
  have ez : g.particles.zip g.weights = List.ofFn (fun k => (P (d k), Fl.fin (w (d k) / ∑ k', w (d k')))) := by
    rw [e1, e2]
    apply List.ext_getElem?
    intro k
    by_cases hk : k < n
    · simp [hk, List.getElem?_zip_eq_some]
    · rw [List.getElem?_eq_none (by simp; omega), List.getElem?_eq_none (by simp; omega)]
  rw [ez, List.map_ofFn, List.sum_ofFn]
  unfold times
  rw [Finset.sum_mul, Finset.sum_div]
  apply Finset.sum_congr rfl
  intro k _
  simp only [Function.comp]
  by_cases hk : d k = i
  · rw [if_pos (by rw [hk]), if_pos hk, one_mul, hk]
    rfl
  · rw [if_neg (fun he => hk (hinj he)), if_neg hk, zero_mul, zero_div]

end

end Ndt
