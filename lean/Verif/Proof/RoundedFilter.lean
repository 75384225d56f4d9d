import Verif.Model.RoundedFilter
import Verif.Spec.RoundedFilter
import Verif.Proof.Double

/-! # Rounding of the statistics of the filter -/

namespace Ndt.Rounded

noncomputable section

open Spec

theorem total_cons (f : ℝ × Pose2d → ℝ) (a : ℝ × Pose2d) (l : List (ℝ × Pose2d)) : total f (a :: l) = f a + total f l := by
  simp [total]

theorem total_add (f g : ℝ × Pose2d → ℝ) (l : List (ℝ × Pose2d)) : total (fun a => f a + g a) l = total f l + total g l := by
  induction l with
  | nil => simp [total]
  | cons a l ih => simp only [total_cons, ih]; ring

theorem total_mul (c : ℝ) (f : ℝ × Pose2d → ℝ) (l : List (ℝ × Pose2d)) : total (fun a => c * f a) l = c * total f l := by
  induction l with
  | nil => simp [total]
  | cons a l ih => simp only [total_cons, ih]; ring

theorem total_const (c : ℝ) (l : List (ℝ × Pose2d)) : total (fun _ => c) l = l.length * c := by
  simp [total]

theorem total_le {f g : ℝ × Pose2d → ℝ} {l : List (ℝ × Pose2d)} (h : ∀ a ∈ l, f a ≤ g a) : total f l ≤ total g l := by
  induction l with
  | nil => simp [total]
  | cons a l ih =>
    simp only [total_cons]
    exact add_le_add (h a (by simp)) (ih fun b hb => h b (by simp [hb]))

theorem total_congr {f g : ℝ × Pose2d → ℝ} {l : List (ℝ × Pose2d)} (h : ∀ a ∈ l, f a = g a) : total f l = total g l :=
  le_antisymm (total_le fun a ha => (h a ha).le) (total_le fun a ha => (h a ha).ge)

theorem total_near {f g h : ℝ × Pose2d → ℝ} {l : List (ℝ × Pose2d)} (hb : ∀ a ∈ l, |f a - g a| ≤ h a) :
    |total f l - total g l| ≤ total h l := by
  induction l with
  | nil => simp [total]
  | cons a l ih =>
    simp only [total_cons]
    have h1 := hb a (by simp)
    have h2 := ih fun b hb' => hb b (by simp [hb'])
    have e : f a + total f l - (g a + total g l) = (f a - g a) + (total f l - total g l) := by ring
    rw [e]
    exact (abs_add_le _ _).trans (add_le_add h1 h2)

theorem halfMin_cloud : halfMin ≤ 2⁻¹ ^ 250 := by
  unfold halfMin
  exact pow_le_pow_of_le_one (by norm_num) (by norm_num) (by norm_num)

/-- One rounding, for values that need not be exact. -/
theorem rd_err {rd : ℝ → ℝ} (hrd : RoundsToNearest rd) {x X : ℝ} (h : |x| ≤ X) :
    |rd x - x| ≤ 2⁻¹ ^ 53 * X + 2⁻¹ ^ 250 := by
  have h1 := hrd.error x
  have h2 := halfMin_cloud
  have h3 : (2⁻¹ : ℝ) ^ 53 * |x| ≤ 2⁻¹ ^ 53 * X := mul_le_mul_of_nonneg_left h (by positivity)
  linarith

theorem sum_aux {rd : ℝ → ℝ} (hrd : RoundsToNearest rd) (t : ℝ × Pose2d → ℝ) {A : ℝ} (hA : 2⁻¹ ^ 120 ≤ A) {n : ℕ} (hn : n ≤ 2 ^ 40) :
    ∀ (l : List (ℝ × Pose2d)) (s g : ℝ) (k : ℕ), k + l.length = n → |s - g| ≤ k * (2⁻¹ ^ 52 * A) →
      |g| + total (fun a => |t a|) l ≤ A →
      |l.foldl (fun s a => rd (s + t a)) s - (g + total t l)| ≤ n * (2⁻¹ ^ 52 * A) := by
  intro l
  induction l with
  | nil =>
    intro s g k hk h1 _
    have : k = n := by simpa using hk
    subst this
    simpa [total] using h1
  | cons a l ih =>
    intro s g k hk h1 h2
    rw [total_cons] at h2 ⊢
    have hA0 : 0 < A := lt_of_lt_of_le (by positivity) hA
    have hk40 : (k : ℝ) ≤ 2 ^ 40 := by
      have : k ≤ 2 ^ 40 := by simp at hk; omega
      exact_mod_cast this
    have hpos : 0 ≤ total (fun a => |t a|) l := by
      have := total_le (f := fun _ => (0 : ℝ)) (g := fun a => |t a|) (l := l) fun a _ => abs_nonneg _
      rw [total_const, mul_zero] at this
      exact this
    have h3 : (k : ℝ) * (2⁻¹ ^ 52 * A) ≤ 2⁻¹ ^ 12 * A := by
      have := mul_le_mul_of_nonneg_right hk40 (by positivity : (0 : ℝ) ≤ 2⁻¹ ^ 52 * A)
      refine this.trans (le_of_eq ?_)
      ring
    have h4 : |s + t a| ≤ 1.5 * A := by
      have e1 := abs_add_le s (t a)
      have e2 := abs_sub_abs_le_abs_sub s g
      norm_num at h3 ⊢
      linarith
    have h5 := rd_err hrd h4
    have h6 : (2⁻¹ : ℝ) ^ 250 ≤ 2⁻¹ ^ 120 * A := by
      have := mul_le_mul_of_nonneg_left hA (by positivity : (0 : ℝ) ≤ 2⁻¹ ^ 120)
      refine le_trans ?_ this
      rw [← pow_add]
      exact pow_le_pow_of_le_one (by norm_num) (by norm_num) (by norm_num)
    have h7 : (2⁻¹ : ℝ) ^ 120 * A ≤ 2⁻¹ ^ 60 * A :=
      mul_le_mul_of_nonneg_right (pow_le_pow_of_le_one (by norm_num) (by norm_num) (by norm_num)) hA0.le
    have h8 : |rd (s + t a) - (g + t a)| ≤ ((k + 1 : ℕ) : ℝ) * (2⁻¹ ^ 52 * A) := by
      have e1 := abs_sub_le (rd (s + t a)) (s + t a) (g + t a)
      have e2 : s + t a - (g + t a) = s - g := by ring
      rw [e2] at e1
      have e3 : |rd (s + t a) - (s + t a)| ≤ 2⁻¹ ^ 52 * A := by
        refine h5.trans ?_
        have := h6.trans h7
        norm_num at this ⊢
        linarith
      push_cast
      linarith
    have h9 := ih (rd (s + t a)) (g + t a) (k + 1) (by simp at hk; omega) h8 (by
      have := abs_add_le g (t a)
      linarith)
    simpa [add_assoc] using h9

/-- A sum computed in double precision. -/
theorem sum_near' {rd : ℝ → ℝ} (hrd : RoundsToNearest rd) (t : ℝ × Pose2d → ℝ) {A : ℝ} (hA : 2⁻¹ ^ 120 ≤ A)
    {l : List (ℝ × Pose2d)} (hn : l.length ≤ 2 ^ 40) (ht : total (fun a => |t a|) l ≤ A) :
    |l.foldl (fun s a => rd (s + t a)) 0 - total t l| ≤ l.length * (2⁻¹ ^ 52 * A) := by
  have := sum_aux hrd t hA hn l 0 0 0 (by simp) (by simp) (by simpa using ht)
  simpa using this

section

variable {rd : ℝ → ℝ} (hrd : RoundsToNearest rd) {l : List (ℝ × Pose2d)} (hnn : ∀ a ∈ l, 0 ≤ a.1)
  (hs : 2⁻¹ ^ 100 ≤ total (·.1) l) (hn : l.length ≤ 2 ^ 40)

include hs in
theorem length_pos' : (1 : ℝ) ≤ l.length := by
  have : l ≠ [] := by
    rintro rfl
    simp only [total, List.map_nil, List.sum_nil] at hs
    exact absurd hs (not_le.mpr (by positivity))
  have := List.length_pos_iff.mpr this
  exact_mod_cast this

include hn in
theorem length_small (c : ℝ) (hc : 0 ≤ c) : (l.length : ℝ) * c ≤ 2 ^ 40 * c := by
  have : (l.length : ℝ) ≤ 2 ^ 40 := by exact_mod_cast hn
  exact mul_le_mul_of_nonneg_right this hc

include hrd hnn hs hn in
theorem sumWeights_near : |sumWeights rd l - total (·.1) l| ≤ l.length * (2⁻¹ ^ 52 * total (·.1) l) := by
  have h1 : total (fun a => |a.1|) l ≤ total (·.1) l := total_le fun a ha => (abs_of_nonneg (hnn a ha)).le
  exact sum_near' hrd (·.1) ((pow_le_pow_of_le_one (by norm_num) (by norm_num) (by norm_num)).trans hs) hn h1

include hrd hnn hs hn in
/-- One normalised weight. -/
theorem weight_near {w : ℝ} (hw : 0 ≤ w) :
    |rd (w / sumWeights rd l) - w / total (·.1) l| ≤ l.length * 2⁻¹ ^ 50 * (w / total (·.1) l) + 2⁻¹ ^ 250 := by
  have h1 := sumWeights_near hrd hnn hs hn
  set S := total (·.1) l
  have hS : 0 < S := lt_of_lt_of_le (by positivity) hs
  have hl := length_pos' hs
  have h2 := length_small hn (2⁻¹ ^ 52 * S) (by positivity)
  have h3 := abs_le.mp h1
  have h4 : S / 2 ≤ sumWeights rd l := by
    norm_num at h2 h3
    linarith [h3.1]
  set T := sumWeights rd l
  have hT : 0 < T := by linarith
  have e1 : |w / T - w / S| ≤ l.length * 2⁻¹ ^ 51 * (w / S) := by
    have : w / T - w / S = (w / S) * ((S - T) / T) := by field_simp
    rw [this, abs_mul, abs_of_nonneg (div_nonneg hw hS.le), mul_comm]
    refine mul_le_mul_of_nonneg_right ?_ (div_nonneg hw hS.le)
    rw [abs_div, abs_of_pos hT, div_le_iff₀ hT, abs_sub_comm]
    refine h1.trans ?_
    have := mul_le_mul_of_nonneg_left h4 (by positivity : (0 : ℝ) ≤ l.length * 2⁻¹ ^ 51)
    refine le_trans (le_of_eq ?_) this
    ring
  have e2 : |w / T| ≤ 2 * (w / S) := by
    rw [abs_of_nonneg (div_nonneg hw hT.le), div_le_iff₀ hT]
    have : w / S * S = w := by field_simp
    have h0 : 0 ≤ w / S := div_nonneg hw hS.le
    nlinarith
  have e3 := rd_err hrd e2
  have e4 := abs_sub_le (rd (w / T)) (w / T) (w / S)
  have h0 : 0 ≤ w / S := div_nonneg hw hS.le
  have e5 : 1 * (w / S) ≤ l.length * (w / S) := mul_le_mul_of_nonneg_right hl h0
  have e6 : (l.length : ℝ) * 2⁻¹ ^ 51 * (w / S) + 2⁻¹ ^ 52 * (l.length * (w / S)) ≤ l.length * 2⁻¹ ^ 50 * (w / S) := by
    have : 0 ≤ (l.length : ℝ) * (w / S) := by positivity
    norm_num
    linarith
  have e7 : (2⁻¹ : ℝ) ^ 53 * (2 * (w / S)) ≤ 2⁻¹ ^ 52 * (l.length * (w / S)) := by
    norm_num
    linarith
  linarith

theorem total_normalised (rd : ℝ → ℝ) (f : ℝ × Pose2d → ℝ) (l : List (ℝ × Pose2d)) :
    total f (normalised rd l) = total (fun a => f (rd (a.1 / sumWeights rd l), a.2)) l := by
  simp [total, normalised, Function.comp_def]

include hs in
theorem total_shares : total (fun a => a.1 / total (·.1) l) l = 1 := by
  have hS : 0 < total (·.1) l := lt_of_lt_of_le (by positivity) hs
  have := total_mul (total (·.1) l)⁻¹ (·.1) l
  rw [inv_mul_cancel₀ hS.ne'] at this
  rw [← this]
  exact total_congr fun a _ => by ring

include hrd hnn hs hn in
/-- Sums over the particles with their normalised weights: a term that is `w v` up to rounding. -/
theorem weighted_terms {t v : ℝ × Pose2d → ℝ} {V : ℝ} (hV : 2⁻¹ ^ 100 ≤ V) (hv : ∀ a ∈ l, |v a| ≤ V)
    (ht : ∀ a ∈ l, |t a - rd (a.1 / sumWeights rd l) * v a| ≤ 2⁻¹ ^ 51 * V * |rd (a.1 / sumWeights rd l)| + 2⁻¹ ^ 240 * (V + 1)) :
    |total t l - total (fun a => a.1 / total (·.1) l * v a) l| ≤ l.length * (2⁻¹ ^ 50 * V) * 2.01 ∧ total (fun a => |t a|) l ≤ 1.5 * V := by
  have hl := length_pos' hs
  have hV0 : 0 < V := lt_of_lt_of_le (by positivity) hV
  have hS : 0 < total (·.1) l := lt_of_lt_of_le (by positivity) hs
  -- one term
  have h1 : ∀ a ∈ l, |t a - a.1 / total (·.1) l * v a| ≤
      (l.length * 2⁻¹ ^ 50 + 2⁻¹ ^ 50) * V * (a.1 / total (·.1) l) + 2⁻¹ ^ 230 * (V + 1) := by
    intro a ha
    have w1 := weight_near hrd hnn hs hn (hnn a ha)
    have hq : 0 ≤ a.1 / total (·.1) l := div_nonneg (hnn a ha) hS.le
    set q := a.1 / total (·.1) l
    set r := rd (a.1 / sumWeights rd l)
    have w2 := ht a ha
    have w3 := length_small hn (2⁻¹ ^ 50 * q) (by positivity)
    have w4 : |r| ≤ 2 * q + 2⁻¹ ^ 250 := by
      have := abs_sub_abs_le_abs_sub r q
      rw [abs_of_nonneg hq] at this
      rw [mul_assoc] at w1
      norm_num at w1 w3 ⊢
      linarith
    have w5 : |r * v a - q * v a| ≤ (l.length * 2⁻¹ ^ 50 * q + 2⁻¹ ^ 250) * V := by
      rw [← sub_mul, abs_mul]
      exact mul_le_mul w1 (hv a ha) (abs_nonneg _) (by positivity)
    have w6 := abs_sub_le (t a) (r * v a) (q * v a)
    have w7 : 2⁻¹ ^ 51 * V * |r| ≤ 2⁻¹ ^ 51 * V * (2 * q + 2⁻¹ ^ 250) := mul_le_mul_of_nonneg_left w4 (by positivity)
    have w8 : 2⁻¹ ^ 51 * V * (2 * q + 2⁻¹ ^ 250) = 2⁻¹ ^ 50 * V * q + 2⁻¹ ^ 51 * (2⁻¹ ^ 250 * V) := by ring
    have w9 : (2⁻¹ : ℝ) ^ 51 * (2⁻¹ ^ 250 * V) ≤ 2⁻¹ ^ 240 * V := by
      have e1 : (2⁻¹ : ℝ) ^ 250 * V ≤ 2⁻¹ ^ 240 * V :=
        mul_le_mul_of_nonneg_right (pow_le_pow_of_le_one (by norm_num) (by norm_num) (by norm_num)) hV0.le
      have e2 : (0 : ℝ) ≤ 2⁻¹ ^ 250 * V := by positivity
      have e3 : (2⁻¹ : ℝ) ^ 51 * (2⁻¹ ^ 250 * V) ≤ 1 * (2⁻¹ ^ 250 * V) := mul_le_mul_of_nonneg_right (by norm_num) e2
      linarith
    have w10 : (2⁻¹ : ℝ) ^ 250 * V ≤ 2⁻¹ ^ 240 * V :=
      mul_le_mul_of_nonneg_right (pow_le_pow_of_le_one (by norm_num) (by norm_num) (by norm_num)) hV0.le
    have w11 : (2⁻¹ : ℝ) ^ 240 * V * 3 + 2⁻¹ ^ 240 ≤ 2⁻¹ ^ 230 * (V + 1) := by
      have : (2⁻¹ : ℝ) ^ 230 = 1024 * 2⁻¹ ^ 240 := by norm_num
      rw [this]
      have hp : (0 : ℝ) < 2⁻¹ ^ 240 := by positivity
      nlinarith [mul_pos hp hV0]
    have : (l.length * 2⁻¹ ^ 50 + 2⁻¹ ^ 50) * V * q = l.length * 2⁻¹ ^ 50 * q * V + 2⁻¹ ^ 50 * V * q := by ring
    rw [this]
    rw [add_mul] at w5
    have w12 : (2⁻¹ : ℝ) ^ 240 * (V + 1) = 2⁻¹ ^ 240 * V + 2⁻¹ ^ 240 := by ring
    rw [w12] at w2
    linarith
  -- all terms
  have h2 := total_near h1
  have h3 : total (fun a => (l.length * 2⁻¹ ^ 50 + 2⁻¹ ^ 50) * V * (a.1 / total (·.1) l) + 2⁻¹ ^ 230 * (V + 1)) l =
      (l.length * 2⁻¹ ^ 50 + 2⁻¹ ^ 50) * V + l.length * (2⁻¹ ^ 230 * (V + 1)) := by
    rw [total_add, total_mul, total_shares hs, total_const, mul_one]
  rw [h3] at h2
  have hV1 : (2⁻¹ : ℝ) ^ 230 * (V + 1) ≤ 2⁻¹ ^ 120 * V := by
    have e1 : (2⁻¹ : ℝ) ^ 230 ≤ 2⁻¹ ^ 121 := pow_le_pow_of_le_one (by norm_num) (by norm_num) (by norm_num)
    have e2 : (2⁻¹ : ℝ) ^ 230 * 1 ≤ 2⁻¹ ^ 121 * V := by
      have := mul_le_mul_of_nonneg_left hV (by positivity : (0 : ℝ) ≤ 2⁻¹ ^ 121)
      refine le_trans ?_ this
      rw [← pow_add, mul_one]
      exact pow_le_pow_of_le_one (by norm_num) (by norm_num) (by norm_num)
    have e3 := mul_le_mul_of_nonneg_right e1 hV0.le
    have e4 : (2⁻¹ : ℝ) ^ 120 * V = 2⁻¹ ^ 121 * V + 2⁻¹ ^ 121 * V := by ring
    rw [e4, mul_add]
    linarith
  have hV2 : (2⁻¹ : ℝ) ^ 120 * V ≤ 2⁻¹ ^ 60 * V :=
    mul_le_mul_of_nonneg_right (pow_le_pow_of_le_one (by norm_num) (by norm_num) (by norm_num)) hV0.le
  have hV3 : (l.length : ℝ) * (2⁻¹ ^ 230 * (V + 1)) ≤ l.length * (2⁻¹ ^ 60 * V) :=
    mul_le_mul_of_nonneg_left (hV1.trans hV2) (by linarith)
  have hlV : 1 * V ≤ l.length * V := mul_le_mul_of_nonneg_right hl hV0.le
  have h4 : |total t l - total (fun a => a.1 / total (·.1) l * v a) l| ≤ l.length * (2⁻¹ ^ 50 * V) * 2.01 := by
    refine h2.trans ?_
    norm_num at hV3 ⊢
    linarith
  -- the absolute values add up to little more than `V`
  have h5 : total (fun a => |t a|) l ≤ 1.5 * V := by
    have e1 : ∀ a ∈ l, |t a| ≤ V * (a.1 / total (·.1) l) +
        ((l.length * 2⁻¹ ^ 50 + 2⁻¹ ^ 50) * V * (a.1 / total (·.1) l) + 2⁻¹ ^ 230 * (V + 1)) := by
      intro a ha
      have hq : 0 ≤ a.1 / total (·.1) l := div_nonneg (hnn a ha) hS.le
      have := abs_sub_abs_le_abs_sub (t a) (a.1 / total (·.1) l * v a)
      have e2 : |a.1 / total (·.1) l * v a| ≤ V * (a.1 / total (·.1) l) := by
        rw [abs_mul, abs_of_nonneg hq, mul_comm]
        exact mul_le_mul_of_nonneg_right (hv a ha) hq
      linarith [h1 a ha]
    have e2 := total_le e1
    rw [total_add, h3, total_mul, total_shares hs, mul_one] at e2
    have e3 := length_small hn (2⁻¹ ^ 50 * V) (by positivity)
    norm_num at hV3 e2 e3 ⊢
    linarith
  exact ⟨h4, h5⟩

include hrd hnn hs hn in
theorem weighted_near {t v : ℝ × Pose2d → ℝ} {V : ℝ} (hV : 2⁻¹ ^ 100 ≤ V) (hv : ∀ a ∈ l, |v a| ≤ V)
    (ht : ∀ a ∈ l, |t a - rd (a.1 / sumWeights rd l) * v a| ≤ 2⁻¹ ^ 51 * V * |rd (a.1 / sumWeights rd l)| + 2⁻¹ ^ 240 * (V + 1)) :
    |l.foldl (fun s a => rd (s + t a)) 0 - total (fun a => a.1 / total (·.1) l * v a) l| ≤ l.length * (2⁻¹ ^ 48 * V) := by
  have hl := length_pos' hs
  have hV0 : 0 < V := lt_of_lt_of_le (by positivity) hV
  have hlV : 1 * V ≤ l.length * V := mul_le_mul_of_nonneg_right hl hV0.le
  obtain ⟨h4, h5⟩ := weighted_terms hrd hnn hs hn hV hv ht
  have h6 := sum_near' hrd t (A := 1.5 * V) (by
    have : (2⁻¹ : ℝ) ^ 120 ≤ 2⁻¹ ^ 100 := pow_le_pow_of_le_one (by norm_num) (by norm_num) (by norm_num)
    norm_num at this hV ⊢
    linarith) hn h5
  have h7 := abs_sub_le (l.foldl (fun s a => rd (s + t a)) 0) (total t l) (total (fun a => a.1 / total (·.1) l * v a) l)
  norm_num at h4 h6 ⊢
  linarith

include hrd hnn hs hn in
/-- The same, added to a value. -/
theorem weighted_from {t v : ℝ × Pose2d → ℝ} {V : ℝ} (hV : 2⁻¹ ^ 100 ≤ V) (hv : ∀ a ∈ l, |v a| ≤ V)
    (ht : ∀ a ∈ l, |t a - rd (a.1 / sumWeights rd l) * v a| ≤ 2⁻¹ ^ 51 * V * |rd (a.1 / sumWeights rd l)| + 2⁻¹ ^ 240 * (V + 1)) (s0 : ℝ) :
    |l.foldl (fun s a => rd (s + t a)) s0 - (s0 + total (fun a => a.1 / total (·.1) l * v a) l)| ≤ l.length * (2⁻¹ ^ 48 * (|s0| + V)) := by
  have hl := length_pos' hs
  have hV0 : 0 < V := lt_of_lt_of_le (by positivity) hV
  have hlV : 1 * V ≤ l.length * V := mul_le_mul_of_nonneg_right hl hV0.le
  have hlS : 0 ≤ l.length * |s0| := by positivity
  obtain ⟨h4, h5⟩ := weighted_terms hrd hnn hs hn hV hv ht
  have h6 := sum_aux hrd t (A := |s0| + 1.5 * V) (by
    have : (2⁻¹ : ℝ) ^ 120 ≤ 2⁻¹ ^ 100 := pow_le_pow_of_le_one (by norm_num) (by norm_num) (by norm_num)
    have h0 := abs_nonneg s0
    norm_num at this hV ⊢
    linarith) hn l s0 s0 0 (by simp) (by simp) (by linarith)
  have h7 := abs_sub_le (l.foldl (fun s a => rd (s + t a)) s0) (s0 + total t l) (s0 + total (fun a => a.1 / total (·.1) l * v a) l)
  rw [add_sub_add_left_eq_sub] at h7
  norm_num at h4 h6 ⊢
  linarith

end

end

end Ndt.Rounded
