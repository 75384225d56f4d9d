import Verif.Props.DiscreteProps
import Verif.Proof.RoundedFilter
import Verif.Proof.Rounded

/-! # C136: drawing particles by their weights in double precision -/

namespace Ndt

noncomputable section

open Spec Discrete

/-! ## What is drawn -/

theorem foldl_rd_nonneg {rd : ℝ → ℝ} (hr : RoundsToNearest rd) : ∀ (l : List ℝ) (s : ℝ), 0 ≤ s → (∀ w ∈ l, 0 ≤ w) →
    0 ≤ l.foldl (fun s w => rd (s + w)) s := by
  intro l
  induction l with
  | nil => exact fun s hs _ => hs
  | cons a l ih =>
    intro s hs hl
    exact ih _ (hr.nonneg (add_nonneg hs (hl a List.mem_cons_self))) fun w hw => hl w (List.mem_cons_of_mem _ hw)

theorem foldl_rd_ge {rd : ℝ → ℝ} (hr : RoundsToNearest rd) : ∀ (l : List ℝ) (s x : ℝ), IsDouble x → 0 ≤ s → (∀ w ∈ l, 0 ≤ w) →
    (x ≤ s ∨ x ∈ l) → x ≤ l.foldl (fun s w => rd (s + w)) s := by
  intro l
  induction l with
  | nil =>
    intro s x _ _ _ h
    simpa using h
  | cons a l ih =>
    intro s x hx hs hl h
    have ha := hl a List.mem_cons_self
    refine ih _ x hx (hr.nonneg (add_nonneg hs ha)) (fun w hw => hl w (List.mem_cons_of_mem _ hw)) ?_
    rcases h with h | h
    · exact Or.inl (hr.ge_of_ge hx (by linarith))
    · rcases List.mem_cons.mp h with rfl | h
      · exact Or.inl (hr.ge_of_ge hx (by linarith))
      · exact Or.inr h

/-- The sum of weights that are doubles, not negative and not all zero, is positive. -/
theorem realTotal_pos {rd : ℝ → ℝ} (hr : RoundsToNearest rd) {v : List ℝ} (hv : ∀ w ∈ v, 0 ≤ w) {x : ℝ} (hx : x ∈ v) (hxd : IsDouble x) (h0 : 0 < x) :
    0 < realTotal rd v :=
  lt_of_lt_of_le h0 (foldl_rd_ge hr v 0 x hxd le_rfl hv (Or.inr hx))

/-- **C136** Weights that are doubles, not negative and not all zero, pass the check of the library. -/
theorem c136_passes_check {rd : ℝ → ℝ} (hr : RoundsToNearest rd) {f : Filter} {v : List ℝ} (hw : f.weights = v.map Fl.fin) (hv : ∀ w ∈ v, 0 ≤ w ∧ IsDouble w)
    (hx : ∃ w ∈ v, w ≠ 0) (err z : ℝ) (p : ℕ → ℝ) : f.checkedResample rd err z p = f.resample err z (f.drawn rd p) := by
  obtain ⟨x, hx, h0⟩ := hx
  rw [Filter.checkedResample, if_neg]
  rintro ⟨-, h⟩
  rw [hw, total_fin, Fl.fin_lt] at h
  exact h (realTotal_pos hr (fun w hw => (hv w hw).1) hx (hv x hx).2 (lt_of_le_of_ne (hv x hx).1 h0.symm))

section

variable {rd : ℝ → ℝ} (hr : RoundsToNearest rd) {v : List ℝ} (hv : ∀ w ∈ v, 0 ≤ w) (ht : 0 < realTotal rd v)

include hr hv ht in
theorem realShares_nonneg : ∀ w ∈ realShares rd v, 0 ≤ w := by
  intro w hw
  obtain ⟨x, hx, rfl⟩ := List.mem_map.mp hw
  exact hr.nonneg (div_nonneg (hv x hx) ht.le)

include hr in
theorem sumTo_isDouble (v : List ℝ) : ∀ {i : ℕ}, i < v.length → IsDouble (sumTo rd (realShares rd v) i) := by
  intro i hi
  cases i with
  | zero =>
    rw [sumTo_zero]
    cases v with
    | nil => simp at hi
    | cons a v => exact hr.isDouble _
  | succ i =>
    rw [sumTo_succ _ (by rw [realShares, List.length_map]; exact hi)]
    exact hr.isDouble _

include hr hv ht in
theorem sumTo_mono : ∀ {i j : ℕ}, i ≤ j → j < v.length → sumTo rd (realShares rd v) i ≤ sumTo rd (realShares rd v) j := by
  intro i j hij
  induction j, hij using Nat.le_induction with
  | base => exact fun _ => le_rfl
  | succ j _ ih =>
    intro hj
    have hl : j + 1 < (realShares rd v).length := by rw [realShares, List.length_map]; exact hj
    rw [sumTo_succ _ hl]
    have h1 := realShares_nonneg hr hv ht _ (List.getElem_mem hl)
    exact (ih (by omega)).trans (hr.ge_of_ge (sumTo_isDouble hr v (by omega)) (by linarith))

include hr hv ht in
/-- **C136** (partial: a uniform number other than zero, and not the last particle) The particle drawn has a positive weight. -/
theorem c136_positive_partial {p : ℝ} (hp0 : 0 < p) (hp1 : p < 1) : ∃ r : ℝ, (v.map Fl.fin)[pick rd (v.map Fl.fin) p]? = some (.fin r) ∧
    (0 < r ∨ pick rd (v.map Fl.fin) p + 1 = v.length) := by
  have hne : v ≠ [] := by rintro rfl; simp [realTotal] at ht
  have hlt := c135_in_range rd (ws := v.map Fl.fin) (by simpa using hne) hp1
  rw [List.length_map] at hlt
  refine ⟨v[pick rd (v.map Fl.fin) p], by rw [List.getElem?_map, List.getElem?_eq_getElem hlt]; rfl, ?_⟩
  by_cases hlast : pick rd (v.map Fl.fin) p + 1 = v.length
  · exact Or.inr hlast
  left
  obtain ⟨-, b, c⟩ := pick_fin (rd := rd) ht.ne' (by omega) hp1.le
  have hc := c (by omega)
  by_contra hcon
  have h0 : v[pick rd (v.map Fl.fin) p] = 0 := le_antisymm (not_lt.mp hcon) (hv _ (List.getElem_mem _))
  have hl : (realShares rd v).length = v.length := by rw [realShares, List.length_map]
  have hs : (realShares rd v)[pick rd (v.map Fl.fin) p]'(by omega) = 0 := by
    simp only [realShares, List.getElem_map, h0, zero_div]
    exact hr.exact isDouble_zero
  rcases Nat.eq_zero_or_pos (pick rd (v.map Fl.fin) p) with h | h
  · rw [h, sumTo_zero] at hc
    have : (realShares rd v).headD 0 = 0 := by
      cases hv' : realShares rd v with
      | nil => rfl
      | cons a l =>
        simp only [h, hv', List.getElem_cons_zero] at hs
        exact hs
    linarith
  · obtain ⟨k, hk⟩ : ∃ k, pick rd (v.map Fl.fin) p = k + 1 := ⟨_, (Nat.succ_pred_eq_of_pos h).symm⟩
    have hb := b k hk
    have hs' : (realShares rd v)[k + 1]'(by omega) = 0 := by simpa only [hk] using hs
    rw [hk, sumTo_succ _ (by omega), hs', add_zero, hr.exact (sumTo_isDouble hr v (by omega))] at hc
    linarith

include hr hv ht in
/-- The sums between which the numbers are that draw particle `i`. -/
theorem pick_iff {p : ℝ} (hp0 : 0 < p) (hp1 : p < 1) {i : ℕ} (hi : i < v.length) : pick rd (v.map Fl.fin) p = i ↔
    (if i = 0 then 0 else sumTo rd (realShares rd v) (i - 1)) < p ∧ p ≤ (if i + 1 = v.length then 1 else sumTo rd (realShares rd v) i) := by
  have key : pick rd (v.map Fl.fin) p < v.length ∧
      (if pick rd (v.map Fl.fin) p = 0 then 0 else sumTo rd (realShares rd v) (pick rd (v.map Fl.fin) p - 1)) < p ∧
      p ≤ (if pick rd (v.map Fl.fin) p + 1 = v.length then 1 else sumTo rd (realShares rd v) (pick rd (v.map Fl.fin) p)) := by
    by_cases h2 : 2 ≤ v.length
    · obtain ⟨a, b, c⟩ := pick_fin (rd := rd) ht.ne' h2 hp1.le
      refine ⟨a, ?_, ?_⟩
      · split
        · exact hp0
        · exact b _ (by omega)
      · split
        · exact hp1.le
        · exact c (by omega)
    · have h0 : pick rd (v.map Fl.fin) p = 0 := by rw [pick, if_pos (by rw [List.length_map]; omega)]
      rw [h0, if_pos rfl, if_pos (by omega)]
      exact ⟨by omega, hp0, hp1.le⟩
  obtain ⟨a, b, c⟩ := key
  constructor
  · intro h
    rw [h] at b c
    exact ⟨b, c⟩
  · rintro ⟨d, e⟩
    rcases lt_trichotomy (pick rd (v.map Fl.fin) p) i with h | h | h
    · rw [if_neg (by omega)] at c d
      have := sumTo_mono hr hv ht (show pick rd (v.map Fl.fin) p ≤ i - 1 by omega) (by omega)
      linarith
    · exact h
    · rw [if_neg (by omega)] at b e
      have := sumTo_mono hr hv ht (show i ≤ pick rd (v.map Fl.fin) p - 1 by omega) (by omega)
      linarith

end

/-! ## With which chance -/

theorem share_near {rd : ℝ → ℝ} (hr : RoundsToNearest rd) {v : List ℝ} (hv : ∀ w ∈ v, 0 ≤ w) (hs : 2⁻¹ ^ 100 ≤ v.sum) (hn : v.length ≤ 2 ^ 40) {w : ℝ} (hw : 0 ≤ w) :
    |rd (w / realTotal rd v) - w / v.sum| ≤ v.length * 2⁻¹ ^ 50 * (w / v.sum) + 2⁻¹ ^ 250 := by
  let l : List (ℝ × Pose2d) := v.map fun w => (w, Pose2d.zero)
  have e1 : Rounded.sumWeights rd l = realTotal rd v := by
    simp only [Rounded.sumWeights, l, realTotal, List.foldl_map]
  have e2 : Spec.total (·.1) l = v.sum := by
    simp [Spec.total, l, Function.comp_def]
  have e3 : l.length = v.length := by simp [l]
  have := Rounded.weight_near hr (l := l) (by
    intro a ha
    obtain ⟨x, hx, rfl⟩ := List.mem_map.mp ha
    exact hv x hx) (by rw [e2]; exact hs) (by rw [e3]; exact hn) hw
  rwa [e1, e2, e3] at this

theorem sumTo_near {rd : ℝ → ℝ} (hr : RoundsToNearest rd) {v : List ℝ} (hv : ∀ w ∈ v, 0 ≤ w) (hs : 2⁻¹ ^ 100 ≤ v.sum) (hn : v.length ≤ 2 ^ 40) :
    ∀ {i : ℕ}, i < v.length → |sumTo rd (realShares rd v) i - partOf v (i + 1)| ≤
      v.length * 2⁻¹ ^ 50 * partOf v (i + 1) + (i + 1 : ℕ) * 2⁻¹ ^ 51 := by
  have hS : 0 < v.sum := lt_of_lt_of_le (by positivity) hs
  have hn' : (v.length : ℝ) ≤ 2 ^ 40 := by exact_mod_cast hn
  intro i
  induction i with
  | zero =>
    intro hi
    have h1 := share_near hr hv hs hn (hv _ (List.getElem_mem hi))
    have e : sumTo rd (realShares rd v) 0 = rd (v[0] / realTotal rd v) := by
      rw [sumTo_zero]
      cases v with
      | nil => simp at hi
      | cons a v => rfl
    have e2 : partOf v (0 + 1) = v[0] / v.sum := by
      rw [partOf_succ hi]; simp [partOf]
    rw [e, e2]
    refine h1.trans ?_
    have : (2⁻¹ : ℝ) ^ 250 ≤ (0 + 1 : ℕ) * 2⁻¹ ^ 51 := by norm_num
    linarith
  | succ i ih =>
    intro hi
    have hl : i + 1 < (realShares rd v).length := by rw [realShares, List.length_map]; exact hi
    have h1 := share_near hr hv hs hn (hv _ (List.getElem_mem hi))
    have h2 := ih (by omega)
    have hP1 : partOf v (i + 1 + 1) ≤ 1 := by
      have := partOf_mono hv (show i + 1 + 1 ≤ v.length by omega) le_rfl
      rwa [partOf_all hS] at this
    have hP0 : 0 ≤ partOf v (i + 1 + 1) := by
      have := partOf_mono hv (Nat.zero_le (i + 1 + 1)) (by omega)
      simpa [partOf] using this
    have e : (realShares rd v)[i + 1] = rd (v[i + 1] / realTotal rd v) := by simp [realShares]
    rw [sumTo_succ _ hl, e]
    have hps : partOf v (i + 1 + 1) = partOf v (i + 1) + v[i + 1] / v.sum := partOf_succ hi
    set c := sumTo rd (realShares rd v) i
    set u := rd (v[i + 1] / realTotal rd v)
    set q := v[i + 1] / v.sum
    set P := partOf v (i + 1 + 1)
    set P0 := partOf v (i + 1)
    have h3 : |c + u - P| ≤ v.length * 2⁻¹ ^ 50 * P + (i + 1 : ℕ) * 2⁻¹ ^ 51 + 2⁻¹ ^ 250 := by
      have e1 : c + u - P = (c - P0) + (u - q) := by rw [hps]; ring
      rw [e1, hps]
      refine (abs_add_le _ _).trans ?_
      have : (v.length : ℝ) * 2⁻¹ ^ 50 * (P0 + q) = v.length * 2⁻¹ ^ 50 * P0 + v.length * 2⁻¹ ^ 50 * q := by ring
      rw [this]
      linarith
    have hi' : ((i + 1 : ℕ) : ℝ) ≤ 2 ^ 40 := by
      have : i + 1 ≤ 2 ^ 40 := by omega
      exact_mod_cast this
    have h4 : |c + u| ≤ 1.5 := by
      have e1 := abs_sub_abs_le_abs_sub (c + u) P
      rw [abs_of_nonneg hP0] at e1
      have e2 : (v.length : ℝ) * 2⁻¹ ^ 50 * P ≤ 2 ^ 40 * 2⁻¹ ^ 50 * 1 := by
        apply mul_le_mul _ hP1 hP0 (by positivity)
        exact mul_le_mul_of_nonneg_right hn' (by positivity)
      have e3 : ((i + 1 : ℕ) : ℝ) * 2⁻¹ ^ 51 ≤ 2 ^ 40 * 2⁻¹ ^ 51 := mul_le_mul_of_nonneg_right hi' (by positivity)
      have e4 : (2⁻¹ : ℝ) ^ 250 ≤ 2⁻¹ ^ 10 := pow_le_pow_of_le_one (by norm_num) (by norm_num) (by norm_num)
      norm_num at e2 e3 e4 ⊢
      norm_num at h3 e1
      linarith
    have h5 := Rounded.rd_err hr h4
    have h6 := abs_sub_le (rd (c + u)) (c + u) P
    have e4 : (2⁻¹ : ℝ) ^ 250 + 2⁻¹ ^ 250 + 2⁻¹ ^ 53 * 1.5 ≤ 2⁻¹ ^ 51 := by norm_num
    have e5 : ((i + 1 + 1 : ℕ) : ℝ) * 2⁻¹ ^ 51 = (i + 1 : ℕ) * 2⁻¹ ^ 51 + 2⁻¹ ^ 51 := by push_cast; ring
    rw [e5]
    linarith

/-- **C136** The numbers that draw the particle `i` are an interval, whose ends are, up to `n 2^-49`, the part of the weights that the particles before it
have and that with its own: its chance is its share up to `n 2^-48`. -/
theorem c136_chance {rd : ℝ → ℝ} (hr : RoundsToNearest rd) {v : List ℝ} (hv : ∀ w ∈ v, 0 ≤ w) (hs : 2⁻¹ ^ 100 ≤ v.sum) (hn : v.length ≤ 2 ^ 40)
    {i : ℕ} (hi : i < v.length) : ∃ lo hi : ℝ, (∀ p, 0 < p → p < 1 → (pick rd (v.map Fl.fin) p = i ↔ lo < p ∧ p ≤ hi)) ∧
      |lo - (v.take i).sum / v.sum| ≤ v.length * 2⁻¹ ^ 49 ∧ |hi - (v.take (i + 1)).sum / v.sum| ≤ v.length * 2⁻¹ ^ 49 := by
  have hS : 0 < v.sum := lt_of_lt_of_le (by positivity) hs
  have hT : 0 < realTotal rd v := by
    let l : List (ℝ × Pose2d) := v.map fun w => (w, Pose2d.zero)
    have e1 : Rounded.sumWeights rd l = realTotal rd v := by
      simp only [Rounded.sumWeights, l, realTotal, List.foldl_map]
    have e2 : Spec.total (·.1) l = v.sum := by
      simp [Spec.total, l, Function.comp_def]
    have e3 : l.length = v.length := by simp [l]
    have := Rounded.sumWeights_near hr (l := l) (by
      intro a ha
      obtain ⟨x, hx, rfl⟩ := List.mem_map.mp ha
      exact hv x hx) (by rw [e2]; exact hs) (by rw [e3]; exact hn)
    rw [e1, e2, e3] at this
    have h1 := (abs_le.mp this).1
    have hn' : (v.length : ℝ) ≤ 2 ^ 40 := by exact_mod_cast hn
    have h2 := mul_le_mul_of_nonneg_right hn' (by positivity : (0 : ℝ) ≤ 2⁻¹ ^ 52 * v.sum)
    norm_num at h1 h2
    linarith
  have hbound : ∀ k < v.length, |sumTo rd (realShares rd v) k - partOf v (k + 1)| ≤ v.length * 2⁻¹ ^ 49 := by
    intro k hk
    refine (sumTo_near hr hv hs hn hk).trans ?_
    have hP1 : partOf v (k + 1) ≤ 1 := by
      have := partOf_mono hv (show k + 1 ≤ v.length by omega) le_rfl
      rwa [partOf_all hS] at this
    have h1 : (v.length : ℝ) * 2⁻¹ ^ 50 * partOf v (k + 1) ≤ v.length * 2⁻¹ ^ 50 * 1 :=
      mul_le_mul_of_nonneg_left hP1 (by positivity)
    have h2 : ((k + 1 : ℕ) : ℝ) ≤ v.length := by exact_mod_cast hk
    have h3 := mul_le_mul_of_nonneg_right h2 (by positivity : (0 : ℝ) ≤ 2⁻¹ ^ 51)
    have h4 : (v.length : ℝ) * 2⁻¹ ^ 50 * 1 + v.length * 2⁻¹ ^ 51 ≤ v.length * 2⁻¹ ^ 49 := by
      have : (0 : ℝ) ≤ v.length := by positivity
      norm_num
      linarith
    linarith
  refine ⟨_, _, fun p h0 h1 => pick_iff hr hv hT h0 h1 hi, ?_, ?_⟩
  · show |_ - partOf v i| ≤ _
    split
    · rename_i h
      rw [h]
      simp only [partOf, List.take_zero, List.sum_nil, zero_div, sub_zero, abs_zero]
      positivity
    · have := hbound (i - 1) (by omega)
      rwa [show i - 1 + 1 = i by omega] at this
  · show |_ - partOf v (i + 1)| ≤ _
    split
    · rename_i h
      rw [h, partOf_all hS, sub_self, abs_zero]
      positivity
    · exact hbound i hi

/-! ## Concrete cases -/

/-- 0.2, 0.4, 0.3, 0.1 and 0 as doubles. -/
def fiveWeights : List ℝ := [(3602879701896397 / 2 ^ 54), (3602879701896397 / 2 ^ 53), (5404319552844595 / 2 ^ 54), (3602879701896397 / 2 ^ 55), 0]

theorem fiveWeights_near : fiveWeights = [rnd 0.2, rnd 0.4, rnd 0.3, rnd 0.1, 0] := by
  have w0 : rnd 0.2 = (3602879701896397 / 2 ^ 54) := by
    rw [Rounded.rnd_eval' (x := 0.2) (k := 7205759403792794) 55 (by norm_num) (by left; constructor <;> norm_num) (by left; constructor <;> norm_num)]; norm_num
  have w1 : rnd 0.4 = (3602879701896397 / 2 ^ 53) := by
    rw [Rounded.rnd_eval' (x := 0.4) (k := 7205759403792794) 54 (by norm_num) (by left; constructor <;> norm_num) (by left; constructor <;> norm_num)]; norm_num
  have w2 : rnd 0.3 = (5404319552844595 / 2 ^ 54) := by
    rw [Rounded.rnd_eval' (x := 0.3) (k := 5404319552844595) 54 (by norm_num) (by left; constructor <;> norm_num) (by left; constructor <;> norm_num)]; norm_num
  have w3 : rnd 0.1 = (3602879701896397 / 2 ^ 55) := by
    rw [Rounded.rnd_eval' (x := 0.1) (k := 7205759403792794) 56 (by norm_num) (by left; constructor <;> norm_num) (by left; constructor <;> norm_num)]; norm_num
  rw [fiveWeights, w0, w1, w2, w3]

theorem fiveWeights_sums : realTotal rnd fiveWeights = (4503599627370497 / 2 ^ 52) ∧ sumTo rnd (realShares rnd fiveWeights) 3 = (4503599627370495 / 2 ^ 52) := by
  have t0 : rnd (0 + (3602879701896397 / 2 ^ 54)) = (3602879701896397 / 2 ^ 54) := by
    rw [Rounded.rnd_eval' (x := 0 + (3602879701896397 / 2 ^ 54)) (k := 7205759403792794) 55 (by norm_num) (by left; constructor <;> norm_num) (by left; constructor <;> norm_num)]; norm_num
  have t1 : rnd ((3602879701896397 / 2 ^ 54) + (3602879701896397 / 2 ^ 53)) = (1351079888211149 / 2 ^ 51) := by
    rw [Rounded.rnd_eval' (x := (3602879701896397 / 2 ^ 54) + (3602879701896397 / 2 ^ 53)) (k := 5404319552844596) 53 (by norm_num) (by left; constructor <;> norm_num) (by right; exact ⟨Or.inl (by norm_num), by decide⟩)]; norm_num
  have t2 : rnd ((1351079888211149 / 2 ^ 51) + (5404319552844595 / 2 ^ 54)) = (4053239664633447 / 2 ^ 52) := by
    rw [Rounded.rnd_eval' (x := (1351079888211149 / 2 ^ 51) + (5404319552844595 / 2 ^ 54)) (k := 8106479329266894) 53 (by norm_num) (by left; constructor <;> norm_num) (by right; exact ⟨Or.inl (by norm_num), by decide⟩)]; norm_num
  have t3 : rnd ((4053239664633447 / 2 ^ 52) + (3602879701896397 / 2 ^ 55)) = (4503599627370497 / 2 ^ 52) := by
    rw [Rounded.rnd_eval' (x := (4053239664633447 / 2 ^ 52) + (3602879701896397 / 2 ^ 55)) (k := 4503599627370497) 52 (by norm_num) (by left; constructor <;> norm_num) (by left; constructor <;> norm_num)]; norm_num
  have t4 : rnd ((4503599627370497 / 2 ^ 52) + 0) = (4503599627370497 / 2 ^ 52) := by
    rw [Rounded.rnd_eval' (x := (4503599627370497 / 2 ^ 52) + 0) (k := 4503599627370497) 52 (by norm_num) (by left; constructor <;> norm_num) (by left; constructor <;> norm_num)]; norm_num
  have u0 : rnd ((3602879701896397 / 2 ^ 54) / (4503599627370497 / 2 ^ 52)) = (900719925474099 / 2 ^ 52) := by
    rw [Rounded.rnd_eval' (x := (3602879701896397 / 2 ^ 54) / (4503599627370497 / 2 ^ 52)) (k := 7205759403792792) 55 (by norm_num) (by left; constructor <;> norm_num) (by left; constructor <;> norm_num)]; norm_num
  have u1 : rnd ((3602879701896397 / 2 ^ 53) / (4503599627370497 / 2 ^ 52)) = (900719925474099 / 2 ^ 51) := by
    rw [Rounded.rnd_eval' (x := (3602879701896397 / 2 ^ 53) / (4503599627370497 / 2 ^ 52)) (k := 7205759403792792) 54 (by norm_num) (by left; constructor <;> norm_num) (by left; constructor <;> norm_num)]; norm_num
  have u2 : rnd ((5404319552844595 / 2 ^ 54) / (4503599627370497 / 2 ^ 52)) = (2702159776422297 / 2 ^ 53) := by
    rw [Rounded.rnd_eval' (x := (5404319552844595 / 2 ^ 54) / (4503599627370497 / 2 ^ 52)) (k := 5404319552844594) 54 (by norm_num) (by left; constructor <;> norm_num) (by left; constructor <;> norm_num)]; norm_num
  have u3 : rnd ((3602879701896397 / 2 ^ 55) / (4503599627370497 / 2 ^ 52)) = (900719925474099 / 2 ^ 53) := by
    rw [Rounded.rnd_eval' (x := (3602879701896397 / 2 ^ 55) / (4503599627370497 / 2 ^ 52)) (k := 7205759403792792) 56 (by norm_num) (by left; constructor <;> norm_num) (by left; constructor <;> norm_num)]; norm_num
  have u4 : rnd (0 / (4503599627370497 / 2 ^ 52)) = 0 := by
    rw [show (0 / (4503599627370497 / 2 ^ 52) : ℝ) = 0 by norm_num]; exact rnd_zero
  have c1 : rnd ((900719925474099 / 2 ^ 52) + (900719925474099 / 2 ^ 51)) = (2702159776422297 / 2 ^ 52) := by
    rw [Rounded.rnd_eval' (x := (900719925474099 / 2 ^ 52) + (900719925474099 / 2 ^ 51)) (k := 5404319552844594) 53 (by norm_num) (by left; constructor <;> norm_num) (by left; constructor <;> norm_num)]; norm_num
  have c2 : rnd ((2702159776422297 / 2 ^ 52) + (2702159776422297 / 2 ^ 53)) = (8106479329266891 / 2 ^ 53) := by
    rw [Rounded.rnd_eval' (x := (2702159776422297 / 2 ^ 52) + (2702159776422297 / 2 ^ 53)) (k := 8106479329266891) 53 (by norm_num) (by left; constructor <;> norm_num) (by left; constructor <;> norm_num)]; norm_num
  have c3 : rnd ((8106479329266891 / 2 ^ 53) + (900719925474099 / 2 ^ 53)) = (4503599627370495 / 2 ^ 52) := by
    rw [Rounded.rnd_eval' (x := (8106479329266891 / 2 ^ 53) + (900719925474099 / 2 ^ 53)) (k := 9007199254740990) 53 (by norm_num) (by left; constructor <;> norm_num) (by left; constructor <;> norm_num)]; norm_num
  have ht : realTotal rnd fiveWeights = (4503599627370497 / 2 ^ 52) := by
    simp only [realTotal, fiveWeights, List.foldl_cons, List.foldl_nil, t0, t1, t2, t3, t4]
  refine ⟨ht, ?_⟩
  rw [realShares, ht]
  simp only [fiveWeights, List.map_cons, List.map_nil, u0, u1, u2, u3, u4, sumTo, List.tail_cons, List.headD_cons,
    List.take_succ_cons, List.take_zero, List.foldl_cons, List.foldl_nil, c1, c2, c3]

/-- **C136** (refuted in general) Five particles with the weights 0.2, 0.4, 0.3, 0.1 and 0: the computed sum of the first four shares is less than one, and
the largest double below one draws the last particle, which has no weight. -/
theorem c136_weightless_last_particle_drawn :
    pick rnd ([rnd 0.2, rnd 0.4, rnd 0.3, rnd 0.1, 0].map Fl.fin) (1 - 2⁻¹ ^ 53) = 4 ∧ IsDouble (1 - 2⁻¹ ^ 53) := by
  refine ⟨?_, ?_⟩
  · rw [← fiveWeights_near]
    obtain ⟨h1, h2⟩ := fiveWeights_sums
    rw [pick_iff rnd_rounds (by norm_num [fiveWeights]) (by rw [h1]; norm_num) (by norm_num) (by norm_num) (by simp [fiveWeights]), if_neg (by norm_num),
      if_pos (by simp [fiveWeights])]
    refine ⟨?_, by norm_num⟩
    show sumTo rnd (realShares rnd fiveWeights) 3 < _
    rw [h2]
    norm_num
  · have := isDouble_dyadic (k := 2 ^ 53 - 1) (e := -53) (by norm_num) (by norm_num)
    rw [show (1 - 2⁻¹ ^ 53 : ℝ) = ((2 ^ 53 - 1 : ℤ) : ℝ) * 2 ^ (-53 : ℤ) by norm_num]
    exact this

/-- The hypotheses are met. -/
example : (∀ w ∈ fiveWeights, 0 ≤ w) ∧ 0 < realTotal rnd fiveWeights ∧ 2⁻¹ ^ 100 ≤ fiveWeights.sum ∧ fiveWeights.length ≤ 2 ^ 40 := by
  refine ⟨by norm_num [fiveWeights], ?_, by norm_num [fiveWeights], by norm_num [fiveWeights]⟩
  rw [fiveWeights_sums.1]
  norm_num

end

end Ndt
