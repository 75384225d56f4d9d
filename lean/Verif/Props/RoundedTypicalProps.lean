import Verif.Model.RoundedTypical
import Verif.Spec.RoundedTypical
import Verif.Proof.RoundedPose

/-! # Property C148: the typical response in double precision -/

namespace Ndt

open Rounded Spec

noncomputable section

/-- After one comes one and an ulp. -/
theorem isDouble_above_one {r : ℝ} (h : IsDouble r) (h1 : 1 < r) : 1 + 2⁻¹ ^ 52 ≤ r := by
  obtain ⟨k, e, hk, -, rfl⟩ := h
  have hp : (0 : ℝ) < 2 ^ e := zpow_pos (by norm_num) _
  rcases le_or_gt 0 e with he | he
  · obtain ⟨n, rfl⟩ := Int.eq_ofNat_of_zero_le he
    have h2 : (1 : ℤ) < k * 2 ^ n := by
      have : (k : ℝ) * 2 ^ ((n : ℤ)) = ((k * 2 ^ n : ℤ) : ℝ) := by push_cast; rw [zpow_natCast]
      rw [this] at h1
      exact_mod_cast h1
    have h3 : (2 : ℝ) ≤ (k : ℝ) * 2 ^ ((n : ℕ) : ℤ) := by
      rw [zpow_natCast]
      have : (2 : ℤ) ≤ k * 2 ^ n := by omega
      exact_mod_cast this
    norm_num at h3 ⊢
    linarith
  · obtain ⟨n, hn⟩ := Int.eq_ofNat_of_zero_le (show 0 ≤ -e by omega)
    have e1 : (2 : ℝ) ^ e = (2 ^ n)⁻¹ := by
      rw [show e = -(n : ℤ) by omega, zpow_neg, zpow_natCast]
    rw [e1] at h1 ⊢
    have hq : (0 : ℝ) < 2 ^ n := by positivity
    rw [← div_eq_mul_inv, lt_div_iff₀ hq, one_mul] at h1
    have h2 : (2 : ℤ) ^ n < k := by exact_mod_cast h1
    have h3 : (2 : ℤ) ^ n < 2 ^ 53 := by
      have := (abs_lt.mp hk).2
      omega
    have h4 : n ≤ 52 := by
      have : n < 53 := (Nat.pow_lt_pow_iff_right (a := 2) (by norm_num)).mp (by exact_mod_cast h3)
      omega
    have h5 : (2 : ℝ) ^ n + 1 ≤ k := by
      have : (2 : ℤ) ^ n + 1 ≤ k := h2
      exact_mod_cast this
    have h6 : (2⁻¹ : ℝ) ^ 52 ≤ 2⁻¹ ^ n := pow_le_pow_of_le_one (by norm_num) (by norm_num) h4
    rw [← div_eq_mul_inv, le_div_iff₀ hq]
    have h7 : (2⁻¹ : ℝ) ^ n * 2 ^ n = 1 := by rw [← mul_pow]; norm_num
    nlinarith

variable {rd : ℝ → ℝ}

/-- The constants. -/
theorem weights_near (h : RoundsToNearest rd) : |rd 0.95 - 0.95| ≤ 4.5e-17 ∧ |rd 0.05 - 0.05| ≤ 2.8e-18 := by
  have d1 : IsDouble ((8556839292003942 : ℤ) * 2 ^ (-53 : ℤ)) := isDouble_dyadic (by norm_num) (by norm_num)
  have d2 : IsDouble ((7205759403792794 : ℤ) * 2 ^ (-57 : ℤ)) := isDouble_dyadic (by norm_num) (by norm_num)
  constructor
  · refine (h.nearest _ _ d1).trans ?_
    norm_num [abs_le]
  · refine (h.nearest _ _ d2).trans ?_
    norm_num [abs_le]

/-- The sum of the constants, rounded, is not beyond one. -/
theorem weights_sum (h : RoundsToNearest rd) : -1 ≤ rd (-rd 0.95 + -rd 0.05) := by
  obtain ⟨h1, h2⟩ := weights_near h
  by_contra hlt
  push Not at hlt
  have h3 := isDouble_above_one (isDouble_neg (h.isDouble (-rd 0.95 + -rd 0.05))) (by linarith)
  have h4 := h.nearest (-rd 0.95 + -rd 0.05) (-1) (isDouble_neg isDouble_one)
  have h5 : |(-1 : ℝ) - (-rd 0.95 + -rd 0.05)| ≤ 5e-17 := by
    rw [abs_le] at h1 h2 ⊢
    norm_num at h1 h2 ⊢
    constructor <;> linarith [h1.1, h1.2, h2.1, h2.2]
  have h6 := abs_le.mp (h4.trans h5)
  rw [abs_le] at h1 h2
  norm_num at h1 h2 h3 h6
  linarith [h1.1, h1.2, h2.1, h2.2, h6.1, h6.2]

theorem typicalResponse_range (h : RoundsToNearest rd) {t s : ℝ} (t1 : -1 ≤ t) (t0 : t ≤ 0) (s1 : -1 ≤ s) (s0 : s ≤ 0) :
    -1 ≤ Rounded.typicalResponse rd t s ∧ Rounded.typicalResponse rd t s ≤ 0 := by
  have a0 : 0 ≤ rd 0.95 := h.nonneg (by norm_num)
  have c0 : 0 ≤ rd 0.05 := h.nonneg (by norm_num)
  have z : rd 0 = 0 := h.exact isDouble_zero
  have ea : rd (-rd 0.95) = -rd 0.95 := h.exact (isDouble_neg (h.isDouble _))
  have ec : rd (-rd 0.05) = -rd 0.05 := h.exact (isDouble_neg (h.isDouble _))
  have u1 : -rd 0.95 ≤ rd (rd 0.95 * t) := by rw [← ea]; exact h.mono (by nlinarith)
  have u2 : -rd 0.05 ≤ rd (rd 0.05 * s) := by rw [← ec]; exact h.mono (by nlinarith)
  have v1 : rd (rd 0.95 * t) ≤ 0 := by rw [← z]; exact h.mono (by nlinarith)
  have v2 : rd (rd 0.05 * s) ≤ 0 := by rw [← z]; exact h.mono (by nlinarith)
  unfold Rounded.typicalResponse
  constructor
  · exact (weights_sum h).trans (h.mono (by linarith))
  · calc _ ≤ rd 0 := h.mono (by linarith)
      _ = 0 := z

/-- **C148** In double precision as well, with scores between -1 and 0 the typical response stays between them for ever: rounding never takes it out. -/
theorem c148_in_range (h : RoundsToNearest rd) (scores : List ℝ) (hs : ∀ s ∈ scores, -1 ≤ s ∧ s ≤ 0) :
    -1 ≤ typicalAfter rd scores ∧ typicalAfter rd scores ≤ 0 := by
  unfold typicalAfter
  have key : ∀ (l : List ℝ) (t : ℝ), -1 ≤ t ∧ t ≤ 0 → (∀ s ∈ l, -1 ≤ s ∧ s ≤ 0) →
      -1 ≤ l.foldl (Rounded.typicalResponse rd) t ∧ l.foldl (Rounded.typicalResponse rd) t ≤ 0 := by
    intro l
    induction l with
    | nil => intro t ht _; exact ht
    | cons s l ih =>
      intro t ht hl
      obtain ⟨s1, s0⟩ := hl s (by simp)
      exact ih _ (typicalResponse_range h ht.1 ht.2 s1 s0) fun s' hs' => hl s' (by simp [hs'])
  exact key scores _ (by norm_num) hs

/-- One step is the weighted sum. -/
theorem typicalResponse_near (h : RoundsToNearest rd) {t s : ℝ} (t1 : -1 ≤ t) (t0 : t ≤ 0) (s1 : -1 ≤ s) (s0 : s ≤ 0) :
    |Rounded.typicalResponse rd t s - (0.95 * t + 0.05 * s)| ≤ 5e-16 := by
  obtain ⟨h1, h2⟩ := weights_near h
  have ht : |t| ≤ 1 := abs_le.mpr ⟨t1, by linarith⟩
  have hs : |s| ≤ 1 := abs_le.mpr ⟨s1, by linarith⟩
  have p1 : |rd 0.95 * t - 0.95 * t| ≤ 4.5e-17 := by
    rw [← sub_mul, abs_mul]
    exact (mul_le_mul h1 ht (abs_nonneg _) (by norm_num)).trans (by norm_num)
  have p2 : |rd 0.05 * s - 0.05 * s| ≤ 2.8e-18 := by
    rw [← sub_mul, abs_mul]
    exact (mul_le_mul h2 hs (abs_nonneg _) (by norm_num)).trans (by norm_num)
  have b1 : |rd 0.95 * t| ≤ 0.951 := by
    have := abs_le.mp p1
    rw [abs_le]; norm_num at this ⊢; constructor <;> linarith [this.1, this.2]
  have b2 : |rd 0.05 * s| ≤ 0.051 := by
    have := abs_le.mp p2
    rw [abs_le]; norm_num at this ⊢; constructor <;> linarith [this.1, this.2]
  have q1 := abs_le.mp (rd_near h b1)
  have q2 := abs_le.mp (rd_near h b2)
  have b3 : |rd (rd 0.95 * t) + rd (rd 0.05 * s)| ≤ 1.01 := by
    have b1' := abs_le.mp b1
    have b2' := abs_le.mp b2
    rw [abs_le]; norm_num at q1 q2 b1' b2' ⊢
    constructor <;> linarith [q1.1, q1.2, q2.1, q2.2, b1'.1, b1'.2, b2'.1, b2'.2]
  have q3 := abs_le.mp (rd_near h b3)
  have p1' := abs_le.mp p1
  have p2' := abs_le.mp p2
  unfold Rounded.typicalResponse
  rw [abs_le]
  norm_num at q1 q2 q3 p1' p2' ⊢
  constructor <;> linarith [q1.1, q1.2, q2.1, q2.2, q3.1, q3.2, p1'.1, p1'.2, p2'.1, p2'.2]

/-- The average, one score more. -/
theorem weightedAverage_append (scores : List ℝ) (s : ℝ) : weightedAverage (scores ++ [s]) = 0.95 * weightedAverage scores + 0.05 * s := by
  unfold weightedAverage
  rw [List.length_append, List.length_singleton, Finset.sum_range_succ, mul_add, Finset.mul_sum]
  have e1 : ∀ i ∈ Finset.range scores.length, (0.05 : ℝ) * 0.95 ^ (scores.length + 1 - 1 - i) * (scores ++ [s]).getD i 0 =
      0.95 * (0.05 * 0.95 ^ (scores.length - 1 - i) * scores.getD i 0) := by
    intro i hi
    rw [Finset.mem_range] at hi
    rw [show (scores ++ [s]).getD i 0 = scores.getD i 0 by simp [List.getD, List.getElem?_append_left hi], show scores.length + 1 - 1 - i = scores.length - 1 - i + 1 by omega, pow_succ]
    ring
  rw [Finset.sum_congr rfl e1]
  have e2 : (scores ++ [s]).getD scores.length 0 = s := by simp
  rw [e2, show scores.length + 1 - 1 - scores.length = 0 by omega, pow_succ]
  ring

theorem typicalAfter_append (scores : List ℝ) (s : ℝ) :
    typicalAfter rd (scores ++ [s]) = Rounded.typicalResponse rd (typicalAfter rd scores) s := by
  unfold typicalAfter
  rw [List.foldl_append]
  rfl

/-- **C148** And it is the exponentially weighted average of the scores, up to 1e-14, after any number of scans. -/
theorem c148_average (h : RoundsToNearest rd) (scores : List ℝ) (hs : ∀ s ∈ scores, -1 ≤ s ∧ s ≤ 0) :
    |typicalAfter rd scores - weightedAverage scores| ≤ 1e-14 := by
  induction scores using List.reverseRecOn with
  | nil => norm_num [typicalAfter, weightedAverage]
  | append_singleton l s ih =>
    have hl : ∀ x ∈ l, -1 ≤ x ∧ x ≤ 0 := fun x hx => hs x (by simp [hx])
    obtain ⟨s1, s0⟩ := hs s (by simp)
    obtain ⟨t1, t0⟩ := c148_in_range h l hl
    have a := abs_le.mp (ih hl)
    have b := abs_le.mp (typicalResponse_near h t1 t0 s1 s0)
    rw [typicalAfter_append, weightedAverage_append, abs_le]
    norm_num at a b ⊢
    constructor <;> linarith [a.1, a.2, b.1, b.2]

theorem weightedAverage_range {lo hi : ℝ} (hlo : lo ≤ -0.5) (hhi : -0.5 ≤ hi) (scores : List ℝ) (hs : ∀ s ∈ scores, lo ≤ s ∧ s ≤ hi) :
    lo ≤ weightedAverage scores ∧ weightedAverage scores ≤ hi := by
  induction scores using List.reverseRecOn with
  | nil => norm_num [weightedAverage] at hlo hhi ⊢; exact ⟨hlo, hhi⟩
  | append_singleton l s ih =>
    obtain ⟨a1, a2⟩ := ih fun x hx => hs x (by simp [hx])
    obtain ⟨s1, s2⟩ := hs s (by simp)
    rw [weightedAverage_append]
    constructor <;> norm_num <;> linarith

/-- **C148** So it lies between the best and the worst of -0.5 and the scores, up to 1e-14. -/
theorem c148_between (h : RoundsToNearest rd) {lo hi : ℝ} (hlo : lo ≤ -0.5) (hhi : -0.5 ≤ hi) (h1 : -1 ≤ lo) (h0 : hi ≤ 0) (scores : List ℝ)
    (hs : ∀ s ∈ scores, lo ≤ s ∧ s ≤ hi) : lo - 1e-14 ≤ typicalAfter rd scores ∧ typicalAfter rd scores ≤ hi + 1e-14 := by
  have a := abs_le.mp (c148_average h scores fun s hs' => ⟨h1.trans (hs s hs').1, (hs s hs').2.trans h0⟩)
  obtain ⟨b1, b2⟩ := weightedAverage_range hlo hhi scores hs
  constructor <;> linarith [a.1, a.2]

/-- **C148** The past is forgotten: after the same last `k` scores, whatever was before, two nodes have the same typical response up to `0.95 ^ k` and
2e-14; after three hundred scans up to one millionth. -/
theorem c148_forgets (h : RoundsToNearest rd) (past past' last : List ℝ) (hp : ∀ s ∈ past, -1 ≤ s ∧ s ≤ 0) (hp' : ∀ s ∈ past', -1 ≤ s ∧ s ≤ 0)
    (hl : ∀ s ∈ last, -1 ≤ s ∧ s ≤ 0) :
    |typicalAfter rd (past ++ last) - typicalAfter rd (past' ++ last)| ≤ 0.95 ^ last.length + 2e-14 ∧
    (300 ≤ last.length → |typicalAfter rd (past ++ last) - typicalAfter rd (past' ++ last)| ≤ 1e-6) := by
  have key : ∀ l : List ℝ, weightedAverage (past ++ l) - weightedAverage (past' ++ l) = 0.95 ^ l.length * (weightedAverage past - weightedAverage past') := by
    intro l
    induction l using List.reverseRecOn with
    | nil => simp
    | append_singleton l s ih =>
      rw [← List.append_assoc, ← List.append_assoc, weightedAverage_append, weightedAverage_append, List.length_append, List.length_singleton, pow_succ]
      linear_combination 0.95 * ih
  have both : ∀ l m : List ℝ, (∀ s ∈ l, -1 ≤ s ∧ s ≤ 0) → (∀ s ∈ m, -1 ≤ s ∧ s ≤ 0) → ∀ s ∈ l ++ m, -1 ≤ s ∧ s ≤ 0 := by
    intro l m h1 h2 s hs
    rcases List.mem_append.mp hs with h | h
    · exact h1 s h
    · exact h2 s h
  have a := abs_le.mp (c148_average h _ (both _ _ hp hl))
  have b := abs_le.mp (c148_average h _ (both _ _ hp' hl))
  obtain ⟨c1, c2⟩ := weightedAverage_range (lo := -1) (hi := 0) (by norm_num) (by norm_num) past hp
  obtain ⟨d1, d2⟩ := weightedAverage_range (lo := -1) (hi := 0) (by norm_num) (by norm_num) past' hp'
  have w : |weightedAverage (past ++ last) - weightedAverage (past' ++ last)| ≤ 0.95 ^ last.length := by
    rw [key, abs_mul, abs_of_nonneg (by positivity)]
    exact mul_le_of_le_one_right (by positivity) (abs_le.mpr ⟨by linarith, by linarith⟩)
  have w' := abs_le.mp w
  have first : |typicalAfter rd (past ++ last) - typicalAfter rd (past' ++ last)| ≤ 0.95 ^ last.length + 2e-14 := by
    rw [abs_le]
    constructor <;> linarith [a.1, a.2, b.1, b.2, w'.1, w'.2]
  refine ⟨first, fun hk => first.trans ?_⟩
  have : (0.95 : ℝ) ^ last.length ≤ 0.95 ^ 300 := pow_le_pow_of_le_one (by norm_num) (by norm_num) hk
  have h300 : (0.95 : ℝ) ^ 300 ≤ 3e-7 := by
    rw [show 300 = 15 * 20 by norm_num, pow_mul]
    exact (pow_le_pow_left₀ (by positivity) (show (0.95 : ℝ) ^ 15 ≤ 0.464 by norm_num) 20).trans (by norm_num)
  exact (add_le_add (this.trans h300) le_rfl).trans (by norm_num)

/-- Example: two scans with the scores -0.8 and -0.6, with IEEE-754 rounding. -/
example : |typicalAfter rnd [-0.8, -0.6] - -0.51925| ≤ 1e-14 := by
  have := c148_average rnd_rounds [-0.8, -0.6] (by
    intro s hs
    simp only [List.mem_cons, List.not_mem_nil, or_false] at hs
    rcases hs with rfl | rfl <;> norm_num)
  have e : weightedAverage [-0.8, -0.6] = -0.51925 := by
    norm_num [weightedAverage, Finset.sum_range_succ]
  rwa [e] at this

end

end Ndt
