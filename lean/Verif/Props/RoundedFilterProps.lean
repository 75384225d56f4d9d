import Verif.Proof.RoundedFilter
import Verif.Proof.RoundedPile

/-! # C115: statistics of the filter in double precision -/

namespace Ndt

noncomputable section

open Spec Rounded

/-- **C115** Normalised weights are not negative, and add up to one up to `n 2^-49`. -/
theorem c115_weights {rd : ℝ → ℝ} (hrd : RoundsToNearest rd) {f : Pose2d → ℝ} {B : ℝ} {l : List (ℝ × Pose2d)} (h : ModerateCloud f B l) :
    (∀ a ∈ normalised rd l, 0 ≤ a.1) ∧ |total (·.1) (normalised rd l) - 1| ≤ l.length * 2⁻¹ ^ 49 := by
  have hS : 0 < total (·.1) l := lt_of_lt_of_le (by positivity) h.sum
  have hl := length_pos' h.sum
  constructor
  · intro a ha
    simp only [normalised, List.mem_map] at ha
    obtain ⟨b, hb, rfl⟩ := ha
    refine hrd.nonneg (div_nonneg (h.nonneg b hb) ?_)
    have h1 := abs_le.mp (sumWeights_near hrd h.nonneg h.sum h.count)
    have h2 := length_small h.count (2⁻¹ ^ 52 * total (·.1) l) (by positivity)
    norm_num at h1 h2
    linarith [h1.1]
  · rw [total_normalised, ← total_shares h.sum]
    refine (total_near fun a ha => weight_near hrd h.nonneg h.sum h.count (h.nonneg a ha)).trans ?_
    rw [total_add, total_mul, total_shares h.sum, total_const]
    have : (2⁻¹ : ℝ) ^ 250 ≤ 2⁻¹ ^ 50 := pow_le_pow_of_le_one (by norm_num) (by norm_num) (by norm_num)
    have h3 := mul_le_mul_of_nonneg_left this (by linarith : (0 : ℝ) ≤ l.length)
    refine (add_le_add_right h3 _).trans (le_of_eq ?_)
    ring

theorem weightedMean_eq (f : Pose2d → ℝ) (l : List (ℝ × Pose2d)) :
    weightedMean f l = total (fun a => a.1 / total (·.1) l * f a.2) l := by
  unfold weightedMean
  rw [div_eq_inv_mul, ← total_mul]
  exact total_congr fun a _ => by ring

theorem foldl_map_weights (rd : ℝ → ℝ) (t : ℝ × Pose2d → ℝ) (l : List (ℝ × Pose2d)) (s : ℝ) :
    (normalised rd l).foldl (fun s a => rd (s + t a)) s =
      l.foldl (fun s a => rd (s + t (rd (a.1 / sumWeights rd l), a.2))) s := by
  unfold normalised
  rw [List.foldl_map]

/-- **C115** The mean computed in double precision is the weighted mean of the particles up to `n 2^-48` times the largest
coordinate. -/
theorem c115_mean {rd : ℝ → ℝ} (hrd : RoundsToNearest rd) {f : Pose2d → ℝ} {B : ℝ} {l : List (ℝ × Pose2d)} (h : ModerateCloud f B l) :
    |mean rd f l - weightedMean f l| ≤ l.length * (2⁻¹ ^ 48 * B) := by
  have hB : 0 < B := lt_of_lt_of_le (by positivity) h.size
  rw [weightedMean_eq]
  unfold mean accumMean
  rw [foldl_map_weights rd (fun a => rd (a.1 * f a.2))]
  refine weighted_near hrd h.nonneg h.sum h.count
    ((pow_le_pow_of_le_one (by norm_num) (by norm_num) (by norm_num)).trans h.size) h.bound ?_
  intro a ha
  dsimp only
  set r := rd (a.1 / sumWeights rd l)
  have h1 : |r * f a.2| ≤ |r| * B := by
    rw [abs_mul]; exact mul_le_mul_of_nonneg_left (h.bound a ha) (abs_nonneg _)
  refine (rd_err hrd h1).trans ?_
  have h2 : 0 ≤ |r| * B := by positivity
  have h3 : (2⁻¹ : ℝ) ^ 250 ≤ 2⁻¹ ^ 240 * (B + 1) := by
    have e1 : (2⁻¹ : ℝ) ^ 250 ≤ 2⁻¹ ^ 240 := pow_le_pow_of_le_one (by norm_num) (by norm_num) (by norm_num)
    have e2 : (2⁻¹ : ℝ) ^ 240 * 1 ≤ 2⁻¹ ^ 240 * (B + 1) := mul_le_mul_of_nonneg_left (by linarith) (by positivity)
    rw [mul_one] at e2
    exact e1.trans e2
  have h4 : (2⁻¹ : ℝ) ^ 53 * (|r| * B) ≤ 2⁻¹ ^ 51 * B * |r| := by
    have e : (2⁻¹ : ℝ) ^ 51 * B * |r| = 2⁻¹ ^ 51 * (|r| * B) := by ring
    rw [e]
    exact mul_le_mul_of_nonneg_right (by norm_num) h2
  exact add_le_add h4 h3

/-- **C115** Hence the computed mean lies between the smallest and the largest coordinate, up to that error. -/
theorem c115_mean_in_box {rd : ℝ → ℝ} (hrd : RoundsToNearest rd) {f : Pose2d → ℝ} {B : ℝ} {l : List (ℝ × Pose2d)}
    (h : ModerateCloud f B l) {lo hi : ℝ} (hbox : ∀ a ∈ l, lo ≤ f a.2 ∧ f a.2 ≤ hi) :
    lo - l.length * (2⁻¹ ^ 48 * B) ≤ mean rd f l ∧ mean rd f l ≤ hi + l.length * (2⁻¹ ^ 48 * B) := by
  have h1 := abs_le.mp (c115_mean hrd h)
  have hS : 0 < total (·.1) l := lt_of_lt_of_le (by positivity) h.sum
  have h2 : lo ≤ weightedMean f l := by
    have e1 : total (fun a => a.1 / total (·.1) l * lo) l ≤ total (fun a => a.1 / total (·.1) l * f a.2) l :=
      total_le fun a ha => mul_le_mul_of_nonneg_left (hbox a ha).1 (div_nonneg (h.nonneg a ha) hS.le)
    have e2 : total (fun a => a.1 / total (·.1) l * lo) l = lo := by
      have := total_mul lo (fun a => a.1 / total (·.1) l) l
      rw [total_shares h.sum, mul_one] at this
      exact (total_congr fun a _ => mul_comm _ _).trans this
    rw [weightedMean_eq]
    linarith
  have h3 : weightedMean f l ≤ hi := by
    have e1 : total (fun a => a.1 / total (·.1) l * f a.2) l ≤ total (fun a => a.1 / total (·.1) l * hi) l :=
      total_le fun a ha => mul_le_mul_of_nonneg_left (hbox a ha).2 (div_nonneg (h.nonneg a ha) hS.le)
    have e2 : total (fun a => a.1 / total (·.1) l * hi) l = hi := by
      have := total_mul hi (fun a => a.1 / total (·.1) l) l
      rw [total_shares h.sum, mul_one] at this
      exact (total_congr fun a _ => mul_comm _ _).trans this
    rw [weightedMean_eq]
    linarith
  constructor <;> linarith [h1.1, h1.2]

theorem weightedCov_eq {f g : Pose2d → ℝ} {l : List (ℝ × Pose2d)} (hs : 2⁻¹ ^ 100 ≤ total (·.1) l) :
    weightedCov f g l = total (fun a => a.1 / total (·.1) l * (f a.2 * g a.2)) l - weightedMean f l * weightedMean g l := by
  have hS : 0 < total (·.1) l := lt_of_lt_of_le (by positivity) hs
  unfold weightedCov
  rw [div_eq_inv_mul, ← total_mul]
  set mf := weightedMean f l with hmf
  set mg := weightedMean g l with hmg
  rw [weightedMean_eq] at hmf hmg
  have e : total (fun a => (total (·.1) l)⁻¹ * (a.1 * ((f a.2 - mf) * (g a.2 - mg)))) l =
      total (fun a => (a.1 / total (·.1) l * (f a.2 * g a.2) + (-mf) * (a.1 / total (·.1) l * g a.2))
        + ((-mg) * (a.1 / total (·.1) l * f a.2) + (mf * mg) * (a.1 / total (·.1) l))) l :=
    total_congr fun a _ => by ring
  rw [e, total_add, total_add, total_add, total_mul, total_mul, total_mul, total_shares hs, ← hmf, ← hmg]
  ring

/-- **C115** The covariance computed in double precision is that of the weighted particles up to `n 2^-46` times the square of
the largest coordinate. -/
theorem c115_covariance {rd : ℝ → ℝ} (hrd : RoundsToNearest rd) {f g : Pose2d → ℝ} {B : ℝ} {l : List (ℝ × Pose2d)}
    (hf : ModerateCloud f B l) (hg : ModerateCloud g B l) :
    |covariance rd f g l - weightedCov f g l| ≤ l.length * (2⁻¹ ^ 46 * B ^ 2) := by
  have hB : 0 < B := lt_of_lt_of_le (by positivity) hf.size
  have hl := length_pos' hf.sum
  have hBB : (2⁻¹ : ℝ) ^ 80 ≤ B ^ 2 := by
    have := pow_le_pow_left₀ (by positivity) hf.size 2
    rwa [← pow_mul] at this
  have hfg : ∀ a ∈ l, |f a.2 * g a.2| ≤ B ^ 2 := by
    intro a ha
    rw [abs_mul, pow_two]
    exact mul_le_mul (hf.bound a ha) (hg.bound a ha) (abs_nonneg _) hB.le
  -- the sum of products
  have hc : |accumCorr rd f g (normalised rd l) - total (fun a => a.1 / total (·.1) l * (f a.2 * g a.2)) l| ≤
      l.length * (2⁻¹ ^ 48 * B ^ 2) := by
    unfold accumCorr
    rw [foldl_map_weights rd (fun a => rd (rd (a.1 * f a.2) * g a.2))]
    refine weighted_near hrd hf.nonneg hf.sum hf.count
      ((pow_le_pow_of_le_one (by norm_num) (by norm_num) (by norm_num)).trans hBB) hfg ?_
    intro a ha
    dsimp only
    set r := rd (a.1 / sumWeights rd l)
    have h1 : |r * f a.2| ≤ |r| * B := by
      rw [abs_mul]; exact mul_le_mul_of_nonneg_left (hf.bound a ha) (abs_nonneg _)
    have h2 := rd_err hrd h1
    have hrB : 0 ≤ |r| * B := by positivity
    have h3 : |rd (r * f a.2)| ≤ 1.1 * (|r| * B) + 2⁻¹ ^ 250 := by
      have := abs_sub_abs_le_abs_sub (rd (r * f a.2)) (r * f a.2)
      norm_num at h2 ⊢
      linarith
    have h4 : |rd (r * f a.2) * g a.2| ≤ (1.1 * (|r| * B) + 2⁻¹ ^ 250) * B := by
      rw [abs_mul]
      exact mul_le_mul h3 (hg.bound a ha) (abs_nonneg _) (by positivity)
    have h5 := rd_err hrd h4
    have h6 : |rd (r * f a.2) * g a.2 - r * (f a.2 * g a.2)| ≤ (2⁻¹ ^ 53 * (|r| * B) + 2⁻¹ ^ 250) * B := by
      rw [← mul_assoc, ← sub_mul, abs_mul]
      exact mul_le_mul h2 (hg.bound a ha) (abs_nonneg _) (by positivity)
    have h7 := abs_sub_le (rd (rd (r * f a.2) * g a.2)) (rd (r * f a.2) * g a.2) (r * (f a.2 * g a.2))
    refine h7.trans ((add_le_add h5 h6).trans ?_)
    have q1 : (0 : ℝ) ≤ |r| * B ^ 2 := by positivity
    have q2 : 2⁻¹ ^ 53 * ((1.1 * (|r| * B) + 2⁻¹ ^ 250) * B) + 2⁻¹ ^ 250 + (2⁻¹ ^ 53 * (|r| * B) + 2⁻¹ ^ 250) * B
        = 2⁻¹ ^ 53 * 2.1 * (|r| * B ^ 2) + 2⁻¹ ^ 250 * ((1 + 2⁻¹ ^ 53) * B + 1) := by ring
    have q3 : (2⁻¹ : ℝ) ^ 53 * 2.1 * (|r| * B ^ 2) ≤ 2⁻¹ ^ 51 * B ^ 2 * |r| := by
      norm_num
      linarith
    have q4 : (2⁻¹ : ℝ) ^ 250 * ((1 + 2⁻¹ ^ 53) * B + 1) ≤ 2⁻¹ ^ 240 * (B ^ 2 + 1) := by
      have e1 : (1 + 2⁻¹ ^ 53) * B + 1 ≤ 2 * (B ^ 2 + 1) := by
        norm_num
        nlinarith [sq_nonneg (B - 1)]
      have e2 := mul_le_mul_of_nonneg_left e1 (by positivity : (0 : ℝ) ≤ 2⁻¹ ^ 250)
      refine e2.trans ?_
      have e3 : (2⁻¹ : ℝ) ^ 250 * (2 * (B ^ 2 + 1)) = 2⁻¹ ^ 249 * (B ^ 2 + 1) := by ring
      rw [e3]
      exact mul_le_mul_of_nonneg_right (pow_le_pow_of_le_one (by norm_num) (by norm_num) (by norm_num)) (by positivity)
    rw [q2]
    exact add_le_add q3 q4
  -- the means
  have hm1 := c115_mean hrd hf
  have hm2 := c115_mean hrd hg
  rw [weightedCov_eq hf.sum]
  have hS : 0 < total (·.1) l := lt_of_lt_of_le (by positivity) hf.sum
  have wb : ∀ {k : Pose2d → ℝ}, (∀ a ∈ l, |k a.2| ≤ B) → |weightedMean k l| ≤ B := by
    intro k hk
    rw [weightedMean_eq]
    have e1 := total_near (l := l) (f := fun a => a.1 / total (·.1) l * k a.2) (g := fun _ => 0)
      (h := fun a => B * (a.1 / total (·.1) l)) (fun a ha => by
        rw [sub_zero, abs_mul, abs_of_nonneg (div_nonneg (hf.nonneg a ha) hS.le), mul_comm]
        exact mul_le_mul_of_nonneg_right (hk a ha) (div_nonneg (hf.nonneg a ha) hS.le))
    rw [total_const, mul_zero, sub_zero, total_mul, total_shares hf.sum, mul_one] at e1
    exact e1
  have hw1 := wb hf.bound
  have hw2 := wb hg.bound
  have hsmall := length_small hf.count (2⁻¹ ^ 48 * B) (by positivity)
  set C := accumCorr rd f g (normalised rd l)
  set m1 := mean rd f l
  set m2 := mean rd g l
  set w1 := weightedMean f l
  set w2 := weightedMean g l
  set e := (l.length : ℝ) * (2⁻¹ ^ 48 * B) with he
  have he0 : 0 ≤ e := by positivity
  have heB : e ≤ 2⁻¹ ^ 8 * B := by
    refine hsmall.trans (le_of_eq ?_)
    ring
  have hm1' : |m1| ≤ 1.01 * B := by
    have := abs_sub_abs_le_abs_sub m1 w1
    norm_num at heB ⊢
    linarith
  have hp : |m1 * m2 - w1 * w2| ≤ e * (2.01 * B) := by
    have e1 : m1 * m2 - w1 * w2 = m1 * (m2 - w2) + (m1 - w1) * w2 := by ring
    rw [e1]
    refine (abs_add_le _ _).trans ?_
    rw [abs_mul, abs_mul]
    have t1 := mul_le_mul hm1' hm2 (abs_nonneg _) (by positivity)
    have t2 := mul_le_mul hm1 hw2 (abs_nonneg _) he0
    norm_num at t1 t2 ⊢
    linarith
  have hp1 : |m1 * m2| ≤ 1.1 * B ^ 2 := by
    have t1 := abs_sub_abs_le_abs_sub (m1 * m2) (w1 * w2)
    have t2 : |w1 * w2| ≤ B * B := by rw [abs_mul]; exact mul_le_mul hw1 hw2 (abs_nonneg _) hB.le
    have t3 := mul_le_mul_of_nonneg_right heB (by positivity : (0 : ℝ) ≤ 2.01 * B)
    have t4 : |m1 * m2| ≤ B * B + 2⁻¹ ^ 8 * B * (2.01 * B) := by linarith
    refine t4.trans ?_
    norm_num
    nlinarith
  have hp2 := rd_err hrd hp1
  have hc0 : |total (fun a => a.1 / total (·.1) l * (f a.2 * g a.2)) l| ≤ B ^ 2 := by
    have e1 := total_near (l := l) (f := fun a => a.1 / total (·.1) l * (f a.2 * g a.2)) (g := fun _ => 0)
      (h := fun a => B ^ 2 * (a.1 / total (·.1) l)) (fun a ha => by
        rw [sub_zero, abs_mul, abs_of_nonneg (div_nonneg (hf.nonneg a ha) hS.le), mul_comm]
        exact mul_le_mul_of_nonneg_right (hfg a ha) (div_nonneg (hf.nonneg a ha) hS.le))
    rw [total_const, mul_zero, sub_zero, total_mul, total_shares hf.sum, mul_one] at e1
    exact e1
  set T := total (fun a => a.1 / total (·.1) l * (f a.2 * g a.2)) l
  have htiny : (2⁻¹ : ℝ) ^ 250 ≤ 2⁻¹ ^ 60 * B ^ 2 := by
    have := mul_le_mul_of_nonneg_left hBB (by positivity : (0 : ℝ) ≤ 2⁻¹ ^ 60)
    refine le_trans ?_ this
    rw [← pow_add]
    exact pow_le_pow_of_le_one (by norm_num) (by norm_num) (by norm_num)
  have hBs : 0 < B ^ 2 := by positivity
  have heB2 : e * B = l.length * (2⁻¹ ^ 48 * B ^ 2) := by rw [he]; ring
  have hlB : 1 * B ^ 2 ≤ l.length * B ^ 2 := mul_le_mul_of_nonneg_right hl hBs.le
  have heB3 : e * B ≤ 2⁻¹ ^ 8 * B ^ 2 := by
    have := mul_le_mul_of_nonneg_right heB hB.le
    refine this.trans (le_of_eq ?_)
    ring
  have hd : |C - rd (m1 * m2)| ≤ 3 * B ^ 2 := by
    have t1 := abs_sub C (rd (m1 * m2))
    have t2 := abs_sub_abs_le_abs_sub C T
    have t3 := abs_sub_abs_le_abs_sub (rd (m1 * m2)) (m1 * m2)
    rw [← heB2] at hc
    norm_num at hp2 htiny heB3 ⊢
    linarith
  have hd2 := rd_err hrd hd
  have hfin : covariance rd f g l - (T - w1 * w2) =
      (rd (C - rd (m1 * m2)) - (C - rd (m1 * m2))) + (C - T) + (m1 * m2 - rd (m1 * m2)) + (w1 * w2 - m1 * m2) := by
    unfold covariance; ring
  rw [hfin]
  have a1 := abs_add_le (rd (C - rd (m1 * m2)) - (C - rd (m1 * m2)) + (C - T) + (m1 * m2 - rd (m1 * m2))) (w1 * w2 - m1 * m2)
  have a2 := abs_add_le (rd (C - rd (m1 * m2)) - (C - rd (m1 * m2)) + (C - T)) (m1 * m2 - rd (m1 * m2))
  have a3 := abs_add_le (rd (C - rd (m1 * m2)) - (C - rd (m1 * m2))) (C - T)
  rw [abs_sub_comm] at hp hp2
  rw [show e * (2.01 * B) = 2.01 * (e * B) by ring, heB2] at hp
  norm_num at hd2 hp2 htiny hc hp ⊢
  linarith

/-- **C115** (refutation) A variance can be negative in double precision: that of three particles of weight 1/3 at `x = 0.1`. -/
theorem c115_negative_variance : ∃ l : List (ℝ × Pose2d), ModerateCloud (·.x) 1 l ∧ (∀ a ∈ l, a = (rnd (1 / 3), ⟨rnd 0.1, 0, 0⟩)) ∧
    weightedCov (·.x) (·.x) l = 0 ∧ covariance rnd (·.x) (·.x) l < 0 := by
  refine ⟨Pile.pile, ⟨?_, ?_, ?_, by norm_num, by simp [Pile.pile]⟩, ?_, ?_, ?_⟩
  · intro a ha
    rw [(List.mem_replicate.mp ha).2]
    norm_num
  · simp only [total, Pile.pile, List.replicate, List.map_cons, List.map_nil, List.sum_cons, List.sum_nil]
    norm_num
  · intro a ha
    rw [(List.mem_replicate.mp ha).2]
    norm_num [abs_le]
  · intro a ha
    rw [(List.mem_replicate.mp ha).2, Pile.third, Pile.tenth]
  · simp only [weightedCov, weightedMean, total, Pile.pile, List.replicate, List.map_cons, List.map_nil, List.sum_cons, List.sum_nil]
    norm_num
  · rw [Pile.covariance_pile]
    norm_num

/-- Two particles of unequal weights a kilometre from the origin meet the hypotheses. -/
example : ModerateCloud (·.x) 1001 [(0.25, ⟨1000, 3, 0⟩), (0.75, ⟨1000.5, 4, 1⟩)] ∧
    weightedMean (·.x) [(0.25, ⟨1000, 3, 0⟩), (0.75, ⟨1000.5, 4, 1⟩)] = 1000.375 := by
  refine ⟨⟨?_, ?_, ?_, by norm_num, by simp⟩, ?_⟩
  · simp
    constructor <;> norm_num
  · simp [total]; norm_num
  · simp [abs_le]
    norm_num
  · simp [weightedMean, total]; norm_num

end

end Ndt
