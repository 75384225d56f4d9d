import Verif.Model.RoundedCell
import Verif.Spec.Cell
import Verif.Proof.Double
import Verif.Proof.Cell

/-! # Helper lemmas: errors of the statistics of a cell in double precision -/

namespace Ndt.Rounded

/-- One step of a running average with three roundings: the error grows by at most six units in the last place. -/
theorem avg_step_error {u η k m a p B t1 t2 t3 : ℝ} (hu0 : 0 < u) (hku : 16 * (u * (k + 1)) ≤ 1) (hη0 : 0 ≤ η)
    (hη : 100 * η ≤ u * B) (hB : 0 < B) (hk : 0 ≤ k) (hp : |p| ≤ B) (ha : |a| ≤ B) (hm : |m - a| ≤ 6 * k * (u * B))
    (h1 : |t1 - m * k| ≤ u * |m * k| + η) (h2 : |t2 - (t1 + p)| ≤ u * |t1 + p| + η)
    (h3 : |t3 - t2 / (k + 1)| ≤ u * |t2 / (k + 1)| + η) :
    |t3 - (a * k + p) / (k + 1)| ≤ 6 * (k + 1) * (u * B) := by
  have hN : 0 < k + 1 := by linarith
  have huB : 0 < u * B := mul_pos hu0 hB
  have hu16 : 16 * u ≤ 1 := by nlinarith
  have hkB : 16 * (k * (u * B)) ≤ B := by
    have : 16 * (u * k) ≤ 1 := by nlinarith
    nlinarith
  have huB16 : 16 * (u * B) ≤ B := by nlinarith
  have hmB : |m| ≤ 1.5 * B := by
    have : |m| ≤ |m - a| + |a| := by simpa using abs_add_le (m - a) a
    linarith
  have hmk : |m * k| ≤ 1.5 * (B * k) := by
    rw [abs_mul, abs_of_nonneg hk]; nlinarith
  have e1 : |t1 - m * k| ≤ 1.5 * (u * B * k) + η := by
    have := mul_le_mul_of_nonneg_left hmk hu0.le
    linarith
  have hBk : 0 ≤ B * k := by positivity
  have huBk : u * B * k ≤ B * k / 16 := by nlinarith
  have ht1 : |t1 + p| ≤ 1.6 * (B * (k + 1)) := by
    have q1 : |t1 + p| ≤ |t1 - m * k| + |m * k| + |p| := by
      have := abs_add_three (t1 - m * k) (m * k) p
      rwa [sub_add_cancel] at this
    linarith
  have e2 : |t2 - (t1 + p)| ≤ 1.6 * (u * B * (k + 1)) + η := by
    have := mul_le_mul_of_nonneg_left ht1 hu0.le
    linarith
  have huBN : u * B * (k + 1) ≤ B * (k + 1) / 16 := by nlinarith
  have ht2 : |t2| ≤ 1.75 * (B * (k + 1)) := by
    have q1 : |t2| ≤ |t2 - (t1 + p)| + |t1 + p| := by simpa using abs_add_le (t2 - (t1 + p)) (t1 + p)
    have : u * B ≤ B * (k + 1) / 16 := by nlinarith
    linarith
  have e3 : |t3 - t2 / (k + 1)| ≤ 1.75 * (u * B) + η := by
    have : |t2 / (k + 1)| ≤ 1.75 * B := by
      rw [abs_div, abs_of_pos hN, div_le_iff₀ hN]; linarith
    have := mul_le_mul_of_nonneg_left this hu0.le
    linarith
  have split : t3 - (a * k + p) / (k + 1) =
      (t3 - t2 / (k + 1)) + ((t2 - (t1 + p)) + (t1 - m * k) + (m - a) * k) / (k + 1) := by
    field_simp; ring
  have q : |((t2 - (t1 + p)) + (t1 - m * k) + (m - a) * k)| ≤
      1.6 * (u * B * (k + 1)) + η + (1.5 * (u * B * k) + η) + 6 * k * (u * B) * k := by
    refine (abs_add_three _ _ _).trans ?_
    have : |(m - a) * k| ≤ 6 * k * (u * B) * k := by
      rw [abs_mul, abs_of_nonneg hk]; exact mul_le_mul_of_nonneg_right hm hk
    linarith
  rw [split]
  refine (abs_add_le _ _).trans ?_
  rw [abs_div, abs_of_pos hN]
  have : |((t2 - (t1 + p)) + (t1 - m * k) + (m - a) * k)| / (k + 1) ≤ 6 * (k + 1) * (u * B) - (1.75 * (u * B) + η) := by
    rw [div_le_iff₀ hN]
    refine q.trans ?_
    nlinarith [mul_nonneg huB.le hk, mul_nonneg hη0 hk]
  linarith

/-- `2^-53`, the relative error of a rounding. -/
noncomputable def ulp : ℝ := 2⁻¹ ^ 53

theorem ulp_pos : 0 < ulp := by unfold ulp; positivity

theorem halfMin_small {B : ℝ} (hB : 2⁻¹ ^ 900 ≤ B) : 100 * halfMin ≤ ulp * B := by
  have e : halfMin = 2⁻¹ ^ 53 * 2⁻¹ ^ 122 * 2⁻¹ ^ 900 := by
    unfold halfMin; rw [← pow_add, ← pow_add]
  have h : ulp * 2⁻¹ ^ 900 ≤ ulp * B := mul_le_mul_of_nonneg_left hB ulp_pos.le
  rw [e]
  unfold ulp at h ⊢
  refine le_trans ?_ h
  have p : (0 : ℝ) < 2⁻¹ ^ 53 * 2⁻¹ ^ 900 := by positivity
  have q : (2⁻¹ : ℝ) ^ 122 ≤ 1 / 100 := by norm_num
  have := mul_le_mul_of_nonneg_left q p.le
  refine le_trans (le_of_eq (by ring)) ((mul_le_mul_of_nonneg_left this (by norm_num : (0 : ℝ) ≤ 100)).trans (le_of_eq (by ring)))

variable {rd : ℝ → ℝ}

theorem error' (h : Spec.RoundsToNearest rd) (x : ℝ) : |rd x - x| ≤ ulp * |x| + halfMin := h.error x

/-- The average of a list, and one more number. -/
theorem average_append (l : List ℝ) (p : ℝ) :
    ((l ++ [p]).sum / (l ++ [p]).length : ℝ) = (l.sum / l.length * l.length + p) / (l.length + 1) := by
  rcases l with _ | ⟨a, l⟩
  · simp
  · have : ((a :: l).length : ℝ) ≠ 0 := by simp; positivity
    rw [div_mul_cancel₀ _ this]
    simp
    ring

theorem average_abs_le {l : List ℝ} {B : ℝ} (hB : 0 ≤ B) (hl : ∀ x ∈ l, |x| ≤ B) : |(l.sum / l.length : ℝ)| ≤ B := by
  have s : |l.sum| ≤ B * l.length := by
    induction l with
    | nil => simp
    | cons a l ih =>
      have h1 := hl a (by simp)
      have h2 := ih fun x hx => hl x (by simp [hx])
      simp only [List.sum_cons, List.length_cons, Nat.cast_add, Nat.cast_one]
      have := abs_add_le a l.sum
      linarith
  rw [abs_div, Nat.abs_cast]
  rcases l with _ | ⟨a, l⟩
  · simpa using hB
  · rw [div_le_iff₀ (by simp; positivity)]; exact s

/-- A step of `avgStep` on top of the average of a list. -/
theorem avgStep_error (h : Spec.RoundsToNearest rd) {l : List ℝ} {m p B : ℝ} (hB : 2⁻¹ ^ 900 ≤ B)
    (hn : l.length + 1 ≤ 2 ^ 49) (hp : |p| ≤ B) (hl : ∀ x ∈ l, |x| ≤ B)
    (hm : |m - l.sum / l.length| ≤ 6 * l.length * (ulp * B)) :
    |avgStep rd l.length m p - (l ++ [p]).sum / (l ++ [p]).length| ≤ 6 * (l ++ [p]).length * (ulp * B) := by
  have hB0 : 0 < B := lt_of_lt_of_le (by positivity) hB
  have hn1 : rd ((l.length : ℝ) + 1) = l.length + 1 := by
    have := h.exact (isDouble_nat (n := l.length + 1) (by omega))
    push_cast at this; exact this
  have hN : ((l.length : ℝ) + 1) ≤ 2 ^ 49 := by exact_mod_cast hn
  rw [average_append]
  have := avg_step_error (u := ulp) (η := halfMin) (k := l.length) (m := m) (a := l.sum / l.length) (p := p) (B := B)
    (t1 := rd (m * l.length)) (t2 := rd (rd (m * l.length) + p)) (t3 := avgStep rd l.length m p)
    ulp_pos (by
      have := mul_le_mul_of_nonneg_left hN ulp_pos.le
      have e : ulp * 2 ^ 49 = 1 / 16 := by unfold ulp; norm_num
      linarith) halfMin_pos.le (halfMin_small hB) hB0 (by positivity) hp (average_abs_le hB0.le hl) hm
    (error' h _) (error' h _) (by unfold avgStep; rw [hn1]; exact error' h _)
  simpa using this

/-- The number of points of a cell is exact. -/
theorem fold_n (h : Spec.RoundsToNearest rd) (ps : List Point) (hn : ps.length ≤ 2 ^ 49) :
    (ps.foldl (addPoint rd) Cell.new).n = ps.length := by
  induction ps using List.reverseRecOn with
  | nil => simp [Cell.new]
  | append_singleton ps p ih =>
    rw [List.length_append, List.length_singleton] at hn
    rw [List.foldl_append]
    simp only [List.foldl_cons, List.foldl_nil, addPoint, ih (by omega), List.length_append, List.length_singleton]
    exact_mod_cast h.exact (isDouble_nat (n := ps.length + 1) (by omega))

/-- A statistic that `addPoint` averages is the average up to `6 n` units in the last place. -/
theorem fold_error (h : Spec.RoundsToNearest rd) {f : Point → ℝ} {g : Cell → ℝ} {B : ℝ} (hB : 2⁻¹ ^ 900 ≤ B)
    (g0 : g Cell.new = 0) (gs : ∀ c p, g (addPoint rd c p) = avgStep rd c.n (g c) (f p)) (ps : List Point)
    (hn : ps.length ≤ 2 ^ 49) (hf : ∀ p ∈ ps, |f p| ≤ B) :
    |g (ps.foldl (addPoint rd) Cell.new) - Spec.avg f ps| ≤ 6 * ps.length * (ulp * B) := by
  induction ps using List.reverseRecOn with
  | nil => simp [g0, Spec.avg]
  | append_singleton ps p ih =>
    rw [List.length_append, List.length_singleton] at hn
    have ih := ih (by omega) fun q hq => hf q (by simp [hq])
    rw [List.foldl_append]
    simp only [List.foldl_cons, List.foldl_nil]
    rw [gs, fold_n h ps (by omega)]
    have := avgStep_error h (l := ps.map f) (m := g (ps.foldl (addPoint rd) Cell.new)) (p := f p) hB
      (by simpa using hn) (hf p (by simp))
      (fun x hx => by obtain ⟨q, hq, rfl⟩ := List.mem_map.mp hx; exact hf q (by simp [hq]))
      (by simpa [Spec.avg] using ih)
    simpa [Spec.avg] using this

/-- One entry of the covariance, with four roundings. -/
theorem cov_entry_error {u η n B ex ey exy mx my cxy P D S C : ℝ} (hu0 : 0 < u) (hn2 : 2 ≤ n) (hnu : 16 * (n * u) ≤ 1)
    (hη0 : 0 ≤ η) (hη1 : 100 * η ≤ u) (hB : 0 < B) (hηB : 100 * η ≤ u * (B * B)) (hex : |ex| ≤ B) (hey : |ey| ≤ B)
    (hexy : |exy| ≤ B * B) (hmx : |mx - ex| ≤ 6 * n * (u * B)) (hmy : |my - ey| ≤ 6 * n * (u * B))
    (hc : |cxy - exy| ≤ 9 * (n * u * (B * B))) (hP : |P - mx * my| ≤ u * |mx * my| + η)
    (hD : |D - (cxy - P)| ≤ u * |cxy - P| + η) (hS : |S - n / (n - 1)| ≤ u * |n / (n - 1)| + η)
    (hC : |C - D * S| ≤ u * |D * S| + η) :
    |C - (exy - ex * ey) * (n / (n - 1))| ≤ 80 * (n * u * (B * B)) := by
  have hBB : 0 < B * B := mul_pos hB hB
  have huBB : 0 < u * (B * B) := mul_pos hu0 hBB
  have hn0 : 0 < n := by linarith
  have hnB : n * u * (B * B) ≤ B * B / 16 := by nlinarith
  have hnB2 : 2 * (u * (B * B)) ≤ n * u * (B * B) := by nlinarith
  have hmB : 6 * n * (u * B) ≤ 0.375 * B := by nlinarith
  have hu32 : u ≤ 1 / 32 := by nlinarith
  have amx : |mx| ≤ 1.375 * B := by
    have : |mx| ≤ |mx - ex| + |ex| := by simpa using abs_add_le (mx - ex) ex
    linarith
  have amy : |my| ≤ 1.375 * B := by
    have : |my| ≤ |my - ey| + |ey| := by simpa using abs_add_le (my - ey) ey
    linarith
  have prod : |mx * my - ex * ey| ≤ 14.25 * (n * u * (B * B)) := by
    have e : mx * my - ex * ey = mx * (my - ey) + ey * (mx - ex) := by ring
    rw [e]
    refine (abs_add_le _ _).trans ?_
    rw [abs_mul, abs_mul]
    have h1 := mul_le_mul amx hmy (abs_nonneg _) (by positivity)
    have h2 := mul_le_mul hey hmx (abs_nonneg _) hB.le
    linarith
  have amm : |mx * my| ≤ 1.9 * (B * B) := by
    rw [abs_mul]
    have := mul_le_mul amx amy (abs_nonneg _) (by positivity)
    linarith
  have eP : |P - mx * my| ≤ 1.91 * (u * (B * B)) := by
    have := mul_le_mul_of_nonneg_left amm hu0.le
    linarith
  have aee : |exy - ex * ey| ≤ 2 * (B * B) := by
    refine (abs_sub _ _).trans ?_
    rw [abs_mul]
    have := mul_le_mul hex hey (abs_nonneg _) hB.le
    linarith
  have d1 : |(cxy - P) - (exy - ex * ey)| ≤ 24.25 * (n * u * (B * B)) := by
    have e : (cxy - P) - (exy - ex * ey) = (cxy - exy) + -(mx * my - ex * ey) + -(P - mx * my) := by ring
    rw [e]
    refine (abs_add_three _ _ _).trans ?_
    rw [abs_neg, abs_neg]
    linarith
  have acp : |cxy - P| ≤ 3.6 * (B * B) := by
    have := abs_add_le ((cxy - P) - (exy - ex * ey)) (exy - ex * ey)
    rw [sub_add_cancel] at this
    linarith
  have d2 : |D - (exy - ex * ey)| ≤ 26.1 * (n * u * (B * B)) := by
    have e : D - (exy - ex * ey) = (D - (cxy - P)) + ((cxy - P) - (exy - ex * ey)) := by ring
    rw [e]
    refine (abs_add_le _ _).trans ?_
    have := mul_le_mul_of_nonneg_left acp hu0.le
    linarith
  have hn1 : 0 < n - 1 := by linarith
  have hs : |n / (n - 1)| ≤ 2 := by
    rw [abs_of_nonneg (by positivity), div_le_iff₀ hn1]; linarith
  have eS : |S - n / (n - 1)| ≤ 2.01 * u := by
    have := mul_le_mul_of_nonneg_left hs hu0.le
    linarith
  have aS : |S| ≤ 2.1 := by
    have : |S| ≤ |S - n / (n - 1)| + |n / (n - 1)| := by simpa using abs_add_le (S - n / (n - 1)) (n / (n - 1))
    linarith
  have d3 : |D * S - (exy - ex * ey) * (n / (n - 1))| ≤ 57 * (n * u * (B * B)) := by
    have e : D * S - (exy - ex * ey) * (n / (n - 1)) =
        (D - (exy - ex * ey)) * S + (exy - ex * ey) * (S - n / (n - 1)) := by ring
    rw [e]
    refine (abs_add_le _ _).trans ?_
    rw [abs_mul, abs_mul]
    have h1 := mul_le_mul d2 aS (abs_nonneg _) (by positivity)
    have h2 := mul_le_mul aee eS (abs_nonneg _) (by positivity)
    linarith
  have aDS : |D * S| ≤ 8 * (B * B) := by
    have := abs_add_le (D * S - (exy - ex * ey) * (n / (n - 1))) ((exy - ex * ey) * (n / (n - 1)))
    rw [sub_add_cancel] at this
    have h2 : |(exy - ex * ey) * (n / (n - 1))| ≤ 4 * (B * B) := by
      rw [abs_mul]
      have := mul_le_mul aee hs (abs_nonneg _) (by positivity)
      linarith
    linarith
  have e : C - (exy - ex * ey) * (n / (n - 1)) = (C - D * S) + (D * S - (exy - ex * ey) * (n / (n - 1))) := by ring
  rw [e]
  refine (abs_add_le _ _).trans ?_
  have := mul_le_mul_of_nonneg_left aDS hu0.le
  linarith

theorem avg_abs_le {f : Point → ℝ} {ps : List Point} {B : ℝ} (hB : 0 ≤ B) (hf : ∀ p ∈ ps, |f p| ≤ B) :
    |Spec.avg f ps| ≤ B := by
  have := average_abs_le (l := ps.map f) hB (fun x hx => by obtain ⟨q, hq, rfl⟩ := List.mem_map.mp hx; exact hf q hq)
  simpa [Spec.avg] using this

theorem avg_sub (f g : Point → ℝ) (ps : List Point) :
    Spec.avg f ps - Spec.avg g ps = Spec.avg (fun p => f p - g p) ps := by
  unfold Spec.avg
  rw [← sub_div]
  congr 1
  induction ps with
  | nil => simp
  | cons p ps ih => simp only [List.map_cons, List.sum_cons, ← ih]; ring

theorem pow_900_le {B : ℝ} (hB : 2⁻¹ ^ 100 ≤ B) : 2⁻¹ ^ 900 ≤ B * B := by
  have h0 : (0 : ℝ) ≤ 2⁻¹ ^ 100 := by positivity
  have h := mul_le_mul hB hB h0 (h0.trans hB)
  refine le_trans ?_ h
  rw [← pow_add]
  exact pow_le_pow_of_le_one (by norm_num) (by norm_num) (by norm_num)

/-- A rounded product of coordinates. -/
theorem prod_error (h : Spec.RoundsToNearest rd) {a b B : ℝ} (hB : 2⁻¹ ^ 100 ≤ B) (ha : |a| ≤ B) (hb : |b| ≤ B) :
    |rd (a * b) - a * b| ≤ 1.01 * (ulp * (B * B)) ∧ |rd (a * b)| ≤ 1.01 * (B * B) ∧ |a * b| ≤ B * B := by
  have hB0 : 0 < B := lt_of_lt_of_le (by positivity) hB
  have hab : |a * b| ≤ B * B := by rw [abs_mul]; exact mul_le_mul ha hb (abs_nonneg _) hB0.le
  have h1 := error' h (a * b)
  have h2 := mul_le_mul_of_nonneg_left hab ulp_pos.le
  have h3 := halfMin_small (pow_900_le hB)
  have h4 : |rd (a * b) - a * b| ≤ 1.01 * (ulp * (B * B)) := by linarith
  refine ⟨h4, ?_, hab⟩
  have h5 : |rd (a * b)| ≤ |rd (a * b) - a * b| + |a * b| := by simpa using abs_add_le (rd (a * b) - a * b) (a * b)
  have h6 : ulp ≤ 1 / 1000 := by unfold ulp; norm_num
  have h8 := mul_pos hB0 hB0
  have h7 := mul_le_mul_of_nonneg_right h6 h8.le
  linarith

/-- An average of rounded products is the average of the products, up to `9 n` units in the last place. -/
theorem corr_error (h : Spec.RoundsToNearest rd) {f g : Point → ℝ} {k : Cell → ℝ} {B : ℝ} (hB : 2⁻¹ ^ 100 ≤ B)
    (k0 : k Cell.new = 0) (ks : ∀ c p, k (addPoint rd c p) = avgStep rd c.n (k c) (rd (f p * g p))) (ps : List Point)
    (hn : ps.length ≤ 2 ^ 49) (hn1 : 1 ≤ ps.length) (hf : ∀ p ∈ ps, |f p| ≤ B) (hg : ∀ p ∈ ps, |g p| ≤ B) :
    |k (ps.foldl (addPoint rd) Cell.new) - Spec.avg (fun p => f p * g p) ps| ≤ 9 * (ps.length * ulp * (B * B)) := by
  have hB0 : 0 < B := lt_of_lt_of_le (by positivity) hB
  have hp := pow_900_le hB
  have h1 := fold_error h (f := fun p => rd (f p * g p)) (g := k) (B := 1.01 * (B * B))
    (hp.trans (le_mul_of_one_le_left (mul_pos hB0 hB0).le (by norm_num))) k0 ks ps hn
    (fun p hp => (prod_error h hB (hf p hp) (hg p hp)).2.1)
  have h2 : |Spec.avg (fun p => rd (f p * g p)) ps - Spec.avg (fun p => f p * g p) ps| ≤ 1.01 * (ulp * (B * B)) := by
    rw [avg_sub]
    exact avg_abs_le (by have := mul_pos ulp_pos (mul_pos hB0 hB0); linarith) fun p hp => (prod_error h hB (hf p hp) (hg p hp)).1
  have h3 : |k (ps.foldl (addPoint rd) Cell.new) - Spec.avg (fun p => f p * g p) ps| ≤ _ := abs_sub_le _ (Spec.avg (fun p => rd (f p * g p)) ps) _
  have hN : (1 : ℝ) ≤ ps.length := by exact_mod_cast hn1
  have h5 := mul_pos ulp_pos (mul_pos hB0 hB0)
  have h4 := mul_le_mul_of_nonneg_right hN h5.le
  clear hB hp
  linarith

theorem covEntry_error (h : Spec.RoundsToNearest rd) {f g : Point → ℝ} {k mf mg : Cell → ℝ} {B : ℝ} (hB : 2⁻¹ ^ 100 ≤ B)
    (k0 : k Cell.new = 0) (ks : ∀ c p, k (addPoint rd c p) = avgStep rd c.n (k c) (rd (f p * g p)))
    (f0 : mf Cell.new = 0) (fs : ∀ c p, mf (addPoint rd c p) = avgStep rd c.n (mf c) (f p))
    (g0 : mg Cell.new = 0) (gs : ∀ c p, mg (addPoint rd c p) = avgStep rd c.n (mg c) (g p)) (ps : List Point)
    (hn : ps.length ≤ 2 ^ 49) (hn2 : 2 ≤ ps.length) (hf : ∀ p ∈ ps, |f p| ≤ B) (hg : ∀ p ∈ ps, |g p| ≤ B) (c : Cell)
    (hc : c = ps.foldl (addPoint rd) Cell.new) :
    |covEntry rd (rd (c.n / rd (c.n - 1))) (k c) (mf c) (mg c) - Spec.sampleCov f g ps| ≤
      80 * (ps.length * ulp * (B * B)) := by
  subst hc
  have hB0 : 0 < B := lt_of_lt_of_le (by positivity) hB
  have hB9 : 2⁻¹ ^ 900 ≤ B := le_trans (pow_le_pow_of_le_one (by norm_num) (by norm_num) (by norm_num)) hB
  have hN : (ps.length : ℝ) ≤ 2 ^ 49 := by exact_mod_cast hn
  have e1 : rd ((ps.length : ℝ) - 1) = ps.length - 1 := by
    have := h.exact (isDouble_nat (n := ps.length - 1) (by omega))
    rw [Nat.cast_sub (by omega)] at this
    simpa using this
  rw [fold_n h ps hn, e1, ← sampleCov_eq f g ps hn2]
  refine cov_entry_error (u := ulp) (η := halfMin) ulp_pos (by exact_mod_cast hn2) ?_ halfMin_pos.le ?_ hB0
    (halfMin_small (pow_900_le hB)) (avg_abs_le hB0.le hf) (avg_abs_le hB0.le hg)
    (avg_abs_le (mul_pos hB0 hB0).le fun p hp => (prod_error h hB (hf p hp) (hg p hp)).2.2)
    (fold_error h hB9 f0 fs ps hn hf) (fold_error h hB9 g0 gs ps hn hg)
    (corr_error h hB k0 ks ps hn (by omega) hf hg) (error' h _) (error' h _) (error' h _) (error' h _)
  · have := mul_le_mul_of_nonneg_right hN ulp_pos.le
    have e : (2 : ℝ) ^ 49 * ulp = 1 / 16 := by unfold ulp; norm_num
    linarith
  · have := halfMin_small (B := 1) (by exact pow_le_one₀ (by norm_num) (by norm_num))
    linarith

end Ndt.Rounded
