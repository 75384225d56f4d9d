import Verif.Model.RoundedResample
import Verif.Spec.Filter
import Verif.Proof.RoundedFilter
import Verif.Proof.Double
import Mathlib.Tactic.Linarith
import Mathlib.Tactic.Positivity

/-! # The bound on the number of particles in double precision -/

namespace Ndt.Rounded

noncomputable section

open Real Spec

/-- Rounding a number that is not tiny is off by a relative 2^-53. -/
theorem rd_rel {rd : ℝ → ℝ} (hrd : RoundsToNearest rd) {x : ℝ} (hx : 2⁻¹ ^ 190 ≤ x) : |rd x - x| ≤ 1.12e-16 * x := by
  have h0 : 0 < x := lt_of_lt_of_le (by positivity) hx
  have h1 := rd_err hrd (le_of_eq (abs_of_pos h0))
  have h2 : (2⁻¹ : ℝ) ^ 250 = 2⁻¹ ^ 60 * 2⁻¹ ^ 190 := by rw [← pow_add]
  have h3 : (2⁻¹ : ℝ) ^ 250 ≤ 2⁻¹ ^ 60 * x := by rw [h2]; exact mul_le_mul_of_nonneg_left hx (by positivity)
  have h4 : (2⁻¹ : ℝ) ^ 53 + 2⁻¹ ^ 60 ≤ 1.12e-16 := by norm_num
  calc |rd x - x| ≤ (2⁻¹ ^ 53 + 2⁻¹ ^ 60) * x := by rw [add_mul]; linarith
    _ ≤ _ := mul_le_mul_of_nonneg_right h4 h0.le

/-- `x` is a positive number off from `y` by a relative `ε`. -/
def Off (ε x y : ℝ) : Prop := 0 < y ∧ |x - y| ≤ ε * y

theorem Off.round {rd : ℝ → ℝ} (hrd : RoundsToNearest rd) {ε x y : ℝ} (h : Off ε x y) (he : ε ≤ 1e-10) (hy : 2⁻¹ ^ 180 ≤ y) :
    Off (ε + 1.13e-16) (rd x) y := by
  obtain ⟨h0, h1⟩ := h
  have hx := abs_le.mp h1
  have hε : ε * y ≤ 1e-10 * y := mul_le_mul_of_nonneg_right he h0.le
  have hx0 : 2⁻¹ ^ 190 ≤ x := by
    have : (2⁻¹ : ℝ) ^ 190 = 2⁻¹ ^ 10 * 2⁻¹ ^ 180 := by rw [← pow_add]
    rw [this]
    have h2 : (2⁻¹ : ℝ) ^ 10 * 2⁻¹ ^ 180 ≤ 2⁻¹ ^ 10 * y := mul_le_mul_of_nonneg_left hy (by positivity)
    have h3 : (2⁻¹ : ℝ) ^ 10 ≤ 1 - 1e-10 := by norm_num
    have h4 := mul_le_mul_of_nonneg_right h3 h0.le
    linarith
  have h2 := rd_rel hrd hx0
  refine ⟨h0, ?_⟩
  have h3 : |rd x - y| ≤ |rd x - x| + |x - y| := by
    have := abs_add_le (rd x - x) (x - y)
    rwa [sub_add_sub_cancel] at this
  have h4 : x ≤ (1 + 1e-10) * y := by linarith
  norm_num at h2 h4 ⊢
  linarith

theorem Off.mul {ε η x y u v : ℝ} (h : Off ε x y) (g : Off η u v) (he0 : 0 ≤ ε) (he : ε ≤ 1e-10) (hn0 : 0 ≤ η) :
    Off (ε + η * (1 + 1e-10)) (x * u) (y * v) := by
  obtain ⟨h0, h1⟩ := h
  obtain ⟨g0, g1⟩ := g
  refine ⟨mul_pos h0 g0, ?_⟩
  have e : x * u - y * v = (x - y) * v + x * (u - v) := by ring
  have h2 := abs_le.mp h1
  have hε : ε * y ≤ 1e-10 * y := mul_le_mul_of_nonneg_right he h0.le
  have hx : |x| ≤ (1 + 1e-10) * y := by
    rw [abs_le]
    constructor
    · norm_num at hε ⊢; linarith
    · linarith
  calc |x * u - y * v| ≤ |(x - y) * v| + |x * (u - v)| := by rw [e]; exact abs_add_le _ _
    _ = |x - y| * v + |x| * |u - v| := by rw [abs_mul, abs_mul, abs_of_pos g0]
    _ ≤ ε * y * v + (1 + 1e-10) * y * (η * v) :=
        add_le_add (mul_le_mul_of_nonneg_right h1 g0.le) (mul_le_mul hx g1 (abs_nonneg _) (by positivity))
    _ = _ := by ring

theorem Off.weaken {ε η x y : ℝ} (h : Off ε x y) (he : ε ≤ η) : Off η x y :=
  ⟨h.1, h.2.trans (mul_le_mul_of_nonneg_right he h.1.le)⟩

theorem Off.pos {ε x y : ℝ} (h : Off ε x y) (he : ε ≤ 1e-10) : 0 < x := by
  have h0 := h.1
  have h2 := (abs_le.mp h.2).1
  have hε : ε * y ≤ 1e-10 * y := mul_le_mul_of_nonneg_right he h0.le
  norm_num at hε
  linarith

/-- The quotient of a number by one that is off. -/
theorem Off.div {η x u v : ℝ} (hx : 0 < x) (g : Off η u v) (hn0 : 0 ≤ η) (he : η ≤ 1e-10) :
    Off (η * (1 + 2e-10)) (x / u) (x / v) := by
  have hu := g.pos he
  obtain ⟨g0, g1⟩ := g
  refine ⟨div_pos hx g0, ?_⟩
  have e : x / u - x / v = x / v * ((v - u) / u) := by field_simp
  have h2 := abs_le.mp g1
  have hε : η * v ≤ 1e-10 * v := mul_le_mul_of_nonneg_right he g0.le
  rw [e, abs_mul, abs_of_pos (div_pos hx g0), mul_comm (x / v)]
  refine mul_le_mul_of_nonneg_right ?_ (div_pos hx g0).le
  rw [abs_div, abs_of_pos hu, div_le_iff₀ hu, abs_sub_comm]
  refine g1.trans ?_
  have : v ≤ (1 + 2e-10) * u := by norm_num at hε ⊢; linarith
  calc η * v ≤ η * ((1 + 2e-10) * u) := mul_le_mul_of_nonneg_left this hn0
    _ = _ := by ring

/-- The root of a number that is off. -/
theorem Off.sqrt {ε x y : ℝ} (h : Off ε x y) (he : ε ≤ 1e-10) : Off ε (√x) (√y) := by
  have hx := h.pos he
  obtain ⟨h0, h1⟩ := h
  have s0 := sqrt_pos.mpr h0
  have s1 := sqrt_nonneg x
  refine ⟨s0, ?_⟩
  have e : (√x - √y) * (√x + √y) = x - y := by
    have a := mul_self_sqrt hx.le
    have b := mul_self_sqrt h0.le
    nlinarith
  have h3 : |√x - √y| * (√x + √y) ≤ ε * y := by
    rw [← abs_of_nonneg (by linarith : 0 ≤ √x + √y), ← abs_mul, e]
    exact h1
  have h4 : |√x - √y| * √y ≤ |√x - √y| * (√x + √y) := mul_le_mul_of_nonneg_left (by linarith) (abs_nonneg _)
  have h5 : |√x - √y| * √y ≤ ε * √y * √y := by
    rw [mul_assoc, mul_self_sqrt h0.le]
    exact h4.trans h3
  exact le_of_mul_le_mul_right h5 s0

theorem Off.refl {y : ℝ} (h : 0 < y) : Off 0 y y := ⟨h, by simp⟩

/-- The sum `c` (src/particle_filter.cpp:122). -/
theorem kld_c {rd : ℝ → ℝ} (hrd : RoundsToNearest rd) {b B z : ℝ} (hb : Off 2.4e-16 b B) (hB : B ≤ 2 / 9) (hB2 : 2⁻¹ ^ 60 ≤ B)
    (hz : 0 ≤ z) : Off 7.2e-16 (rd (rd (1 - b) + rd (rd (√b) * z))) (1 - B + √B * z) := by
  have hb0 := hb.pos (by norm_num)
  have hs := hb.sqrt (by norm_num)
  have hsB : (2⁻¹ : ℝ) ^ 30 ≤ √B := by
    have : (2⁻¹ : ℝ) ^ 30 = √((2⁻¹ ^ 30) ^ 2) := (sqrt_sq (by positivity)).symm
    rw [this]
    apply sqrt_le_sqrt
    rw [← pow_mul]
    exact hB2
  have hs1 := hs.round hrd (by norm_num) (le_trans (pow_le_pow_of_le_one (by norm_num) (by norm_num) (by norm_num)) hsB)
  obtain ⟨s0, h1⟩ := hs1
  set s := rd (√b)
  set S := √B
  have ht : |s * z - S * z| ≤ 3.53e-16 * (S * z) := by
    rw [← sub_mul, abs_mul, abs_of_nonneg hz, ← mul_assoc]
    refine mul_le_mul_of_nonneg_right ?_ hz
    refine h1.trans (le_of_eq ?_)
    norm_num
  have hT : 0 ≤ S * z := mul_nonneg s0.le hz
  have h2 := rd_err hrd (x := s * z) (X := (1 + 1e-10) * (S * z)) (by
    rw [abs_le]
    have := abs_le.mp ht
    norm_num at this ⊢
    constructor <;> linarith [this.1, this.2])
  have hbb := abs_le.mp hb.2
  have h3 := rd_err hrd (x := 1 - b) (X := 1) (by
    have := hbb.2
    norm_num at this
    rw [abs_le]
    constructor <;> linarith)
  have htiny : (2⁻¹ : ℝ) ^ 250 ≤ 1e-40 :=
    (pow_le_pow_of_le_one (by norm_num) (by norm_num) (by norm_num : 140 ≤ 250)).trans (by norm_num)
  have hC : (7 : ℝ) / 9 + S * z ≤ 1 - B + S * z := by linarith
  have key : Off 6e-16 (rd (1 - b) + rd (s * z)) (1 - B + S * z) := by
    refine ⟨by linarith, ?_⟩
    have e53 : (2⁻¹ : ℝ) ^ 53 ≤ 1.12e-16 := by norm_num
    have h2' : |rd (s * z) - s * z| ≤ 1.13e-16 * (S * z) + 1e-40 := by
      refine h2.trans (add_le_add ?_ htiny)
      have := mul_le_mul_of_nonneg_right e53 (mul_nonneg (by norm_num : (0:ℝ) ≤ 1 + 1e-10) hT)
      norm_num at this ⊢
      linarith
    have h3' : |rd (1 - b) - (1 - b)| ≤ 1.13e-16 := by
      refine h3.trans ?_
      norm_num at htiny e53 ⊢
    have a1 := abs_le.mp h2'
    have a2 := abs_le.mp h3'
    have a3 := abs_le.mp ht
    clear h2 h3 h2' h3' ht h1
    rw [abs_le]
    norm_num at a1 a2 a3 hbb hC htiny ⊢
    constructor <;> linarith [a1.1, a1.2, a2.1, a2.2, a3.1, a3.2, hbb.1, hbb.2]
  refine (key.round hrd (by norm_num) ?_).weaken (by norm_num)
  refine le_trans ?_ (le_trans (by linarith : (7 : ℝ) / 9 ≤ _) hC)
  exact (pow_le_pow_of_le_one (by norm_num) (by norm_num) (by norm_num : 1 ≤ 180)).trans (by norm_num)

/-- The product (src/particle_filter.cpp:123). -/
theorem kld_product {rd : ℝ → ℝ} (hrd : RoundsToNearest rd) {a A c C : ℝ} (ha : Off 2.4e-16 a A) (hc : Off 7.2e-16 c C)
    (hA : 2⁻¹ ^ 30 ≤ A) (hC : 7 / 9 ≤ C) : Off 3e-15 (rd (rd (rd (a * c) * c) * c)) (A * C ^ 3) := by
  have tiny : ∀ {x : ℝ}, 2⁻¹ ^ 40 ≤ x → 2⁻¹ ^ 180 ≤ x := fun h =>
    (pow_le_pow_of_le_one (by norm_num) (by norm_num) (by norm_num : 40 ≤ 180)).trans h
  have s1 : (2⁻¹ : ℝ) ^ 30 * (7 / 9) ≤ A * C := mul_le_mul hA hC (by norm_num) ha.1.le
  have s2 : (2⁻¹ : ℝ) ^ 30 * (7 / 9) * (7 / 9) ≤ A * C * C := mul_le_mul s1 hC (by norm_num) (mul_pos ha.1 hc.1).le
  have s3 : (2⁻¹ : ℝ) ^ 30 * (7 / 9) * (7 / 9) * (7 / 9) ≤ A * C * C * C :=
    mul_le_mul s2 hC (by norm_num) (mul_pos (mul_pos ha.1 hc.1) hc.1).le
  have p1 := ((ha.mul hc (by norm_num) (by norm_num) (by norm_num)).round hrd (by norm_num)
    (tiny (le_trans (by norm_num) s1))).weaken (η := 1.08e-15) (by norm_num)
  have p2 := ((p1.mul hc (by norm_num) (by norm_num) (by norm_num)).round hrd (by norm_num)
    (tiny (le_trans (by norm_num) s2))).weaken (η := 1.93e-15) (by norm_num)
  have p3 := ((p2.mul hc (by norm_num) (by norm_num) (by norm_num)).round hrd (by norm_num)
    (tiny (le_trans (by norm_num) s3))).weaken (η := 3e-15) (by norm_num)
  have e : A * C ^ 3 = A * C * C * C := by ring
  rwa [e]

theorem kldSize_near {rd : ℝ → ℝ} (hrd : RoundsToNearest rd) {err z : ℝ} {k : ℕ} (hk : 1 < k) (hk2 : k ≤ 2 ^ 53)
    (he : 1e-6 ≤ err) (he2 : err ≤ 1e6) (hz : 0 ≤ z) (hV : kldBound err z k ≤ 2 ^ 63) :
    ∃ n, kldSize rd err z k = .ok n ∧ (n : ℝ) ≤ kldBound err z k * (1 + 3e-15) ∧ kldBound err z k * (1 - 3e-15) < n + 1 := by
  have hn1 : (1 : ℝ) ≤ ((k - 1 : ℕ) : ℝ) := by exact_mod_cast (by omega : 1 ≤ k - 1)
  have hn2 : ((k - 1 : ℕ) : ℝ) ≤ 2 ^ 53 := by exact_mod_cast (by omega : k - 1 ≤ 2 ^ 53)
  have hn : rd ((k - 1 : ℕ) : ℝ) = ((k - 1 : ℕ) : ℝ) := hrd.exact (isDouble_nat (by omega))
  have hcast : ((k - 1 : ℕ) : ℝ) = (k : ℝ) - 1 := by rw [Nat.cast_sub hk.le, Nat.cast_one]
  have hbd : kldBound err z k = ((k - 1 : ℕ) : ℝ) / (2 * err) *
      (1 - 2 / (9 * ((k - 1 : ℕ) : ℝ)) + √(2 / (9 * ((k - 1 : ℕ) : ℝ))) * z) ^ 3 := by rw [hcast]; rfl
  rw [hbd] at hV ⊢
  unfold kldSize
  simp only [hn]
  set n : ℝ := ((k - 1 : ℕ) : ℝ)
  have hn0 : 0 < n := by linarith
  have he0 : 0 < err := lt_of_lt_of_le (by norm_num) he
  have tiny : ∀ {x : ℝ}, 2⁻¹ ^ 70 ≤ x → 2⁻¹ ^ 180 ≤ x := fun h =>
    (pow_le_pow_of_le_one (by norm_num) (by norm_num) (by norm_num : 70 ≤ 180)).trans h
  have h2e := (Off.refl (y := 2 * err) (by linarith)).round hrd (by norm_num) (tiny (by
    refine le_trans ?_ (mul_le_mul_of_nonneg_left he (by norm_num)); norm_num))
  have h9n := (Off.refl (y := 9 * n) (by linarith)).round hrd (by norm_num) (tiny (by
    refine le_trans ?_ (mul_le_mul_of_nonneg_left hn1 (by norm_num)); norm_num))
  have hA : (2⁻¹ : ℝ) ^ 30 ≤ n / (2 * err) := by
    rw [le_div_iff₀ (by linarith)]
    refine le_trans ?_ hn1
    refine (mul_le_mul_of_nonneg_left (mul_le_mul_of_nonneg_left he2 (by norm_num)) (by positivity)).trans ?_
    norm_num
  have hB1 : 2 / (9 * n) ≤ 2 / 9 := div_le_div_of_nonneg_left (by norm_num) (by norm_num) (by linarith)
  have hB2 : (2⁻¹ : ℝ) ^ 60 ≤ 2 / (9 * n) := by
    rw [le_div_iff₀ (by linarith)]
    refine (mul_le_mul_of_nonneg_left (mul_le_mul_of_nonneg_left hn2 (by norm_num)) (by positivity)).trans ?_
    norm_num
  have ha := ((Off.div hn0 h2e (by norm_num) (by norm_num)).round hrd (by norm_num)
    (tiny (le_trans (by norm_num) hA))).weaken (η := 2.4e-16) (by norm_num)
  have hb := ((Off.div (x := 2) (by norm_num) h9n (by norm_num) (by norm_num)).round hrd (by norm_num)
    (tiny (le_trans (by norm_num) hB2))).weaken (η := 2.4e-16) (by norm_num)
  have hb0 := hb.pos (by norm_num)
  have hc := kld_c hrd hb hB1 hB2 hz
  have hC : 7 / 9 ≤ 1 - 2 / (9 * n) + √(2 / (9 * n)) * z := by
    have := mul_nonneg (sqrt_nonneg (2 / (9 * n))) hz
    linarith
  have hv := kld_product hrd ha hc hA hC
  have d1 : rd (2 * err) ≠ 0 := (h2e.pos (by norm_num)).ne'
  have d2 : rd (9 * n) ≠ 0 := (h9n.pos (by norm_num)).ne'
  have hval : Fl.rounded rd (Fl.rounded rd (.fin 1 - Fl.rounded rd (.fin 2 / Fl.rounded rd (.fin 9 * .fin n))) +
      Fl.rounded rd (Fl.rounded rd (Fl.sqrt (Fl.rounded rd (.fin 2 / Fl.rounded rd (.fin 9 * .fin n)))) * .fin z)) =
      .fin (rd (rd (1 - rd (2 / rd (9 * n))) + rd (rd (√(rd (2 / rd (9 * n)))) * z))) := by
    simp only [Fl.fin_mul, Fl.rounded, Fl.fin_div d2, Fl.fin_sub, Fl.sqrt, if_neg (not_lt.mpr hb0.le), Fl.fin_add]
  rw [hval]
  simp only [Fl.fin_mul, Fl.rounded, Fl.fin_div d1]
  set v := rd _ with hvdef
  have hv0 := hv.pos (by norm_num)
  have hvv := abs_le.mp hv.2
  set V := n / (2 * err) * _
  show ∃ m, toU64 v = .ok m ∧ _
  unfold toU64
  have hf : truncZ v = ⌊v⌋ := by unfold truncZ; rw [if_pos hv0.le]
  have hfl0 : 0 ≤ ⌊v⌋ := Int.floor_nonneg.mpr hv0.le
  have hlt : ⌊v⌋ < 2 ^ 64 := by
    rw [Int.floor_lt]
    have := hvv.2
    norm_num at this hV ⊢
    linarith
  rw [hf, if_pos ⟨hfl0, hlt⟩]
  refine ⟨_, rfl, ?_⟩
  have hcastn : ((⌊v⌋.toNat : ℕ) : ℝ) = (⌊v⌋ : ℝ) := by exact_mod_cast Int.toNat_of_nonneg hfl0
  rw [hcastn]
  have f1 := Int.floor_le v
  have f2 := Int.lt_floor_add_one v
  constructor
  · linarith [hvv.2]
  · linarith [hvv.1]

end

end Ndt.Rounded
