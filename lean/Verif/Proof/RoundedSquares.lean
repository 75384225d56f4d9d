import Verif.Proof.RoundedShares
import Verif.Proof.RoundedScan
import Verif.Spec.RoundedSquares

/-! # Points that are moved in double precision, and their squares -/

namespace Ndt.Rounded

open Spec

noncomputable section

variable {rd co si : ℝ → ℝ} {es : Mat2 ℝ → ℝ × ℝ}

theorem accurate_facts (h : Accurate co si) (a : ℝ) : |co a| ≤ 1.01 ∧ |si a| ≤ 1.01 ∧ |co a - Real.cos a| ≤ 2.3e-16 ∧ |si a - Real.sin a| ≤ 2.3e-16 := by
  have h1 := h.cos a
  have h2 := h.sin a
  have h3 := abs_le.mp (Real.abs_cos_le_one a)
  have h4 := abs_le.mp (Real.abs_sin_le_one a)
  have h5 : (2⁻¹ : ℝ) ^ 52 ≤ 2.3e-16 := by norm_num
  have h1' := abs_le.mp (h1.trans h5)
  have h2' := abs_le.mp (h2.trans h5)
  refine ⟨abs_le.mpr ?_, abs_le.mpr ?_, h1.trans h5, h2.trans h5⟩
  · norm_num at h1' ⊢
    constructor <;> linarith
  · norm_num at h2' ⊢
    constructor <;> linarith

theorem moved_near (hr : RoundsToNearest rd) (hcs : Accurate co si) {P : ℝ} (hP : 1 ≤ P) {pose : Pose2d} {p : Point} (hx : |pose.x| ≤ P) (hy : |pose.y| ≤ P)
    (px : |p.x| ≤ P) (py : |p.y| ≤ P) :
    (|(mapPoint rd co si pose p).x - (move pose p).x| ≤ 2e-15 * P ∧ |(mapPoint rd co si pose p).y - (move pose p).y| ≤ 2e-15 * P) ∧
    |(move pose p).x| ≤ 3 * P ∧ |(move pose p).y| ≤ 3 * P := by
  obtain ⟨c1, s1, c2, s2⟩ := accurate_facts hcs pose.theta
  have c3 := Real.abs_cos_le_one pose.theta
  have s3 := Real.abs_sin_le_one pose.theta
  have t1 := abs_le.mp (turned_sub_near hr c1 s1 c3 s3 c2 s2 px py)
  have t2 := abs_le.mp (turned_near hr s1 c1 s3 c3 s2 c2 px py)
  have g : ∀ c x : ℝ, |c| ≤ 1 → |x| ≤ P → |c * x| ≤ P := by
    intro c x h1 h2
    rw [abs_mul]
    have := mul_le_mul h1 h2 (abs_nonneg _) zero_le_one
    linarith
  have g1 := abs_le.mp (g _ _ c3 px)
  have g2 := abs_le.mp (g _ _ s3 py)
  have g3 := abs_le.mp (g _ _ s3 px)
  have g4 := abs_le.mp (g _ _ c3 py)
  have hx2 := abs_le.mp hx
  have hy2 := abs_le.mp hy
  have add : ∀ {a t u : ℝ}, -P ≤ a ∧ a ≤ P → -(1.3e-15 * P + 4e-30) ≤ t - u ∧ t - u ≤ 1.3e-15 * P + 4e-30 → -(2 * P) ≤ u ∧ u ≤ 2 * P →
      |rd (a + t) - (a + u)| ≤ 2e-15 * P := by
    intro a t u h1 h2 h3
    have h4 : |a + t| ≤ 3.1 * P := by
      rw [abs_le]
      norm_num at h2 ⊢
      constructor <;> linarith
    have h5 := abs_le.mp (rd_far hr h4 (by norm_num; linarith))
    rw [abs_le]
    norm_num at h2 h5 ⊢
    constructor <;> linarith
  unfold mapPoint turnX turnY move
  simp only
  rw [mul_comm p.x, mul_comm p.y, mul_comm p.x, mul_comm p.y, add_sub_assoc, add_assoc pose.y]
  refine ⟨⟨add hx2 t1 ⟨by linarith, by linarith⟩, add hy2 t2 ⟨by linarith, by linarith⟩⟩, abs_le.mpr ⟨by linarith, by linarith⟩, abs_le.mpr ⟨by linarith, by linarith⟩⟩

/-- One coordinate: the column of a number that is known up to `2e-15 P` and is not near a line. -/
theorem column_eq (hr : RoundsToNearest rd) {P c o x x' : ℝ} (hP : 1 ≤ P) (hc : 0 < c) (hPc : 7 * P ≤ 2 ^ 31 * c) (ho : |o| ≤ 3 * P) (hx : |x| ≤ 3 * P)
    (hxx : |x' - x| ≤ 2e-15 * P) (hl : ∀ k : ℤ, 5e-15 * P ≤ |x - (o + k * c)|) :
    (x' < o ↔ ⌊(x - o) / c⌋ < 0) ∧
    (0 ≤ ⌊(x - o) / c⌋ → toU32F (Fl.rounded rd (.fin (rd (x' - o)) / .fin c)) = .ok ⌊(x - o) / c⌋.toNat) := by
  have ho2 := abs_le.mp ho
  have hx2 := abs_le.mp hx
  have hxx2 := abs_le.mp hxx
  generalize hk : ⌊(x - o) / c⌋ = k
  obtain ⟨f1, f2⟩ := Int.floor_eq_iff.mp hk
  rw [le_div_iff₀ hc] at f1
  rw [div_lt_iff₀ hc] at f2
  have l1 : 5e-15 * P ≤ x - (o + k * c) := by
    have := hl k
    rwa [abs_of_nonneg (by linarith)] at this
  have l2 : 5e-15 * P ≤ (o + (k + 1) * c) - x := by
    have := hl (k + 1)
    push_cast at this
    rwa [abs_of_nonpos (by linarith), neg_sub] at this
  have e1 : ((k : ℝ) + 1) * c = k * c + c := by ring
  constructor
  · constructor
    · intro h
      by_contra h0
      push Not at h0
      have : (0 : ℝ) ≤ k := by exact_mod_cast h0
      have := mul_nonneg this hc.le
      norm_num at l1 hxx2
      linarith
    · intro h
      have : (k : ℝ) + 1 ≤ 0 := by exact_mod_cast h
      have := mul_nonneg (neg_nonneg.mpr this) hc.le
      norm_num at l2 hxx2
      linarith
  · intro h
    have hk0 : (0 : ℝ) ≤ k := by exact_mod_cast h
    have hkc := mul_nonneg hk0 hc.le
    have hw : |x' - o| ≤ 6.1 * P := by
      rw [abs_le]
      norm_num at hxx2 ⊢
      constructor <;> linarith
    have hr1 := abs_le.mp (rd_far hr hw (by norm_num; linarith))
    have hkR : (k : ℝ) + 1 < 2 ^ 31 := by
      have h2 : (k : ℝ) * c + c ≤ 7 * P + c := by
        norm_num at l1
        linarith
      by_contra hh
      push Not at hh
      have h3 := mul_le_mul_of_nonneg_right hh hc.le
      rw [e1] at h3
      have h4 : (k : ℝ) * c ≤ 6 * P := by
        norm_num at l1
        linarith
      have h5 : (c : ℝ) < P := by
        by_contra h6
        push Not at h6
        norm_num at h3 hPc
        have h7 : (k : ℝ) * c ≤ 6 * c := by linarith
        linarith
      linarith
    have hk31 : k + 1 < 2 ^ 31 := by exact_mod_cast hkR
    have b1 : (k : ℝ) ≤ rd (x' - o) / c := by
      rw [le_div_iff₀ hc]
      norm_num at l1 hr1 hxx2
      linarith
    have b2 : rd (x' - o) ≤ (k + 1) * c - 2e-15 * P := by
      norm_num at l2 hr1 hxx2 ⊢
      linarith
    have dk : IsDouble (k : ℝ) := by
      have := isDouble_nat (n := k.toNat) (by omega)
      have e : ((k.toNat : ℕ) : ℝ) = k := by exact_mod_cast Int.toNat_of_nonneg h
      rwa [e] at this
    have c1 : (k : ℝ) ≤ rd (rd (x' - o) / c) := hr.ge_of_ge dk b1
    have b3 : rd (x' - o) / c ≤ (k + 1) * (1 - 2e-16) := by
      rw [div_le_iff₀ hc]
      have h6 : (k + 1) * (1 - 2e-16) * c = (k + 1) * c - 2e-16 * ((k + 1) * c) := by ring
      rw [h6]
      have hw2 := abs_le.mp hw
      rcases le_total (((k : ℝ) + 1) * c) (10 * P) with h7 | h7
      · norm_num at b2 h7 ⊢
        linarith
      · generalize ((k : ℝ) + 1) * c = z at *
        norm_num at h7 hr1 hw2 ⊢
        linarith
    have b0 : 0 ≤ rd (x' - o) / c := hk0.trans b1
    have c2 : rd (rd (x' - o) / c) < k + 1 := by
      have h8 := abs_le.mp (rd_far hr (x := rd (x' - o) / c) (X := k + 1) (by
        rw [abs_of_nonneg b0]
        refine b3.trans ?_
        have : 0 ≤ ((k : ℝ) + 1) * 2e-16 := by positivity
        linarith) (by norm_num; linarith))
      have h9 : (k + 1) * (1 - 2e-16) = (k : ℝ) + 1 - 2e-16 * (k + 1) := by ring
      rw [h9] at b3
      norm_num at h8 b3
      linarith
    rw [Fl.fin_div hc.ne', Fl.rounded_fin]
    show toU32 _ = _
    have hf : ⌊rd (rd (x' - o) / c)⌋ = k := Int.floor_eq_iff.mpr ⟨c1, c2⟩
    unfold toU32
    rw [truncZ_of_nonneg (hk0.trans c1), hf, if_pos ⟨h, by omega⟩]

/-- The number of the square that is computed is that of exact arithmetic. -/
theorem index_eq (hr : RoundsToNearest rd) {P : ℝ} (hP : 1 ≤ P) {g : NdtGrid} (hc : 0 < g.cellSize) (hPc : 7 * P ≤ 2 ^ 31 * g.cellSize)
    (hox : |g.originX| ≤ 3 * P) (hoy : |g.originY| ≤ 3 * P) (hsz : g.sizeX * g.sizeY ≤ 2 ^ 31) {p q : Point} (px : |p.x| ≤ 3 * P) (py : |p.y| ≤ 3 * P)
    (hx : |q.x - p.x| ≤ 2e-15 * P) (hy : |q.y - p.y| ≤ 2e-15 * P) (hl : ClearOfLines g (5e-15 * P) p) : getIndex rd g q.x q.y = .ok (squareAt g p) := by
  obtain ⟨a1, a2⟩ := column_eq hr hP hc hPc hox px hx fun k => (hl k).1
  obtain ⟨b1, b2⟩ := column_eq hr hP hc hPc hoy py hy fun k => (hl k).2
  unfold getIndex squareAt
  simp only
  generalize ⌊(p.x - g.originX) / g.cellSize⌋ = i at *
  generalize ⌊(p.y - g.originY) / g.cellSize⌋ = j at *
  by_cases hi : 0 ≤ i
  · by_cases hj : 0 ≤ j
    · rw [if_neg (by
        rintro (h | h)
        · exact absurd (a1.mp h) (by omega)
        · exact absurd (b1.mp h) (by omega)), a2 hi, b2 hj]
      simp only [Res.ok_bind]
      by_cases hin : i < g.sizeX ∧ j < g.sizeY
      · obtain ⟨h1, h2⟩ := hin
        have hidx : j.toNat * g.sizeX + i.toNat < g.sizeX * g.sizeY := by
          have h3 : j.toNat + 1 ≤ g.sizeY := by omega
          have h4 : i.toNat < g.sizeX := by omega
          have : (j.toNat + 1) * g.sizeX ≤ g.sizeY * g.sizeX := Nat.mul_le_mul_right _ h3
          have e : (j.toNat + 1) * g.sizeX = j.toNat * g.sizeX + g.sizeX := by ring
          rw [e, Nat.mul_comm g.sizeY] at this
          omega
        rw [if_neg (by omega), if_pos ⟨hi, h1, hj, h2⟩, Nat.mod_eq_of_lt (by omega), wrapI32_of_lt (by omega)]
        have e1 := Int.toNat_of_nonneg hi
        have e2 := Int.toNat_of_nonneg hj
        simp only [Res.pure_eq]
        push_cast
        rw [e1, e2]
      · rw [if_pos (by omega), if_neg (fun h => hin ⟨h.2.1, h.2.2.2⟩)]
        rfl
    · rw [if_pos (Or.inr (b1.mpr (by omega))), if_neg (fun h => hj h.2.2.1)]
  · rw [if_pos (Or.inl (a1.mpr (by omega))), if_neg (fun h => hi h.1)]

/-- The normal distribution at two points that are near each other. -/
theorem normalAt_lipschitz {s R ε : ℝ} (hs : 0 < s) {ps : List Point} (hsp : SpreadAtLeast s ps) {p q : Point} (hR : 0 ≤ R)
    (hx : |q.x - avg (·.x) ps| ≤ R) (hy : |q.y - avg (·.y) ps| ≤ R) (px : |p.x - avg (·.x) ps| ≤ R) (py : |p.y - avg (·.y) ps| ≤ R)
    (ex : |q.x - p.x| ≤ ε) (ey : |q.y - p.y| ≤ ε) : |normalAt ps q - normalAt ps p| ≤ 3 * (R * ε / s) := by
  obtain ⟨f1, f2, f3, f4, f5, f6⟩ := eig_facts hs hsp
  obtain ⟨d1, -, -⟩ := limitedDet_facts hs f1
  have hL := hs.trans_le (f1.trans (eigMin_le_eigMax _ _ _))
  have hD := lt_of_lt_of_le (mul_pos hs hL) d1
  have form : ∀ p : Point, 0 ≤ (p.x - avg (·.x) ps) ^ 2 * sampleCov (·.y) (·.y) ps - 2 * (p.x - avg (·.x) ps) * (p.y - avg (·.y) ps) * sampleCov (·.x) (·.y) ps +
      (p.y - avg (·.y) ps) ^ 2 * sampleCov (·.x) (·.x) ps := by
    intro p
    have h1 := hsp (p.y - avg (·.y) ps) (-(p.x - avg (·.x) ps))
    have h2 : 0 ≤ s * ((p.y - avg (·.y) ps) ^ 2 + (-(p.x - avg (·.x) ps)) ^ 2) := by positivity
    linarith
  have hp0 := form p
  have hq0 := form q
  unfold normalAt gauss
  simp only
  have ex' : |(q.x - avg (·.x) ps) - (p.x - avg (·.x) ps)| ≤ ε := by rwa [sub_sub_sub_cancel_right]
  have ey' : |(q.y - avg (·.y) ps) - (p.y - avg (·.y) ps)| ≤ ε := by rwa [sub_sub_sub_cancel_right]
  generalize q.x - avg (·.x) ps = X at *
  generalize q.y - avg (·.y) ps = Y at *
  generalize p.x - avg (·.x) ps = X' at *
  generalize p.y - avg (·.y) ps = Y' at *
  generalize sampleCov (·.x) (·.x) ps = a at *
  generalize sampleCov (·.y) (·.y) ps = d at *
  generalize sampleCov (·.x) (·.y) ps = b at *
  generalize eigMax a b d = L at *
  generalize limitedDet a b d = D at *
  have hε : 0 ≤ ε := (abs_nonneg _).trans ex
  have prod : ∀ {u v u' v' : ℝ}, |u'| ≤ R → |v| ≤ R → |u - u'| ≤ ε → |v - v'| ≤ ε → |u * v - u' * v'| ≤ 2 * (R * ε) := by
    intro u v u' v' h1 h2 h3 h4
    have e : u * v - u' * v' = (u - u') * v + u' * (v - v') := by ring
    rw [e]
    refine (abs_add_le _ _).trans ?_
    rw [abs_mul, abs_mul]
    have a1 := mul_le_mul h3 h2 (abs_nonneg _) hε
    have a2 := mul_le_mul h1 h4 (abs_nonneg _) hR
    linarith
  have k1 := prod px hx ex' ex'
  have k2 := prod px hy ex' ey'
  have k3 := prod py hy ey' ey'
  have hN : |(X ^ 2 * d - 2 * X * Y * b + Y ^ 2 * a) - (X' ^ 2 * d - 2 * X' * Y' * b + Y' ^ 2 * a)| ≤ 6 * (R * ε) * L := by
    have e : (X ^ 2 * d - 2 * X * Y * b + Y ^ 2 * a) - (X' ^ 2 * d - 2 * X' * Y' * b + Y' ^ 2 * a) =
      (X * X - X' * X') * d - 2 * ((X * Y - X' * Y') * b) + (Y * Y - Y' * Y') * a := by ring
    have hRε := mul_nonneg hR hε
    have m1 : |(X * X - X' * X') * d| ≤ 2 * (R * ε) * L := by
      rw [abs_mul]
      exact mul_le_mul k1 (by rw [abs_of_nonneg (hs.le.trans f3)]; exact f5) (abs_nonneg _) (by linarith)
    have m2 : |(X * Y - X' * Y') * b| ≤ 2 * (R * ε) * (L / 2) := by
      rw [abs_mul]
      exact mul_le_mul k2 f6 (abs_nonneg _) (by linarith)
    have m3 : |(Y * Y - Y' * Y') * a| ≤ 2 * (R * ε) * L := by
      rw [abs_mul]
      exact mul_le_mul k3 (by rw [abs_of_nonneg (hs.le.trans f2)]; exact f4) (abs_nonneg _) (by linarith)
    rw [e]
    rw [abs_le] at m1 m2 m3 ⊢
    constructor <;> linarith
  generalize X ^ 2 * d - 2 * X * Y * b + Y ^ 2 * a = n at *
  generalize X' ^ 2 * d - 2 * X' * Y' * b + Y' ^ 2 * a = n' at *
  have exp_sub : ∀ u v : ℝ, u ≤ 0 → v ≤ 0 → |Real.exp u - Real.exp v| ≤ |u - v| := by
    have one : ∀ u v : ℝ, u ≤ 0 → Real.exp u - Real.exp v ≤ |u - v| := by
      intro u v hu
      rcases le_total u v with h | h
      · have := Real.exp_le_exp.mpr h
        linarith [abs_nonneg (u - v)]
      · have h1 := Real.add_one_le_exp (v - u)
        have h2 : Real.exp v = Real.exp u * Real.exp (v - u) := by rw [← Real.exp_add]; congr 1; ring
        have h3 := Real.exp_le_one_iff.mpr hu
        have h4 := Real.exp_pos u
        rw [h2, abs_of_nonneg (by linarith)]
        have h5 : Real.exp u * (1 - Real.exp (v - u)) ≤ 1 * (u - v) := by
          refine mul_le_mul h3 (by linarith) ?_ zero_le_one
          have := Real.exp_le_one_iff.mpr (show v - u ≤ 0 by linarith)
          linarith
        linarith
    intro u v hu hv
    rw [abs_le]
    have h1 := one u v hu
    have h2 := one v u hv
    rw [abs_sub_comm] at h2
    constructor <;> linarith
  have g1 : 0 ≤ n / D := div_nonneg hq0 hD.le
  have g2 : 0 ≤ n' / D := div_nonneg hp0 hD.le
  refine (exp_sub _ _ (by linarith) (by linarith)).trans ?_
  have e : -(1 / 2) * (n / D) - -(1 / 2) * (n' / D) = -((n - n') / (2 * D)) := by
    field_simp
    ring
  rw [e, abs_neg, abs_div, abs_of_pos (by linarith : 0 < 2 * D), div_le_iff₀ (by linarith)]
  have h6 : 6 * (R * ε) * L ≤ 3 * (R * ε / s) * (2 * D) := by
    have e2 : 3 * (R * ε / s) * (2 * D) = 6 * (R * ε) * (D / s) := by field_simp; ring
    rw [e2]
    refine mul_le_mul_of_nonneg_left ?_ (by positivity)
    rw [le_div_iff₀ hs]
    linarith
  exact hN.trans h6

/-- The likelihood of a point that is known up to `ε` and is in the same square. -/
theorem normalOf_near (hr : RoundsToNearest rd) {B s τ K ε : ℝ} (hs : 0 < s) {g : NdtGrid} {scans : List Scan} (hc : 1e-6 ≤ g.cellSize)
    (hsz : g.sizeX * g.sizeY ≤ 2 ^ 31) (hsq : SquaresWithin rd co si g scans B s τ K) {p q : Point} (h : getIndex rd g q.x q.y = .ok (squareAt g p))
    (ex : |q.x - p.x| ≤ ε) (ey : |q.y - p.y| ≤ ε) (hε : ε ≤ 0.01 * g.cellSize) :
    |normalIn rd co si g scans q - normalOf rd co si g scans p| ≤ 3.1 * (g.cellSize * ε / s) := by
  have hε0 : 0 ≤ ε := (abs_nonneg _).trans ex
  have hc0 : 0 < g.cellSize := lt_of_lt_of_le (by norm_num) hc
  unfold normalIn normalOf
  rw [h]
  simp only
  split
  · rename_i hi
    generalize hps : pointsIn rd co si g scans (squareAt g p).toNat = ps at hi ⊢
    have hsp : SpreadAtLeast s ps := by
      have := hsq (squareAt g p).toNat
      rw [hps] at this
      exact (this hi.2).2.1
    have hd : ∀ z ∈ ps, |z.x - q.x| ≤ 1.01 * g.cellSize ∧ |z.y - q.y| ≤ 1.01 * g.cellSize := by
      intro z hz
      rw [← hps] at hz
      have : getIndex rd g z.x z.y = .ok (((squareAt g p).toNat : ℕ) : ℤ) := of_decide_eq_true (List.mem_filter.mp hz).2
      rw [Int.toNat_of_nonneg hi.1] at this
      exact square_side hr hc hsz h this hi.1
    have hne : ps ≠ [] := by
      rintro rfl
      simp at hi
    have ax := avg_near (f := (·.x)) (by positivity : 0 ≤ 1.01 * g.cellSize) hne fun z hz => (hd z hz).1
    have ay := avg_near (f := (·.y)) (by positivity : 0 ≤ 1.01 * g.cellSize) hne fun z hz => (hd z hz).2
    have bx : |p.x - avg (·.x) ps| ≤ 1.02 * g.cellSize := by
      rw [abs_le] at ax ex ⊢
      norm_num at ax hε ⊢
      constructor <;> linarith
    have by' : |p.y - avg (·.y) ps| ≤ 1.02 * g.cellSize := by
      rw [abs_le] at ay ey ⊢
      norm_num at ay hε ⊢
      constructor <;> linarith
    have := normalAt_lipschitz hs hsp (R := 1.02 * g.cellSize) (by positivity) (ax.trans (by norm_num; linarith)) (ay.trans (by norm_num; linarith)) bx by' ex ey
    refine this.trans ?_
    have e : 3 * (1.02 * g.cellSize * ε / s) = 3.06 * (g.cellSize * ε / s) := by ring
    rw [e]
    refine mul_le_mul_of_nonneg_right (by norm_num) (by positivity)
  · rw [sub_self, abs_zero]
    positivity

theorem normalOf_range {g : NdtGrid} {scans : List Scan} {B s τ K : ℝ} (hs : 0 < s) (hsq : SquaresWithin rd co si g scans B s τ K) (p : Point) :
    0 ≤ normalOf rd co si g scans p ∧ normalOf rd co si g scans p ≤ 1 := by
  unfold normalOf
  simp only
  split
  · rename_i h
    exact normalAt_range hs (hsq _ h.2).2.1 p
  · exact ⟨le_rfl, zero_le_one⟩

theorem beam_mem {points : List Point} {m i : ℕ} {p : Point} (h : beam rd points m i = .ok p) : p ∈ points := by
  unfold beam at h
  cases h1 : beamIndex rd points.length m i with
  | error e => rw [h1] at h; cases h
  | ok k =>
    rw [h1] at h
    simp only [Res.ok_bind] at h
    cases h2 : points[k]? with
    | none => rw [h2] at h; cases h
    | some q =>
      rw [h2] at h
      cases h
      exact List.mem_of_getElem? h2

theorem normalSeen_range {g : NdtGrid} {scans : List Scan} {B s τ K : ℝ} (hs : 0 < s) (hsq : SquaresWithin rd co si g scans B s τ K)
    (points : List Point) (m : ℕ) (pose : Pose2d) : 0 ≤ normalSeen rd co si g scans points m pose ∧ normalSeen rd co si g scans points m pose ≤ 1 := by
  have h := sum_range (f := fun i => match beam rd points m i with
    | .ok p => normalOf rd co si g scans (move pose p)
    | .error _ => 0) (fun i => by
      cases beam rd points m i with
      | error e => exact ⟨le_rfl, zero_le_one⟩
      | ok p => exact normalOf_range hs hsq _) (List.range m)
  rw [List.length_range] at h
  unfold normalSeen
  have hm : (0 : ℝ) ≤ m := Nat.cast_nonneg _
  exact ⟨div_nonneg h.1 hm, div_le_one_of_le₀ h.2 hm⟩

theorem sums_near {f f' : ℕ → ℝ} {L : ℝ} (h : ∀ i, |f i - f' i| ≤ L) : ∀ l : List ℕ, |(l.map f).sum - (l.map f').sum| ≤ l.length * L := by
  intro l
  induction l with
  | nil => simp
  | cons i l ih =>
    simp only [List.map_cons, List.sum_cons, List.length_cons]
    push_cast
    have h1 := abs_le.mp (h i)
    have h2 := abs_le.mp ih
    rw [abs_le]
    constructor <;> linarith

theorem normalSeen_near {g : NdtGrid} {scans : List Scan} {points : List Point} {m : ℕ} {pose : Pose2d} {L : ℝ} (hL : 0 ≤ L)
    (h : ∀ p ∈ points, |normalIn rd co si g scans (mapPoint rd co si pose p) - normalOf rd co si g scans (move pose p)| ≤ L) :
    |normalMean rd co si g scans points m pose - normalSeen rd co si g scans points m pose| ≤ L := by
  unfold normalMean normalSeen
  rcases Nat.eq_zero_or_pos m with h0 | h0
  · subst h0
    simpa using hL
  · have hm : (0 : ℝ) < m := by exact_mod_cast h0
    rw [← sub_div, abs_div, abs_of_pos hm, div_le_iff₀ hm]
    refine (sums_near (L := L) (fun i => ?_) (List.range m)).trans (by rw [List.length_range, mul_comm])
    cases hb : beam rd points m i with
    | error e => simpa using hL
    | ok p => exact h p (beam_mem hb)

theorem normalOf_moved (hr : RoundsToNearest rd) (hcs : Accurate co si) {B s τ K P : ℝ} (hs : 1e-12 ≤ s) {mt mt' : Matcher} {scans : List Scan}
    (hm : addScans rd co si es mt scans = .ok mt') {g : NdtGrid} (hg : mt'.ndt = some g) (hc0 : 0 < mt.resolution)
    (hsc : s ≤ mt.resolution * mt.resolution) (hsz : g.sizeX * g.sizeY ≤ 2 ^ 31)
    (hsq : SquaresWithin rd co si g scans B s τ K) (hP : 1 ≤ P) (hPc : 7 * P ≤ 2 ^ 31 * mt.resolution) (hox : |g.originX| ≤ 3 * P) (hoy : |g.originY| ≤ 3 * P)
    {pose : Pose2d} {p : Point} (hx : |pose.x| ≤ P) (hy : |pose.y| ≤ P) (px : |p.x| ≤ P) (py : |p.y| ≤ P)
    (hl : ClearOfLines g (5e-15 * P) (move pose p)) :
    |normalIn rd co si g scans (mapPoint rd co si pose p) - normalOf rd co si g scans (move pose p)| ≤ 6.2e-15 * (mt.resolution * P / s) := by
  have hs0 : 0 < s := lt_of_lt_of_le (by norm_num) hs
  obtain ⟨gc, hc6⟩ : g.cellSize = mt.resolution ∧ 1e-6 ≤ g.cellSize := by
    obtain ⟨g', e, gc, -⟩ := addScans_cells hm
    subst e
    cases Option.some.inj hg
    refine ⟨gc, ?_⟩
    rw [gc]
    by_contra hh
    have := mul_lt_mul'' (not_le.mp hh) (not_le.mp hh) hc0.le hc0.le
    norm_num at this hs
    linarith
  rw [← gc] at hPc hc0 ⊢
  obtain ⟨⟨h1, h2⟩, h5, h6⟩ := moved_near hr hcs hP hx hy px py
  have hi := index_eq hr hP hc0 hPc hox hoy hsz h5 h6 h1 h2 hl
  have h3 := normalOf_near hr hs0 hc6 hsz hsq hi h1 h2 (by
    norm_num at hPc ⊢
    linarith)
  have e : 3.1 * (g.cellSize * (2e-15 * P) / s) = 6.2e-15 * (g.cellSize * P / s) := by ring
  rwa [e] at h3

end

end Ndt.Rounded
