import Verif.Proof.RoundedNormal
import Verif.Proof.RoundedWeigh
import Verif.Spec.RoundedShares

/-! # Weights of particles in double precision -/

namespace Ndt.Rounded

open Spec

noncomputable section

variable {rd co si : ℝ → ℝ} {es : Mat2 ℝ → ℝ × ℝ}

/-- A sum, rounded after every term, of terms that are themselves known up to `K`. -/
theorem terms_near (hr : RoundsToNearest rd) {α : Type} {step : Fl → α → Res Fl} {f : α → ℝ} {K F : ℝ} (hF : 1e-200 ≤ F)
    (hK : K ≤ 0.02 * F) {L : List α} (hf : ∀ i ∈ L, |f i| ≤ F)
    (hstep : ∀ a i w, i ∈ L → step (.fin a) i = .ok w → ∃ y, w = .fin (rd (a + y)) ∧ |y - f i| ≤ K) (hn : L.length ≤ 2 ^ 40) {v : Fl}
    (h : L.foldlM step (.fin 0) = .ok v) : ∃ x, v = .fin x ∧ |x - (L.map f).sum| ≤ L.length * (K + 2e-16 * L.length * F) := by
  have hN : (L.length : ℝ) ≤ 2 ^ 40 := by exact_mod_cast hn
  have hF0 : 0 < F := lt_of_lt_of_le (by norm_num) hF
  generalize hNd : (L.length : ℝ) = N at hN
  have key : ∀ (l : List α) (k : ℕ) (a A : ℝ) (v : Fl), (∀ i ∈ l, i ∈ L) → (k : ℝ) + l.length = N → |A| ≤ k * F →
      |a - A| ≤ k * (K + 2e-16 * N * F) → l.foldlM step (.fin a) = .ok v →
      ∃ x, v = .fin x ∧ |x - (A + (l.map f).sum)| ≤ N * (K + 2e-16 * N * F) := by
    intro l
    induction l with
    | nil =>
      intro k a A v _ hk _ ha h
      cases h
      refine ⟨a, rfl, ?_⟩
      simp only [List.length_nil, Nat.cast_zero, add_zero] at hk
      rw [hk] at ha
      simpa using ha
    | cons p l ih =>
      intro k a A v hsub hk A1 ha h
      rw [List.foldlM_cons] at h
      cases h2 : step (.fin a) p with
      | error e => rw [h2] at h; cases h
      | ok u =>
        rw [h2] at h
        simp only [Res.ok_bind] at h
        have hpL := hsub p List.mem_cons_self
        obtain ⟨y, rfl, hy⟩ := hstep a p u hpL h2
        have f1 := abs_le.mp (hf p hpL)
        rw [List.length_cons] at hk
        push_cast at hk
        have hk0 : (0 : ℝ) ≤ k := Nat.cast_nonneg _
        have hl0 : (0 : ℝ) ≤ l.length := Nat.cast_nonneg _
        have hkN : ((k : ℝ) + 1) * F ≤ N * F := mul_le_mul_of_nonneg_right (by linarith) hF0.le
        have hNF : N * F ≤ 2 ^ 40 * F := mul_le_mul_of_nonneg_right hN hF0.le
        have hKN : K + 2e-16 * N * F ≤ 0.03 * F := by
          have e : 2e-16 * N * F = 2e-16 * (N * F) := by ring
          rw [e]
          norm_num at hNF hK ⊢
          linarith
        have hkK : (k : ℝ) * (K + 2e-16 * N * F) ≤ 0.03 * (k * F) := by
          have := mul_le_mul_of_nonneg_left hKN hk0
          linarith
        have hkF : 0 ≤ (k : ℝ) * F := mul_nonneg hk0 hF0.le
        have ha2 := abs_le.mp ha
        have hy2 := abs_le.mp hy
        have A2 := abs_le.mp A1
        have e1 : ((k : ℝ) + 1) * F = k * F + F := by ring
        have hay : |a + y| ≤ 1.05 * (N * F) := by
          rw [abs_le]
          rw [e1] at hkN
          generalize (k : ℝ) * F = kF at *
          generalize (k : ℝ) * (K + 2e-16 * N * F) = kK at *
          generalize N * F = NF at *
          norm_num at hkK hK ⊢
          constructor <;> linarith
        have h3 := abs_le.mp (rd_far hr hay (by
          rw [e1] at hkN
          norm_num at hF ⊢
          linarith))
        have e2 : ((k : ℝ) + 1) * (K + 2e-16 * N * F) = k * (K + 2e-16 * N * F) + (K + 2e-16 * (N * F)) := by ring
        have hNF0 : 0 ≤ N * F := by
          rw [e1] at hkN
          linarith
        have := ih (k + 1) (rd (a + y)) (A + f p) v (fun i hi => hsub i (List.mem_cons_of_mem _ hi)) (by push_cast; linarith) (by
          push_cast
          rw [e1, abs_le]
          constructor <;> linarith) (by
          push_cast
          rw [e2, abs_le]
          generalize (k : ℝ) * (K + 2e-16 * N * F) = kK at *
          generalize N * F = NF at *
          norm_num at h3 ⊢
          constructor <;> linarith) h
        rw [List.map_cons, List.sum_cons, ← add_assoc]
        exact this
  have := key L 0 0 0 v (fun i hi => hi) (by simp [hNd]) (by simp) (by simp) h
  rw [zero_add] at this
  exact this

theorem sum_neg {α : Type} (f : α → ℝ) : ∀ l : List α, (l.map fun i => -f i).sum = -(l.map f).sum := by
  intro l
  induction l with
  | nil => simp
  | cons i l ih => rw [List.map_cons, List.map_cons, List.sum_cons, List.sum_cons, ih, neg_add]

theorem normalMean_range {g : NdtGrid} {scans : List Scan} (hf : ∀ p, 0 ≤ normalIn rd co si g scans p ∧ normalIn rd co si g scans p ≤ 1)
    (points : List Point) (m : ℕ) (pose : Pose2d) : 0 ≤ normalMean rd co si g scans points m pose ∧ normalMean rd co si g scans points m pose ≤ 1 := by
  have h := sum_range (f := fun i => match beam rd points m i with
    | .ok p => normalIn rd co si g scans (mapPoint rd co si pose p)
    | .error _ => 0) (fun i => by
      cases beam rd points m i with
      | error e => exact ⟨le_rfl, zero_le_one⟩
      | ok p => exact hf _) (List.range m)
  rw [List.length_range] at h
  unfold normalMean
  have hm : (0 : ℝ) ≤ m := Nat.cast_nonneg _
  exact ⟨div_nonneg h.1 hm, div_le_one_of_le₀ h.2 hm⟩

theorem scorePoints_near (hr : RoundsToNearest rd) {mt : Matcher} {g : NdtGrid} (hg : mt.ndt = some g) {scans : List Scan}
    (hf : ∀ p, 0 ≤ normalIn rd co si g scans p ∧ normalIn rd co si g scans p ≤ 1) {K : ℝ} (hK : K ≤ 0.02)
    (hlik : ∀ p v, likelihood rd g p = .ok v → ∃ x, v = .fin x ∧ |x - normalIn rd co si g scans p| ≤ K) {points : List Point}
    (hp : points ≠ []) (hp2 : points.length ≤ 2 ^ 40) (hb : 0 < mt.laserMaxBeams) {pose : Pose2d} {v : Fl}
    (h : scorePoints rd co si mt points pose = .ok v) :
    ∃ x, v = .fin x ∧ |x + normalMean rd co si g scans points (min mt.laserMaxBeams points.length) pose| ≤
      K + 4e-16 * (min mt.laserMaxBeams points.length : ℕ) := by
  have hm0 : 0 < min mt.laserMaxBeams points.length := lt_min hb (List.length_pos_iff.mpr hp)
  have hm1 : min mt.laserMaxBeams points.length ≤ 2 ^ 40 := le_trans (min_le_right _ _) hp2
  unfold scorePoints at h
  rw [hg] at h
  simp only at h
  generalize hm : min mt.laserMaxBeams points.length = m at hm0 hm1 h ⊢
  have hrange := normalMean_range hf points m pose
  have hmr : (0 : ℝ) < m := by exact_mod_cast hm0
  have hmr1 : (1 : ℝ) ≤ m := by exact_mod_cast hm0
  have hmR : (m : ℝ) ≤ 2 ^ 40 := by exact_mod_cast hm1
  cases h1 : (List.range m).foldlM (fun score i => do
        let p ← beam rd points m i
        let w ← likelihood rd g (mapPoint rd co si pose p)
        (pure (Fl.rounded rd (score + -w)) : Res Fl)) (Fl.fin 0) with
  | error e => rw [h1] at h; cases h
  | ok w =>
    rw [h1] at h
    simp only [Res.ok_bind, Res.pure_eq] at h
    obtain ⟨x, rfl, hx⟩ := terms_near hr (F := 1) (K := K) (f := fun i => -(match beam rd points m i with
      | .ok p => normalIn rd co si g scans (mapPoint rd co si pose p)
      | .error _ => 0)) (by norm_num) (by linarith) (fun i _ => by
        rw [abs_neg]
        cases beam rd points m i with
        | error e => simp
        | ok p => exact abs_le.mpr ⟨by linarith [(hf (mapPoint rd co si pose p)).1], (hf _).2⟩) (fun a i w _ hw => by
        cases hb : beam rd points m i with
        | error e => rw [hb] at hw; cases hw
        | ok p =>
          rw [hb] at hw
          simp only [Res.ok_bind] at hw
          cases hl : likelihood rd g (mapPoint rd co si pose p) with
          | error e => rw [hl] at hw; cases hw
          | ok u =>
            rw [hl] at hw
            obtain ⟨y, rfl, hy⟩ := hlik _ u hl
            cases hw
            refine ⟨-y, rfl, ?_⟩
            simp only
            rw [neg_sub_neg, abs_sub_comm]
            exact hy) (by simpa using hm1) h1
    rw [List.length_range, mul_one] at hx
    cases h
    have es : ((List.range m).map fun i => -(match beam rd points m i with
        | .ok p => normalIn rd co si g scans (mapPoint rd co si pose p)
        | .error _ => (0 : ℝ))).sum = -(m * normalMean rd co si g scans points m pose) := by
      unfold normalMean
      rw [mul_div_cancel₀ _ hmr.ne']
      exact sum_neg _ _
    rw [es, sub_neg_eq_add] at hx
    rw [hr.exact (isDouble_nat (by omega)), Fl.fin_div hmr.ne', Fl.rounded_fin]
    refine ⟨_, rfl, ?_⟩
    generalize normalMean rd co si g scans points m pose = e at *
    have e1 : |x / m + e| ≤ K + 2e-16 * m := by
      have : x / m + e = (x + m * e) / m := by field_simp
      rw [this, abs_div, abs_of_pos hmr, div_le_iff₀ hmr]
      linarith
    have aux : ∀ z : ℝ, z ≤ 2 ^ 40 → K + 2e-16 * z ≤ 0.03 := by
      intro z hz
      norm_num at hz hK ⊢
      linarith
    have hKm := aux m hmR
    generalize x / m = q at *
    have hq : |q| ≤ 1.05 := by
      rw [abs_le] at e1 ⊢
      norm_num at e1 hKm ⊢
      constructor <;> linarith
    have e4 := rd_far hr hq (by norm_num)
    rw [abs_le] at e1 e4 ⊢
    norm_num at e1 e4 ⊢
    constructor <;> linarith

theorem foldlM_pure {α : Type} (step : Fl → α → Fl) : ∀ (l : List α) (s : Fl), l.foldlM (fun s a => (.ok (step s a) : Res Fl)) s = .ok (l.foldl step s) := by
  intro l
  induction l with
  | nil => intro s; rfl
  | cons a l ih => intro s; rw [List.foldlM_cons, List.foldl_cons, Res.ok_bind, ih]

/-- The quotient of two numbers that are known up to `η`. -/
theorem quotient_near {y e T S δ η : ℝ} (hS : 0 < S) (he0 : 0 ≤ e) (heS : e ≤ S) (hδ : δ ≤ η) (hη : 300 * η ≤ S) (hy : |y - e| ≤ δ)
    (hT : |T - S| ≤ η) : |y / T - e / S| ≤ 2.1 * (η / S) := by
  have hη0 : 0 ≤ η := (abs_nonneg _).trans hT
  have hT2 := abs_le.mp hT
  have hT0 : 0 < T := by linarith
  have e1 : y / T - e / S = ((y - e) * S - e * (T - S)) / (T * S) := by
    field_simp
    ring
  have h1 : |(y - e) * S - e * (T - S)| ≤ 2 * (η * S) := by
    refine (abs_sub _ _).trans ?_
    rw [abs_mul, abs_mul, abs_of_pos hS, abs_of_nonneg he0]
    have a1 : |y - e| * S ≤ η * S := mul_le_mul_of_nonneg_right (hy.trans hδ) hS.le
    have a2 : e * |T - S| ≤ S * η := mul_le_mul heS hT (abs_nonneg _) hS.le
    linarith
  have h2 : 2 * (η * S) ≤ 2.1 * (η / S) * (T * S) := by
    have : 2.1 * (η / S) * (T * S) = η * (2.1 * T) := by field_simp
    rw [this]
    have : 2 * (η * S) = η * (2 * S) := by ring
    rw [this]
    refine mul_le_mul_of_nonneg_left ?_ hη0
    norm_num
    linarith
  rw [e1, abs_div, abs_of_pos (mul_pos hT0 hS), div_le_iff₀ (mul_pos hT0 hS)]
  exact h1.trans h2

/-- Shares of numbers that are known up to `δ`. -/
theorem shares_near (hr : RoundsToNearest rd) {ps : List Pose2d} {x f : Pose2d → ℝ} (hf : ∀ a, 0 ≤ f a ∧ f a ≤ 1) {δ : ℝ} (hδ0 : 0 ≤ δ) (hδ : δ ≤ 0.02)
    (hx : ∀ a ∈ ps, |x a + f a| ≤ δ) (hn : ps.length ≤ 2 ^ 40) (hS : 0 < (ps.map f).sum) {E : ℝ}
    (hE : E = 3 * (ps.length * (δ + 2e-16 * ps.length) / (ps.map f).sum)) (hE1 : E ≤ 0.01) :
    ∃ w : Pose2d → ℝ, shares rd (ps.map fun a => .fin (x a)) = ps.map (fun a => .fin (w a)) ∧ (∀ a ∈ ps, |w a - shareOf f ps a| ≤ E) ∧
      ∀ a ∈ ps, ∀ b ∈ ps, f b + 2 * δ ≤ f a → w b ≤ w a := by
  obtain ⟨t, ht, ht2⟩ := terms_near hr (F := 1) (K := δ) (f := fun a => -f a) (step := fun s a => .ok (Fl.rounded rd (s + .fin (x a))))
    (by norm_num) (by linarith) (L := ps) (fun a _ => by
      rw [abs_neg]
      exact abs_le.mpr ⟨by linarith [(hf a).1], (hf a).2⟩) (fun s a w ha hw => by
      cases hw
      refine ⟨x a, rfl, ?_⟩
      rw [sub_neg_eq_add]
      exact hx a ha) hn (foldlM_pure _ ps _)
  have hsum : sumScores rd (ps.map fun a => .fin (x a)) = .fin t := by
    unfold sumScores
    rw [List.foldl_map]
    exact ht
  rw [sum_neg, sub_neg_eq_add, mul_one] at ht2
  have hSN := sum_range hf ps
  generalize hSd : (ps.map f).sum = S at *
  generalize hNd : (ps.length : ℝ) = N at *
  have hN1 : ∀ a ∈ ps, (1 : ℝ) ≤ N := by
    intro a ha
    rw [← hNd]
    exact_mod_cast List.length_pos_of_mem ha
  have hN0 : 0 ≤ N := by rw [← hNd]; exact Nat.cast_nonneg _
  generalize hηd : N * (δ + 2e-16 * N) = η at *
  have h300 : 300 * η ≤ S := by
    have : η / S ≤ 1 / 300 := by
      norm_num at hE1 ⊢
      linarith
    rw [div_le_iff₀ hS] at this
    linarith
  have hη0 : 0 ≤ η := (abs_nonneg _).trans ht2
  have ht3 := abs_le.mp ht2
  have ht0 : t ≠ 0 := by
    rintro rfl
    linarith
  refine ⟨fun a => rd (x a / t), ?_, fun a ha => ?_, fun a ha b hb hab => ?_⟩
  · unfold shares
    rw [List.map_map, hsum]
    refine List.map_congr_left fun a _ => ?_
    simp only [Function.comp]
    rw [Fl.fin_div ht0, Fl.rounded_fin]
  · have heS : f a ≤ S := by
      rw [← hSd]
      exact List.single_le_sum (by
        intro z hz
        obtain ⟨b, -, rfl⟩ := List.mem_map.mp hz
        exact (hf b).1) _ (List.mem_map_of_mem ha)
    have hN := hN1 a ha
    have hδη : δ ≤ η := by
      rw [← hηd]
      have h1 : 0 ≤ δ + 2e-16 * N := by
        norm_num
        linarith
      have h2 := mul_le_mul_of_nonneg_right hN h1
      norm_num at h1 h2 ⊢
      linarith
    have hq := quotient_near (y := -x a) (e := f a) (T := -t) hS (hf a).1 heS hδη h300 (by
      rw [← neg_add', abs_neg]
      exact hx a ha) (by
      rw [← neg_add', abs_neg]
      exact ht2)
    rw [neg_div_neg_eq] at hq
    have hsmall : 2e-16 ≤ η / S := by
      rw [le_div_iff₀ hS, ← hηd]
      have h1 : 2e-16 * S ≤ 2e-16 * N := mul_le_mul_of_nonneg_left hSN.2 (by norm_num)
      have h2 : N * (2e-16 * 1) ≤ N * (δ + 2e-16 * N) := mul_le_mul_of_nonneg_left (by
        have := mul_le_mul_of_nonneg_left hN (show (0 : ℝ) ≤ 2e-16 by norm_num)
        linarith) hN0
      linarith
    have hsh : 0 ≤ f a / S ∧ f a / S ≤ 1 := ⟨div_nonneg (hf a).1 hS.le, (div_le_one hS).mpr heS⟩
    have hr1 : |x a / t| ≤ 1.05 := by
      have h1 := abs_le.mp hq
      rw [abs_le]
      norm_num at h1 hE1 ⊢
      constructor <;> linarith
    have h4 := abs_le.mp (rd_far hr hr1 (by norm_num))
    have h5 := abs_le.mp hq
    unfold shareOf
    rw [hSd, hE, abs_le]
    generalize η / S = ρ at *
    generalize f a / S = σ at *
    norm_num at h4 h5 hsmall ⊢
    constructor <;> linarith
  · refine hr.mono (div_le_div_of_nonpos_of_le (by linarith) ?_)
    have h1 := abs_le.mp (hx a ha)
    have h2 := abs_le.mp (hx b hb)
    linarith

/-- The mean with shares that are known up to `E`. -/
theorem meanOf_near (hr : RoundsToNearest rd) {ps : List Pose2d} {w σ h : Pose2d → ℝ} (hσ : ∀ a ∈ ps, 0 ≤ σ a ∧ σ a ≤ 1) {E X : ℝ} (hX : 1e-200 ≤ X)
    (hh : ∀ a ∈ ps, |h a| ≤ X) (hE0 : 6e-16 * ps.length ≤ E) (hE : E ≤ 0.01) (hw : ∀ a ∈ ps, |w a - σ a| ≤ E) (hn : ps.length ≤ 2 ^ 40) :
    ∃ x, meanOf rd h (ps.map fun a => .fin (w a)) ps = .fin x ∧ |x - (ps.map fun a => σ a * h a).sum| ≤ ps.length * (2 * (E * X)) := by
  have hX0 : 0 < X := lt_of_lt_of_le (by norm_num) hX
  have e : meanOf rd h (ps.map fun a => .fin (w a)) ps = ps.foldl (fun s a => Fl.rounded rd (s + .fin (rd (w a * h a)))) (.fin 0) := by
    unfold meanOf
    have key : ∀ (l : List Pose2d) (s : Fl), ((l.map fun a => Fl.fin (w a)).zip l).foldl
        (fun s a => Fl.rounded rd (s + Fl.rounded rd (a.1 * .fin (h a.2)))) s =
        l.foldl (fun s a => Fl.rounded rd (s + .fin (rd (w a * h a)))) s := by
      intro l
      induction l with
      | nil => intro s; rfl
      | cons a l ih =>
        intro s
        rw [List.map_cons, List.zip_cons_cons, List.foldl_cons, List.foldl_cons, ih, Fl.fin_mul, Fl.rounded_fin]
    exact key ps _
  have hEX : E * X ≤ 0.01 * X := mul_le_mul_of_nonneg_right hE hX0.le
  obtain ⟨x, hx, hx2⟩ := terms_near hr (F := X) (K := E * X + 1.3e-16 * X) (f := fun a => σ a * h a)
    (step := fun s a => .ok (Fl.rounded rd (s + .fin (rd (w a * h a))))) hX (by
      norm_num at hEX ⊢
      linarith) (L := ps) (fun a ha => by
      rw [abs_mul, abs_of_nonneg (hσ a ha).1]
      have := mul_le_mul (hσ a ha).2 (hh a ha) (abs_nonneg _) zero_le_one
      linarith) (fun s a v ha hv => by
      cases hv
      refine ⟨_, rfl, ?_⟩
      have h1 : |w a * h a - σ a * h a| ≤ E * X := by
        rw [← sub_mul, abs_mul]
        exact mul_le_mul (hw a ha) (hh a ha) (abs_nonneg _) ((abs_nonneg _).trans (hw a ha))
      have h2 : |σ a * h a| ≤ X := by
        rw [abs_mul, abs_of_nonneg (hσ a ha).1]
        have := mul_le_mul (hσ a ha).2 (hh a ha) (abs_nonneg _) zero_le_one
        linarith
      have h3 : |w a * h a| ≤ 1.01 * X := by
        rw [abs_le] at h1 h2 ⊢
        norm_num at hEX ⊢
        constructor <;> linarith
      have h4 := rd_far hr h3 (by
        norm_num at hX ⊢
        linarith)
      rw [abs_le] at h1 h4 ⊢
      norm_num at h4 ⊢
      constructor <;> linarith) hn (foldlM_pure _ ps _)
  refine ⟨x, e.trans hx, hx2.trans ?_⟩
  rcases Nat.eq_zero_or_pos ps.length with h0 | h0
  · rw [h0]
    simp
  · have hN1 : (1 : ℝ) ≤ ps.length := by exact_mod_cast h0
    generalize (ps.length : ℝ) = N at *
    refine mul_le_mul_of_nonneg_left ?_ (by linarith)
    have h1 := mul_le_mul_of_nonneg_right hE0 hX0.le
    have h2 := mul_le_mul_of_nonneg_right hN1 hX0.le
    have e3 : 6e-16 * N * X = 6e-16 * (N * X) := by ring
    have e4 : 2e-16 * N * X = 2e-16 * (N * X) := by ring
    rw [e3] at h1
    rw [e4]
    generalize N * X = NX at *
    norm_num at h1 h2 ⊢
    linarith

/-- The scores of particles as numbers. -/
theorem scores_eq {f : Pose2d → Res Fl} {P : Pose2d → ℝ → Prop} :
    ∀ {ps : List Pose2d} {scores : List Fl}, (∀ a ∈ ps, ∀ v, f a = .ok v → ∃ x, v = .fin x ∧ P a x) → ps.mapM f = .ok scores → ∃ x : Pose2d → ℝ, (scores = ps.map fun a => .fin (x a)) ∧ ∀ a ∈ ps, P a (x a) := by
  intro ps scores hf h
  refine ⟨fun a => match f a with | .ok (.fin v) => v | _ => 0, ?_, ?_⟩
  · induction ps generalizing scores with
    | nil => cases h; rfl
    | cons a l ih =>
      rw [List.mapM_cons] at h
      cases h1 : f a with
      | error e => rw [h1] at h; cases h
      | ok v =>
        rw [h1] at h
        cases h2 : l.mapM f with
        | error e => rw [h2] at h; cases h
        | ok r =>
          rw [h2] at h
          cases h
          obtain ⟨x, rfl, -⟩ := hf a List.mem_cons_self v h1
          rw [ih (fun a ha => hf a (List.mem_cons_of_mem _ ha)) h2]
          simp only [List.map_cons, h1]
  · intro a ha
    obtain ⟨v, -, hv⟩ := mapM_mem' h a ha
    obtain ⟨x, rfl, hx⟩ := hf a ha v hv
    simp only [hv]
    exact hx

/-- Weights and mean of particles whose scores are known up to `δ`. -/
theorem weights_near (hr : RoundsToNearest rd) {mt : Matcher} {points : List Point} {particles : List Pose2d} (hn : particles.length ≤ 2 ^ 40) {r : Weighed}
    (h : measure rd co si mt points particles = .ok r) {f : Pose2d → ℝ} {δ E X : ℝ} (hrange : ∀ a, 0 ≤ f a ∧ f a ≤ 1) (hδ0 : 0 ≤ δ) (hδ1 : δ ≤ 0.02)
    (hscore : ∀ a ∈ particles, ∀ v, scorePoints rd co si mt points a = .ok v → ∃ x, v = .fin x ∧ |x + f a| ≤ δ) (hS : 0 < (particles.map f).sum)
    (hE : E = 3 * (particles.length * (δ + 2e-16 * particles.length) / (particles.map f).sum)) (hE1 : E ≤ 0.01)
    (hX : 1e-200 ≤ X) (hps : ∀ a ∈ particles, |a.x| ≤ X ∧ |a.y| ≤ X) :
    (∃ w : Pose2d → ℝ, r.weights = particles.map (fun a => .fin (w a)) ∧ (∀ a ∈ particles, |w a - shareOf f particles a| ≤ E) ∧
      ∀ a ∈ particles, ∀ b ∈ particles, f b + 2 * δ ≤ f a → w b ≤ w a) ∧
    ∃ x y, r.meanX = .fin x ∧ r.meanY = .fin y ∧
      |x - (particles.map fun a => shareOf f particles a * a.x).sum| ≤ particles.length * (2 * (E * X)) ∧
      |y - (particles.map fun a => shareOf f particles a * a.y).sum| ≤ particles.length * (2 * (E * X)) := by
  obtain ⟨scores, hms, rfl⟩ := measure_ok h
  obtain ⟨x, rfl, hx⟩ := scores_eq (P := fun a x => |x + f a| ≤ δ) hscore hms
  obtain ⟨w, w1, w2, w3⟩ := shares_near hr hrange hδ0 hδ1 hx hn hS hE hE1
  have hσ : ∀ a ∈ particles, 0 ≤ shareOf f particles a ∧ shareOf f particles a ≤ 1 := by
    intro a ha
    refine ⟨div_nonneg (hrange a).1 hS.le, (div_le_one hS).mpr ?_⟩
    exact List.single_le_sum (by
      intro z hz
      obtain ⟨b, -, rfl⟩ := List.mem_map.mp hz
      exact (hrange b).1) _ (List.mem_map_of_mem ha)
  have hE0 : 6e-16 * particles.length ≤ E := by
    have hSN := (sum_range hrange particles).2
    rw [hE]
    generalize (particles.map f).sum = S at *
    have hN0 : (0 : ℝ) ≤ particles.length := Nat.cast_nonneg _
    generalize (particles.length : ℝ) = N at *
    have h1 : 2e-16 * N ≤ N * (δ + 2e-16 * N) / S := by
      rw [le_div_iff₀ hS]
      have h2 : 2e-16 * N * S ≤ 2e-16 * N * N := mul_le_mul_of_nonneg_left hSN (by norm_num; exact hN0)
      have h3 := mul_nonneg hN0 hδ0
      linarith
    norm_num at h1 ⊢
    linarith
  obtain ⟨y1, y2, y3⟩ := meanOf_near (h := (·.x)) hr hσ hX (fun a ha => (hps a ha).1) hE0 hE1 w2 hn
  obtain ⟨z1, z2, z3⟩ := meanOf_near (h := (·.y)) hr hσ hX (fun a ha => (hps a ha).2) hE0 hE1 w2 hn
  refine ⟨⟨w, w1, w2, w3⟩, y1, z1, ?_, ?_, y3, z3⟩
  · show meanOf rd (·.x) _ _ = _
    rw [w1]
    exact y2
  · show meanOf rd (·.y) _ _ = _
    rw [w1]
    exact z2

end

end Ndt.Rounded
