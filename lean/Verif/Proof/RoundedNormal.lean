import Verif.Proof.RoundedGauss
import Verif.Proof.RoundedMatcher

/-! # Likelihoods of a map in double precision -/

namespace Ndt.Rounded

open Spec

noncomputable section

variable {rd co si : ℝ → ℝ} {es : Mat2 ℝ → ℝ × ℝ}

theorem normalAt_range {s : ℝ} (hs : 0 < s) {ps : List Point} (hsp : SpreadAtLeast s ps) (p : Point) : 0 ≤ normalAt ps p ∧ normalAt ps p ≤ 1 := by
  obtain ⟨f1, -, -, -, -, -⟩ := eig_facts hs hsp
  obtain ⟨d1, -, -⟩ := limitedDet_facts hs f1
  have hL := f1.trans (eigMin_le_eigMax _ _ _)
  have hD := lt_of_lt_of_le (mul_pos hs (hs.trans_le hL)) d1
  unfold normalAt gauss
  simp only
  refine ⟨(Real.exp_pos _).le, Real.exp_le_one_iff.mpr ?_⟩
  have h1 := hsp (p.y - avg (·.y) ps) (-(p.x - avg (·.x) ps))
  have h2 : 0 ≤ s * ((p.y - avg (·.y) ps) ^ 2 + (-(p.x - avg (·.x) ps)) ^ 2) := by positivity
  have h3 := div_nonneg (a := (p.x - avg (·.x) ps) ^ 2 * sampleCov (·.y) (·.y) ps - 2 * (p.x - avg (·.x) ps) * (p.y - avg (·.y) ps) * sampleCov (·.x) (·.y) ps +
    (p.y - avg (·.y) ps) ^ 2 * sampleCov (·.x) (·.x) ps) (by linarith) hD.le
  linarith

theorem normalIn_range {g : NdtGrid} {scans : List Scan} {B s τ K : ℝ} (hs : 0 < s) (hsq : SquaresWithin rd co si g scans B s τ K) (p : Point) :
    0 ≤ normalIn rd co si g scans p ∧ normalIn rd co si g scans p ≤ 1 := by
  unfold normalIn
  cases getIndex rd g p.x p.y with
  | error e => exact ⟨le_rfl, zero_le_one⟩
  | ok i =>
    dsimp only
    split
    · rename_i h
      exact normalAt_range hs (hsq _ h.2).2.1 p
    · exact ⟨le_rfl, zero_le_one⟩

theorem cellOf_n (hr : RoundsToNearest rd) {ps : List Point} (hn : ps.length ≤ 2 ^ 49) : (cellOf rd es ps).n = ps.length := by
  have e2 : (cellOf rd es ps).n = (ps.foldl (addPoint rd) Cell.new).n := by
    unfold cellOf compute
    split <;> rfl
  rw [e2]
  exact fold_n hr _ hn

/-- Where a number is whose column is `k`. -/
theorem axis_near (hr : RoundsToNearest rd) {x o c : ℝ} {k : ℕ} (hc : 1e-6 ≤ c) (hk : k < 2 ^ 31) (hox : o ≤ x)
    (h : toU32F (Fl.rounded rd (.fin (rd (x - o)) / .fin c)) = .ok k) : c * k - 0.001 * c ≤ x - o ∧ x - o ≤ c * k + 1.001 * c := by
  have hc0 : 0 < c := lt_of_lt_of_le (by norm_num) hc
  rw [Fl.fin_div hc0.ne', Fl.rounded_fin] at h
  change toU32 (rd (rd (x - o) / c)) = .ok k at h
  have hw0 : 0 ≤ x - o := by linarith
  have hy0 : 0 ≤ rd (x - o) := hr.nonneg hw0
  have h0 : 0 ≤ rd (rd (x - o) / c) := hr.nonneg (div_nonneg hy0 hc0.le)
  have hz : (k : ℝ) ≤ rd (rd (x - o) / c) ∧ rd (rd (x - o) / c) < k + 1 := by
    unfold toU32 at h
    split at h
    · rw [truncZ_of_nonneg h0] at h
      have h2 := Except.ok.inj h
      have h3 : ⌊rd (rd (x - o) / c)⌋ = (k : ℤ) := by
        have := Int.floor_nonneg.mpr h0
        omega
      have := Int.floor_eq_iff.mp h3
      exact_mod_cast this
    · cases h
  have hk0 : (0 : ℝ) ≤ k := Nat.cast_nonneg _
  have hkR : (k : ℝ) + 1 ≤ 2 ^ 31 := by exact_mod_cast hk
  have d1 : IsDouble ((k : ℝ) + 1) := by
    have := isDouble_nat (n := k + 1) (by omega)
    exact_mod_cast this
  have h1 : rd (x - o) / c < k + 1 := by
    by_contra hh
    push Not at hh
    linarith [hr.ge_of_ge d1 hh]
  have h2 := rd_far hr (x := rd (x - o) / c) (X := k + 1) (by rw [abs_of_nonneg (div_nonneg hy0 hc0.le)]; exact h1.le) (by norm_num; linarith)
  have h3 : rd (x - o) < (k + 1) * c := (div_lt_iff₀ hc0).mp h1
  have h4 : (k - 1.2e-16 * (k + 1)) * c ≤ rd (x - o) := by
    rw [← le_div_iff₀ hc0]
    have := (abs_le.mp h2).2
    linarith [hz.1]
  have hkc : c ≤ (k + 1) * c := by
    have := mul_nonneg hk0 hc0.le
    linarith
  have h5 : x - o ≤ 2 * ((k + 1) * c) := by
    by_contra hh
    push Not at hh
    have e := rd_far hr (x := x - o) (X := x - o) (le_of_eq (abs_of_nonneg hw0)) (by norm_num at hc ⊢; linarith)
    have e2 := (abs_le.mp e).1
    norm_num at e2 hh
    linarith
  have h6 := abs_le.mp (rd_far hr (x := x - o) (X := 2 * ((k + 1) * c)) (by rw [abs_of_nonneg hw0]; exact h5) (by norm_num at hc ⊢; linarith))
  have h7 : (k + 1) * c ≤ 2 ^ 31 * c := mul_le_mul_of_nonneg_right hkR hc0.le
  have e1 : (k - 1.2e-16 * (k + 1)) * c = c * k - 1.2e-16 * ((k + 1) * c) := by ring
  rw [e1] at h4
  have e2 : (k + 1) * c = c * k + c := by ring
  generalize hG : ((k : ℝ) + 1) * c = G at *
  generalize hck : c * (k : ℝ) = F at *
  norm_num at h4 h6 h7 ⊢
  constructor <;> linarith

/-- Points of the same square are in the same row and column. -/
theorem same_square {g : NdtGrid} (hsz : g.sizeX * g.sizeY ≤ 2 ^ 31) {x y x' y' : ℝ} {i : ℤ} (h : getIndex rd g x y = .ok i)
    (h' : getIndex rd g x' y' = .ok i) (h0 : 0 ≤ i) :
    (g.originX ≤ x ∧ g.originX ≤ x' ∧ g.originY ≤ y ∧ g.originY ≤ y') ∧ ∃ gx gy : ℕ, gx < 2 ^ 31 ∧ gy < 2 ^ 31 ∧
      toU32F (Fl.rounded rd (.fin (rd (x - g.originX)) / .fin g.cellSize)) = .ok gx ∧
      toU32F (Fl.rounded rd (.fin (rd (x' - g.originX)) / .fin g.cellSize)) = .ok gx ∧
      toU32F (Fl.rounded rd (.fin (rd (y - g.originY)) / .fin g.cellSize)) = .ok gy ∧
      toU32F (Fl.rounded rd (.fin (rd (y' - g.originY)) / .fin g.cellSize)) = .ok gy := by
  have key : ∀ {x y : ℝ}, getIndex rd g x y = .ok i → (g.originX ≤ x ∧ g.originY ≤ y) ∧ ∃ gx gy : ℕ, gx < g.sizeX ∧ gy < g.sizeY ∧
      i = ((gy * g.sizeX + gx : ℕ) : ℤ) ∧ toU32F (Fl.rounded rd (.fin (rd (x - g.originX)) / .fin g.cellSize)) = .ok gx ∧
      toU32F (Fl.rounded rd (.fin (rd (y - g.originY)) / .fin g.cellSize)) = .ok gy := by
    intro x y h
    unfold getIndex at h
    split at h
    · cases h; omega
    · rename_i hin
      push Not at hin
      cases e1 : toU32F (Fl.rounded rd (.fin (rd (x - g.originX)) / .fin g.cellSize)) with
      | error e => rw [e1] at h; cases h
      | ok gx =>
        cases e2 : toU32F (Fl.rounded rd (.fin (rd (y - g.originY)) / .fin g.cellSize)) with
        | error e => rw [e1, e2] at h; cases h
        | ok gy =>
          rw [e1, e2] at h
          simp only [Res.ok_bind] at h
          split at h
          · cases h; omega
          · rename_i hlt
            push Not at hlt
            have hl : gy * g.sizeX + gx < 2 ^ 31 := by
              have h1 : (gy + 1) * g.sizeX ≤ g.sizeY * g.sizeX := Nat.mul_le_mul_right _ hlt.2
              have h2 : (gy + 1) * g.sizeX = gy * g.sizeX + g.sizeX := by ring
              have h3 : g.sizeY * g.sizeX = g.sizeX * g.sizeY := Nat.mul_comm _ _
              omega
            rw [Nat.mod_eq_of_lt (by omega), wrapI32_of_lt hl] at h
            exact ⟨hin, gx, gy, hlt.1, hlt.2, (Except.ok.inj h).symm, rfl, rfl⟩
  obtain ⟨⟨a1, a2⟩, gx, gy, b1, b2, b3, b4, b5⟩ := key h
  obtain ⟨⟨a1', a2'⟩, gx', gy', b1', b2', b3', b4', b5'⟩ := key h'
  have e : gy * g.sizeX + gx = gy' * g.sizeX + gx' := by
    rw [b3] at b3'
    exact_mod_cast b3'
  have hpos : 0 < g.sizeX := by omega
  have ey : gy = gy' := by
    have h1 := congrArg (· / g.sizeX) e
    rwa [Nat.mul_comm gy, Nat.mul_comm gy', Nat.mul_add_div hpos, Nat.mul_add_div hpos, Nat.div_eq_of_lt b1, Nat.div_eq_of_lt b1'] at h1
  subst ey
  have ex : gx = gx' := by omega
  subst ex
  have hy0 : 0 < g.sizeY := by omega
  refine ⟨⟨a1, a1', a2, a2'⟩, gx, gy, ?_, ?_, b4, b4', b5, b5'⟩
  · exact lt_of_lt_of_le b1 (le_trans (Nat.le_mul_of_pos_right _ hy0) hsz)
  · exact lt_of_lt_of_le b2 (le_trans (Nat.le_mul_of_pos_left _ hpos) hsz)

/-- Points of the same square are no farther apart than its side, nearly. -/
theorem square_side (hr : RoundsToNearest rd) {g : NdtGrid} (hc : 1e-6 ≤ g.cellSize) (hsz : g.sizeX * g.sizeY ≤ 2 ^ 31) {p q : Point} {i : ℤ}
    (h : getIndex rd g p.x p.y = .ok i) (h' : getIndex rd g q.x q.y = .ok i) (h0 : 0 ≤ i) :
    |q.x - p.x| ≤ 1.01 * g.cellSize ∧ |q.y - p.y| ≤ 1.01 * g.cellSize := by
  obtain ⟨⟨a1, a2, a3, a4⟩, gx, gy, k1, k2, b1, b2, b3, b4⟩ := same_square hsz h h' h0
  have c1 := axis_near hr hc k1 a1 b1
  have c2 := axis_near hr hc k1 a2 b2
  have c3 := axis_near hr hc k2 a3 b3
  have c4 := axis_near hr hc k2 a4 b4
  have hc0 : 0 < g.cellSize := lt_of_lt_of_le (by norm_num) hc
  generalize g.cellSize * (gx : ℝ) = X at *
  generalize g.cellSize * (gy : ℝ) = Y at *
  rw [abs_le, abs_le]
  norm_num at c1 c2 c3 c4 ⊢
  refine ⟨⟨?_, ?_⟩, ?_, ?_⟩ <;> linarith

theorem avg_near {f : Point → ℝ} {ps : List Point} {x D : ℝ} (hD : 0 ≤ D) (hne : ps ≠ []) (hf : ∀ q ∈ ps, |f q - x| ≤ D) : |x - avg f ps| ≤ D := by
  have h := avg_abs_le (f := fun q => f q - x) hD hf
  have e : avg (fun q => f q - x) ps = avg f ps - x := by
    have hl : (0 : ℝ) < ps.length := by exact_mod_cast List.length_pos_iff.mpr hne
    have hs : (ps.map fun q => f q - x).sum = (ps.map f).sum - ps.length * x := by
      clear hne hl hf h
      induction ps with
      | nil => simp
      | cons q ps ih =>
        simp only [List.map_cons, List.sum_cons, List.length_cons, ih]
        push_cast
        ring
    unfold avg
    rw [hs]
    field_simp
  rw [e] at h
  rwa [abs_sub_comm]

theorem likelihood_near (hr : RoundsToNearest rd) {B s τ K : ℝ} (hB : B ≤ 1e6) (hs : 1e-12 ≤ s) (hτ : 0 ≤ τ) (he : SolverWithin τ es)
    {mt mt' : Matcher} {scans : List Scan} (hm : addScans rd co si es mt scans = .ok mt') {g : NdtGrid} (hg : mt'.ndt = some g)
    (hcB : mt.resolution ≤ B) (hsc : s ≤ mt.resolution * mt.resolution) (hc0 : 0 < mt.resolution) (hsz : g.sizeX * g.sizeY ≤ 2 ^ 31)
    (hK0 : 0 ≤ K) (hK : K ≤ 0.02) (hsq : SquaresWithin rd co si g scans B s τ K) {p : Point} {v : Fl} (h : likelihood rd g p = .ok v) :
    ∃ x, v = .fin x ∧ |x - normalIn rd co si g scans p| ≤ K := by
  obtain ⟨g', e, gc, hcell⟩ := addScans_cells hm
  subst e
  cases Option.some.inj hg
  unfold likelihood at h
  unfold normalIn
  cases hi : getIndex rd g p.x p.y with
  | error e => rw [hi] at h; cases h
  | ok i =>
    rw [hi] at h
    simp only [Res.ok_bind] at h
    dsimp only
    split at h
    · rename_i h0
      cases hc : g.cells[i.toNat]? with
      | none => rw [hc] at h; cases h
      | some c =>
        rw [hc] at h
        cases h
        rw [hcell _ c hc]
        by_cases hn : 5 ≤ (pointsIn rd co si g scans i.toNat).length
        · rw [if_pos ⟨h0, hn⟩]
          obtain ⟨h1, h2, h3⟩ := hsq _ hn
          have hs0 : 0 < s := lt_of_lt_of_le (by norm_num) hs
          rw [gc] at h3
          generalize mt.resolution = c at *
          have hc6 : 1e-6 ≤ g.cellSize := by
            rw [gc]
            by_contra hh
            have := mul_lt_mul'' (not_le.mp hh) (not_le.mp hh) hc0.le hc0.le
            norm_num at this hs
            linarith
          have hd : ∀ q ∈ pointsIn rd co si g scans i.toNat, |q.x - p.x| ≤ 1.01 * c ∧ |q.y - p.y| ≤ 1.01 * c := by
            intro q hq
            rw [← gc]
            have : getIndex rd g q.x q.y = .ok ((i.toNat : ℕ) : ℤ) := of_decide_eq_true (List.mem_filter.mp hq).2
            rw [Int.toNat_of_nonneg h0] at this
            exact square_side hr hc6 hsz hi this h0
          have hne : pointsIn rd co si g scans i.toNat ≠ [] := by
            intro hh
            rw [hh] at hn
            simp at hn
          have ax := avg_near (f := (·.x)) (by positivity : 0 ≤ 1.01 * c) hne fun q hq => (hd q hq).1
          have ay := avg_near (f := (·.y)) (by positivity : 0 ≤ 1.01 * c) hne fun q hq => (hd q hq).2
          have e2 : 2 * (0.51 * c) = 1.02 * c := by ring
          have e3 : (0.51 * c) * (0.51 * c) / s * (4e-12 * ((pointsIn rd co si g scans i.toNat).length * (B * B / s)) + 7500 * τ) ≤ K := by
            refine le_trans ?_ h3
            have e4 : (0.51 * c) * (0.51 * c) / s = 0.2601 * (c * c / s) := by ring
            have h5 : 0 ≤ c * c / s := by positivity
            have h6 : 0 ≤ c * c / s * ((pointsIn rd co si g scans i.toNat).length * (B * B / s)) := mul_nonneg h5 (mul_nonneg (Nat.cast_nonneg _) (div_nonneg (mul_self_nonneg B) hs0.le))
            have h7 := mul_nonneg h5 hτ
            rw [e4]
            generalize c * c / s = z at *
            generalize ((pointsIn rd co si g scans i.toNat).length : ℝ) * (B * B / s) = y at *
            norm_num at h6 h7 ⊢
            linarith
          obtain ⟨x, x1, x2⟩ := score_near hr (R := 0.51 * c) hB (by positivity) (by norm_num; linarith) (by norm_num; linarith) hs hn h1 h2 hτ he
            (p := p) (ax.trans (by rw [e2]; norm_num; linarith)) (ay.trans (by rw [e2]; norm_num; linarith))
            (Q := 0.51 * c * (0.51 * c) / s) (P := B * B / s) (by field_simp) (by field_simp) (e3.trans hK)
          exact ⟨x, x1, x2.trans e3⟩
        · rw [if_neg (fun h => hn h.2)]
          refine ⟨0, ?_, by simpa using hK0⟩
          unfold score
          rw [if_pos]
          rw [cellOf_n hr (by omega)]
          exact_mod_cast not_le.mp hn
    · rename_i h0
      cases h
      rw [if_neg (fun h => h0 h.1)]
      exact ⟨0, rfl, by simpa using hK0⟩

/-- The sum of computed likelihoods. -/
theorem likelihoodPoints_near (hr : RoundsToNearest rd) {g : NdtGrid} {f : Point → ℝ} (hf : ∀ p, 0 ≤ f p ∧ f p ≤ 1) {K : ℝ} (hK0 : 0 ≤ K)
    (hK : K ≤ 0.02) (hlik : ∀ p v, likelihood rd g p = .ok v → ∃ x, v = .fin x ∧ |x - f p| ≤ K) {ps : List Point} (hn : ps.length ≤ 2 ^ 40)
    {v : Fl} (h : likelihoodPoints rd g ps = .ok v) :
    ∃ x, v = .fin x ∧ |x - (ps.map f).sum| ≤ ps.length * (K + 2e-16 * ps.length) := by
  have hN : (ps.length : ℝ) ≤ 2 ^ 40 := by exact_mod_cast hn
  generalize hNd : (ps.length : ℝ) = N at hN
  have key : ∀ (l : List Point) (k : ℕ) (a A : ℝ) (v : Fl), (k : ℝ) + l.length = N → 0 ≤ A → A ≤ k → |a - A| ≤ k * (K + 2e-16 * N) →
      l.foldlM (fun sum p => do (pure (Fl.rounded rd (sum + (← likelihood rd g p))) : Res Fl)) (.fin a) = .ok v →
      ∃ x, v = .fin x ∧ |x - (A + (l.map f).sum)| ≤ N * (K + 2e-16 * N) := by
    intro l
    induction l with
    | nil =>
      intro k a A v hk _ _ ha h
      cases h
      refine ⟨a, rfl, ?_⟩
      simp only [List.length_nil, Nat.cast_zero, add_zero] at hk
      rw [hk] at ha
      simpa using ha
    | cons p l ih =>
      intro k a A v hk A0 A1 ha h
      rw [List.foldlM_cons] at h
      cases h2 : likelihood rd g p with
      | error e => rw [h2] at h; cases h
      | ok u =>
        rw [h2] at h
        simp only [Res.ok_bind, Res.pure_eq] at h
        obtain ⟨y, rfl, hy⟩ := hlik p u h2
        obtain ⟨f0, f1⟩ := hf p
        rw [List.length_cons] at hk
        push_cast at hk
        have hk0 : (0 : ℝ) ≤ k := Nat.cast_nonneg _
        have hl0 : (0 : ℝ) ≤ l.length := Nat.cast_nonneg _
        have hkN : (k : ℝ) + 1 ≤ N := by linarith
        have hKN : K + 2e-16 * N ≤ 0.03 := by norm_num at hN hK ⊢; linarith
        have hkK : (k : ℝ) * (K + 2e-16 * N) ≤ k * 0.03 := mul_le_mul_of_nonneg_left hKN hk0
        have ha2 := abs_le.mp ha
        have hy2 := abs_le.mp hy
        have hay : |a + y| ≤ 1.05 * N := by
          rw [abs_le]
          norm_num at hkK hK ⊢
          constructor <;> linarith
        have h3 := abs_le.mp (rd_far hr hay (by norm_num; linarith))
        have := ih (k + 1) (rd (a + y)) (A + f p) v (by push_cast; linarith) (by linarith) (by push_cast; linarith) (by
          push_cast
          rw [abs_le]
          norm_num at h3 ha2 ⊢
          constructor <;> linarith) h
        rw [List.map_cons, List.sum_cons, ← add_assoc]
        exact this
  have := key ps 0 0 0 v (by simp [hNd]) le_rfl (by simp) (by simp) h
  rw [zero_add] at this
  exact this

theorem likelihoodAt_near (hr : RoundsToNearest rd) {g : NdtGrid} {scans : List Scan} (hf : ∀ p, 0 ≤ normalIn rd co si g scans p ∧ normalIn rd co si g scans p ≤ 1)
    {K : ℝ} (hK0 : 0 ≤ K) (hK : K ≤ 0.02) (hlik : ∀ p v, likelihood rd g p = .ok v → ∃ x, v = .fin x ∧ |x - normalIn rd co si g scans p| ≤ K)
    {points : List Point} {m : ℕ} (hm : m ≤ 2 ^ 40) {pose o : Pose2d} {v : Fl} (h : likelihoodAt rd co si g points m pose o = .ok v) :
    ∃ x, v = .fin x ∧ |x - normalSum rd co si g scans points m pose o| ≤ m * (K + 2e-16 * m) := by
  unfold likelihoodAt at h
  unfold normalSum
  cases ho : outerPoints rd co si points m pose o.theta with
  | error e => rw [ho] at h; cases h
  | ok outer =>
    rw [ho] at h
    simp only [Res.ok_bind] at h
    have hl : outer.length = m := by
      have := mapM_length _ _ ho
      simpa using this
    have := likelihoodPoints_near hr hf hK0 hK hlik (by simpa [hl] using hm) h
    simpa [hl, List.map_map, Function.comp_def] using this

theorem sum_range {α : Type} {f : α → ℝ} (hf : ∀ p, 0 ≤ f p ∧ f p ≤ 1) (l : List α) : 0 ≤ (l.map f).sum ∧ (l.map f).sum ≤ l.length := by
  induction l with
  | nil => simp
  | cons p l ih =>
    obtain ⟨f0, f1⟩ := hf p
    rw [List.map_cons, List.sum_cons, List.length_cons]
    push_cast
    constructor <;> linarith [ih.1, ih.2]

theorem normalSum_range {g : NdtGrid} {scans : List Scan} (hf : ∀ p, 0 ≤ normalIn rd co si g scans p ∧ normalIn rd co si g scans p ≤ 1)
    (points : List Point) (m : ℕ) (pose o : Pose2d) :
    0 ≤ normalSum rd co si g scans points m pose o ∧ normalSum rd co si g scans points m pose o ≤ m := by
  unfold normalSum
  cases ho : outerPoints rd co si points m pose o.theta with
  | error e => exact ⟨le_rfl, Nat.cast_nonneg _⟩
  | ok outer =>
    have hl : outer.length = m := by
      have := mapM_length _ _ ho
      simpa using this
    have := sum_range (f := fun p : Point => normalIn rd co si g scans ⟨rd (p.x + o.x), rd (p.y + o.y)⟩) (fun p => hf _) outer
    rw [hl] at this
    exact this

end

end Ndt.Rounded
