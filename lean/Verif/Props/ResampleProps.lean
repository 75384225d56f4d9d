import Verif.Proof.Resample
import Verif.Props.FilterProps
import Mathlib.Tactic.Linarith
import Mathlib.Tactic.NormNum
import Mathlib.Tactic.Positivity

/-! # C107: how many particles are drawn, C108: the bins they are counted in -/

namespace Ndt

noncomputable section

open Spec

/-! ## C107 -/

/-- C107, what holds: when the particles drawn before the last lie in two bins or more, there are no more than the least
number allowed and the number that the bound asks for. Missing: particles in one bin. -/
theorem c107_no_more_than_needed_partial (m : MotionModel) (minP maxP : ℕ) (ops : List Filter.Op) {f f' : Filter}
    (hreach : (Filter.new m minP maxP >>= fun f => f.run ops) = .ok f) {err z : ℝ} (he : 0 < err) (hz : 0 ≤ z)
    {draw : ℕ → ℕ} (h : f.resample err z draw = .ok f') :
    let k := (f'.particles.dropLast.map (bin ![0.5, 0.5, 0.2671])).toFinset.card
    1 < k → kldBound err z k < 2 ^ 64 → (f'.particles.length : ℝ) ≤ max (minP : ℝ) (kldBound err z k) := by
  intro k hk hfit
  obtain ⟨-, -, -, emin, -, hsz⟩ := c21_particle_count_within_limits m minP maxP ops hreach
  rcases Filter.resample_wanted h with h0 | ⟨x, ws, kd, mx, hx, hinv, hlt⟩
  · rw [h0]
    simp
  · have hkd := Filter.leafCount_bins hinv
    rw [hsz] at hkd
    have hlen : f'.particles.length = f'.particles.dropLast.length + 1 := by
      conv_lhs => rw [hx]
      simp
    rcases hinv.bound with ⟨-, h1⟩ | ⟨-, h2⟩
    · rw [hkd] at h1
      exact absurd hk (not_lt.mpr h1)
    · rw [hkd] at h2
      obtain ⟨hks, hnn⟩ := kldSize_eq he hz hk hfit
      have h2 : (.ok ⌊kldBound err z k⌋.toNat : Res ℕ) = .ok mx := hks.symm.trans h2
      injection h2 with h2
      have hmx : (mx : ℝ) ≤ kldBound err z k := by
        rw [← h2]
        have e : ((⌊kldBound err z k⌋.toNat : ℤ)) = ⌊kldBound err z k⌋ := Int.toNat_of_nonneg (Int.floor_nonneg.mpr hnn)
        calc ((⌊kldBound err z k⌋.toNat : ℕ) : ℝ) = ((⌊kldBound err z k⌋.toNat : ℤ) : ℝ) := by push_cast; rfl
          _ = (⌊kldBound err z k⌋ : ℝ) := by rw [e]
          _ ≤ _ := Int.floor_le _
      rw [emin] at hlt
      have hle : f'.particles.length ≤ max minP mx := by omega
      rcases le_max_iff.mp hle with h3 | h3
      · exact le_max_of_le_left (by exact_mod_cast h3)
      · exact le_max_of_le_right (le_trans (by exact_mod_cast h3) hmx)

/-- The code violates C107: when all the particles lie in one bin the largest number allowed is drawn, whatever is drawn. -/
theorem c107_one_bin_takes_the_most (m : MotionModel) (minP maxP : ℕ) (hm : 0 < maxP) (ops : List Filter.Op) {f f' : Filter}
    (hreach : (Filter.new m minP maxP >>= fun f => f.run ops) = .ok f) {err z : ℝ} {draw : ℕ → ℕ}
    (h : f.resample err z draw = .ok f') (b : Key) (hb : ∀ p ∈ f.particles, bin ![0.5, 0.5, 0.2671] p = b) :
    f'.particles.length = maxP := by
  obtain ⟨-, -, -, emin, emax, hsz⟩ := c21_particle_count_within_limits m minP maxP ops hreach
  have hle := (c21_resample_at_most_max h).2 (by rw [emax]; exact hm)
  rw [emax] at hle
  obtain ⟨rs, ws, kd, mx, hinv, -, -, hge, hu⟩ := Filter.resample_ok h
  obtain ⟨-, -, -, e3, -⟩ := Filter.updateStatistics_ok hu
  have e : f'.particles = rs := e3
  have hold := (c25_resampled_particles_are_old h).1
  have hk := Filter.leafCount_bins hinv
  rw [hsz] at hk
  have hk1 : kd.getLeafCount ≤ 1 := by
    rw [hk]
    apply Finset.card_le_one.mpr
    intro a ha c hc
    rw [List.mem_toFinset, List.mem_map] at ha hc
    obtain ⟨p, hp, rfl⟩ := ha
    obtain ⟨q, hq, rfl⟩ := hc
    rw [hb p (hold p (by rw [e]; exact hp)), hb q (hold q (by rw [e]; exact hq))]
  rcases hinv.bound with ⟨e1, -⟩ | ⟨h1, -⟩
  · rw [emax] at e1
    rw [e] at hle ⊢
    rw [emin, emax] at hge
    omega
  · omega

/-- With the default parameters of the node two bins ask for less than 330 particles. -/
theorem kldBound_two : 300 < kldBound 0.01 2.3 2 ∧ kldBound 0.01 2.3 2 < 330 := by
  unfold kldBound
  have e : (2 : ℝ) / (9 * (((2 : ℕ) : ℝ) - 1)) = 2 / 9 := by norm_num
  rw [e]
  have h1 : (0.47 : ℝ) < Real.sqrt (2 / 9) := Real.lt_sqrt_of_sq_lt (by norm_num)
  have h2 : Real.sqrt (2 / 9) < 0.473 := (Real.sqrt_lt' (by norm_num)).mpr (by norm_num)
  set s := Real.sqrt (2 / 9)
  have h3 : (1.85 : ℝ) ≤ 1 - 2 / 9 + s * 2.3 := by linarith
  have h4 : 1 - 2 / 9 + s * 2.3 ≤ 1.867 := by linarith
  have h5 : (1.85 : ℝ) ^ 3 ≤ (1 - 2 / 9 + s * 2.3) ^ 3 := pow_le_pow_left₀ (by norm_num) h3 3
  have h6 : (1 - 2 / 9 + s * 2.3) ^ 3 ≤ (1.867 : ℝ) ^ 3 := pow_le_pow_left₀ (by linarith) h4 3
  push_cast
  constructor <;> norm_num at * <;> linarith

theorem kldBound_default (k : ℕ) (h1 : 1 < k) (h2 : k ≤ 500) : kldBound 0.01 2.3 k < 2 ^ 64 := by
  unfold kldBound
  have hk : (1 : ℝ) ≤ k - 1 := by
    have : (2 : ℝ) ≤ k := by exact_mod_cast h1
    linarith
  have hk' : (k : ℝ) - 1 ≤ 499 := by
    have : (k : ℝ) ≤ 500 := by exact_mod_cast h2
    linarith
  have hq : (2 : ℝ) / (9 * (k - 1)) ≤ 1 := by
    rw [div_le_one (by linarith)]
    linarith
  have hq0 : (0 : ℝ) ≤ 2 / (9 * (k - 1)) := by positivity
  have hs : Real.sqrt (2 / (9 * ((k : ℝ) - 1))) ≤ 1 := by rw [Real.sqrt_le_one]; exact hq
  have hs0 := Real.sqrt_nonneg (2 / (9 * ((k : ℝ) - 1)))
  have h3 : (1 - 2 / (9 * ((k : ℝ) - 1)) + Real.sqrt (2 / (9 * ((k : ℝ) - 1))) * 2.3) ^ 3 ≤ 4 ^ 3 :=
    pow_le_pow_left₀ (by linarith) (by linarith) 3
  have h4 : ((k : ℝ) - 1) / (2 * 0.01) ≤ 499 / (2 * 0.01) := by
    apply div_le_div_of_nonneg_right hk' (by norm_num)
  calc _ ≤ (499 / (2 * 0.01) : ℝ) * 4 ^ 3 := by
        apply mul_le_mul h4 h3
        · apply pow_nonneg
          linarith
        · norm_num
    _ < _ := by norm_num

/-- An initial pose whose particles are drawn at `a` and `b` in turn. -/
def twoPlaces (a b : ℝ) : MotionModel.Draws := fun k _ _ => if k % 6 = 0 then a else if k % 6 = 3 then b else 0

/-- The filter of a node with default parameters after such an initial pose. -/
theorem twoPlaces_filter (a b : ℝ) : ∃ f, (Filter.new ⟨0.2, 0.2, 0.2, 0.2, 0.2⟩ 100 500 >>= fun f => f.run
      [.init (twoPlaces a b) a 0 0 1 1 1]) = .ok f ∧
    f.particles = (List.range 100).map fun i => ⟨if i % 2 = 0 then a else b, 0, 0⟩ := by
  obtain ⟨f0, h0⟩ : ∃ f, Filter.new ⟨0.2, 0.2, 0.2, 0.2, 0.2⟩ 100 500 = .ok f :=
    Filter.updateStatistics_total (by simp)
  obtain ⟨-, -, -, e0, -⟩ := Filter.updateStatistics_ok h0
  obtain ⟨f, h1⟩ : ∃ f, f0.init (twoPlaces a b) a 0 0 1 1 1 = .ok f := Filter.updateStatistics_total (by simp)
  obtain ⟨-, -, -, e1, -⟩ := Filter.updateStatistics_ok h1
  refine ⟨f, ?_, ?_⟩
  · rw [h0, Res.ok_bind]
    show ([_] : List Filter.Op).foldlM Filter.step f0 = _
    rw [List.foldlM_cons]
    show (f0.init (twoPlaces a b) a 0 0 1 1 1 >>= _) = _
    rw [h1]
    rfl
  · rw [e1]
    show f0.particles.mapIdx _ = _
    rw [e0]
    apply List.ext_getElem
    · rw [List.length_mapIdx, List.length_map, List.length_range, List.length_replicate]
    · intro i h2 h3
      simp only [List.getElem_mapIdx, List.getElem_map, List.getElem_range, twoPlaces]
      have k1 : 3 * i % 6 = 0 ↔ i % 2 = 0 := by omega
      have k2 : 3 * i % 6 = 3 ↔ ¬ i % 2 = 0 := by omega
      rw [if_neg (show ¬ (3 * i + 1) % 6 = 0 by omega), if_neg (show ¬ (3 * i + 1) % 6 = 3 by omega),
        if_neg (show ¬ (3 * i + 2) % 6 = 0 by omega), if_neg (show ¬ (3 * i + 2) % 6 = 3 by omega),
        normalizeAngle_of_mem ⟨by linarith [Real.pi_pos], Real.pi_pos.le⟩]
      by_cases hi : i % 2 = 0
      · rw [if_pos (k1.mpr hi), if_pos hi]
      · rw [if_neg (fun h => hi (k1.mp h)), if_pos (k2.mpr hi), if_neg hi]

theorem twoPlaces_resampled {a b : ℝ} (ha : |a| ≤ 1) (hb : |b| ≤ 1) {f : Filter}
    (h : (Filter.new ⟨0.2, 0.2, 0.2, 0.2, 0.2⟩ 100 500 >>= fun f => f.run [.init (twoPlaces a b) a 0 0 1 1 1]) = .ok f)
    (hp : f.particles = (List.range 100).map fun i => ⟨if i % 2 = 0 then a else b, 0, 0⟩) :
    ∃ f', f.resample 0.01 2.3 (· % 100) = .ok f' := by
  obtain ⟨-, -, hw, -, emax, hsz⟩ := c21_particle_count_within_limits _ _ _ _ h
  refine c21_resample_defined (by norm_num) (by norm_num) hw hsz (fun n => ?_) (fun p hm => ?_) (fun k h1 h2 => ?_)
  · rw [hp]
    simp only [List.length_map, List.length_range]
    omega
  · rw [hp, List.mem_map] at hm
    obtain ⟨i, -, rfl⟩ := hm
    refine binFits_small ?_ (by norm_num) (by norm_num)
    show |if i % 2 = 0 then a else b| ≤ _
    split <;> linarith
  · rw [emax] at h2
    exact kldBound_default k h1 (by simpa using h2)

/-- Particles at two places of one bin: all the particles allowed are drawn. -/
theorem c107_close_together {a b : ℝ} {f f' : Filter}
    (h : (Filter.new ⟨0.2, 0.2, 0.2, 0.2, 0.2⟩ 100 500 >>= fun f => f.run [.init (twoPlaces a b) a 0 0 1 1 1]) = .ok f)
    (hp : f.particles = (List.range 100).map fun i => ⟨if i % 2 = 0 then a else b, 0, 0⟩)
    (hr : f.resample 0.01 2.3 (· % 100) = .ok f') (hab : truncZ (a / 0.5) = truncZ (b / 0.5)) : f'.particles.length = 500 := by
  refine c107_one_bin_takes_the_most _ _ _ (by norm_num) _ h hr ![truncZ (a / 0.5), truncZ (0 / 0.5), truncZ (0 / 0.2671)] ?_
  intro p hm
  rw [hp, List.mem_map] at hm
  obtain ⟨i, -, rfl⟩ := hm
  unfold bin
  show ![truncZ ((if i % 2 = 0 then a else b) / 0.5), truncZ (0 / 0.5), truncZ (0 / 0.2671)] = _
  split
  · rfl
  · rw [hab]

/-- Particles at two places of different bins: fewer are drawn. -/
theorem c107_further_apart {a b : ℝ} {f f' : Filter}
    (h : (Filter.new ⟨0.2, 0.2, 0.2, 0.2, 0.2⟩ 100 500 >>= fun f => f.run [.init (twoPlaces a b) a 0 0 1 1 1]) = .ok f)
    (hp : f.particles = (List.range 100).map fun i => ⟨if i % 2 = 0 then a else b, 0, 0⟩)
    (hr : f.resample 0.01 2.3 (· % 100) = .ok f') (hab : truncZ (a / 0.5) ≠ truncZ (b / 0.5)) :
    100 ≤ f'.particles.length ∧ f'.particles.length < 330 := by
  obtain ⟨hmin, -⟩ := c21_particle_count_within_limits _ 100 500 ([.init (twoPlaces a b) a 0 0 1 1 1] ++
    [.resample 0.01 2.3 (· % 100)]) (f := f') (by
      cases h0 : Filter.new ⟨0.2, 0.2, 0.2, 0.2, 0.2⟩ 100 500 with
      | error e => rw [h0] at h; cases h
      | ok f0 =>
        rw [h0, Res.ok_bind] at h
        show List.foldlM Filter.step f0 (_ ++ _) = _
        rw [List.foldlM_append]
        have h : List.foldlM Filter.step f0 [.init (twoPlaces a b) a 0 0 1 1 1] = .ok f := h
        rw [h, Res.ok_bind, List.foldlM_cons]
        show (f.resample 0.01 2.3 (· % 100) >>= _) = _
        rw [hr]
        rfl)
  have hmin : 100 ≤ f'.particles.length := by simpa using hmin
  refine ⟨hmin, ?_⟩
  obtain ⟨hold, hdraw⟩ := c25_resampled_particles_are_old hr
  set A : Key := ![truncZ (a / 0.5), truncZ (0 / 0.5), truncZ (0 / 0.2671)] with hA
  set B : Key := ![truncZ (b / 0.5), truncZ (0 / 0.5), truncZ (0 / 0.2671)] with hB
  have hAB : A ≠ B := fun e => hab (congrFun e 0)
  have hbin : ∀ i, bin ![0.5, 0.5, 0.2671] (⟨if i % 2 = 0 then a else b, 0, 0⟩ : Pose2d) = if i % 2 = 0 then A else B := by
    intro i
    unfold bin
    split <;> rfl
  have hk : (f'.particles.dropLast.map (bin ![0.5, 0.5, 0.2671])).toFinset = {A, B} := by
    ext c
    simp only [List.mem_toFinset, List.mem_map, Finset.mem_insert, Finset.mem_singleton]
    constructor
    · rintro ⟨p, hm, rfl⟩
      have := hold p (List.mem_of_mem_dropLast hm)
      rw [hp, List.mem_map] at this
      obtain ⟨i, -, rfl⟩ := this
      rw [hbin]
      split
      · exact Or.inl rfl
      · exact Or.inr rfl
    · have get : ∀ i < 2, (⟨if i % 2 = 0 then a else b, 0, 0⟩ : Pose2d) ∈ f'.particles.dropLast := by
        intro i hi
        have h1 := hdraw i (by omega)
        rw [hp] at h1
        have h2 : i % 100 = i := Nat.mod_eq_of_lt (by omega)
        simp only [h2] at h1
        have h3 : (List.map (fun i : ℕ => (⟨if i % 2 = 0 then a else b, 0, 0⟩ : Pose2d)) (List.range 100))[i]? =
            some ⟨if i % 2 = 0 then a else b, 0, 0⟩ := by
          rw [List.getElem?_map, List.getElem?_range (by omega)]
          rfl
        rw [h3] at h1
        refine List.mem_of_getElem? (i := i) ?_
        rw [List.getElem?_dropLast, if_pos (by omega)]
        exact h1
      rintro (rfl | rfl)
      · exact ⟨_, get 0 (by norm_num), by rw [hbin]; rfl⟩
      · exact ⟨_, get 1 (by norm_num), by rw [hbin]; rfl⟩
  have hc : (f'.particles.dropLast.map (bin ![0.5, 0.5, 0.2671])).toFinset.card = 2 := by
    rw [hk, Finset.card_pair hAB]
  have hmain := c107_no_more_than_needed_partial _ _ _ _ h (err := 0.01) (z := 2.3) (by norm_num) (by norm_num) hr
  simp only [hc] at hmain
  have hlt := kldBound_two.2
  have := hmain (by norm_num) (by linarith [show (330 : ℝ) < 2 ^ 64 by norm_num])
  have h330 : (f'.particles.length : ℝ) < 330 := lt_of_le_of_lt this (max_lt (by norm_num) hlt)
  exact_mod_cast h330

/-- The code violates C107: the surer the filter is the more particles it takes. All its particles within five centimetres: it
takes all the 500 that are allowed. Half of them a metre away: it takes less than 330. -/
theorem c107_surer_takes_more : ∃ f g f' g' : Filter,
    (∀ p ∈ f.particles, |p.x| ≤ 0.05 ∧ p.y = 0 ∧ p.theta = 0) ∧ (∃ p ∈ g.particles, p.x = 0) ∧ (∃ p ∈ g.particles, p.x = 1) ∧
    f.resample 0.01 2.3 (· % 100) = .ok f' ∧ g.resample 0.01 2.3 (· % 100) = .ok g' ∧
    f'.particles.length = 500 ∧ g'.particles.length < 330 := by
  obtain ⟨f, hf, hfp⟩ := twoPlaces_filter 0 0.05
  obtain ⟨g, hg, hgp⟩ := twoPlaces_filter 0 1
  obtain ⟨f', hf'⟩ := twoPlaces_resampled (by norm_num) (by norm_num) hf hfp
  obtain ⟨g', hg'⟩ := twoPlaces_resampled (by norm_num) (by norm_num) hg hgp
  refine ⟨f, g, f', g', ?_, ?_, ?_, hf', hg', c107_close_together hf hfp hf' ?_, (c107_further_apart hg hgp hg' ?_).2⟩
  · intro p hp
    rw [hfp, List.mem_map] at hp
    obtain ⟨i, -, rfl⟩ := hp
    refine ⟨?_, rfl, rfl⟩
    show |if i % 2 = 0 then (0 : ℝ) else 0.05| ≤ _
    split <;> norm_num
  · rw [hgp]
    exact ⟨_, List.mem_map.mpr ⟨0, by simp, rfl⟩, by simp⟩
  · rw [hgp]
    exact ⟨_, List.mem_map.mpr ⟨1, by simp, rfl⟩, by simp⟩
  · norm_num [truncZ]
  · norm_num [truncZ]

/-! ## C108 -/

/-- What is counted in one bin. -/
theorem c108_extent_of_a_bin {s : ℝ} (hs : 0 < s) (x : ℝ) (k : ℤ) : truncZ (x / s) = k ↔
    (0 < k ∧ k * s ≤ x ∧ x < (k + 1) * s) ∨ (k = 0 ∧ -s < x ∧ x < s) ∨ (k < 0 ∧ (k - 1) * s < x ∧ x ≤ k * s) := by
  unfold truncZ
  by_cases h : 0 ≤ x / s
  · have hx : 0 ≤ x := by
      have := mul_nonneg h hs.le
      rwa [div_mul_cancel₀ _ hs.ne'] at this
    rw [if_pos h, Int.floor_eq_iff, le_div_iff₀ hs, div_lt_iff₀ hs]
    constructor
    · rintro ⟨h1, h2⟩
      rcases lt_trichotomy k 0 with hk | hk | hk
      · exfalso
        have : ((k : ℝ) + 1) ≤ 0 := by exact_mod_cast hk
        nlinarith
      · subst hk
        right; left
        simp only [Int.cast_zero] at h1 h2
        exact ⟨rfl, by linarith, by linarith⟩
      · exact Or.inl ⟨hk, h1, h2⟩
    · rintro (⟨-, h1, h2⟩ | ⟨rfl, h1, h2⟩ | ⟨hk, h1, h2⟩)
      · exact ⟨h1, h2⟩
      · simp only [Int.cast_zero]
        exact ⟨by linarith, by linarith⟩
      · exfalso
        have : (k : ℝ) ≤ -1 := by exact_mod_cast Int.le_sub_one_of_lt hk
        nlinarith
  · have hx : x < 0 := by
      by_contra hx
      exact h (div_nonneg (not_lt.mp hx) hs.le)
    rw [if_neg h, Int.ceil_eq_iff, lt_div_iff₀ hs, div_le_iff₀ hs]
    constructor
    · rintro ⟨h1, h2⟩
      rcases lt_trichotomy k 0 with hk | hk | hk
      · exact Or.inr (Or.inr ⟨hk, h1, h2⟩)
      · subst hk
        right; left
        simp only [Int.cast_zero] at h1 h2
        exact ⟨rfl, by linarith, by linarith⟩
      · exfalso
        have : (1 : ℝ) ≤ k := by exact_mod_cast hk
        nlinarith
    · rintro (⟨hk, h1, h2⟩ | ⟨rfl, h1, h2⟩ | ⟨-, h1, h2⟩)
      · exfalso
        have : (1 : ℝ) ≤ k := by exact_mod_cast hk
        nlinarith
      · simp only [Int.cast_zero]
        exact ⟨by linarith, by linarith⟩
      · exact ⟨h1, h2⟩

/-- C108, what holds: particles counted in the same bin, not the one at zero, differ by less than its size. Missing: the bins
at zero. -/
theorem c108_same_bin_partial {s : ℝ} (hs : 0 < s) {x y : ℝ} (h : truncZ (x / s) = truncZ (y / s)) :
    |x - y| < 2 * s ∧ (truncZ (x / s) ≠ 0 → |x - y| < s) := by
  have hx := (c108_extent_of_a_bin hs x _).mp rfl
  have hy := (c108_extent_of_a_bin hs y _).mp h.symm
  rw [abs_lt, abs_lt]
  generalize truncZ (x / s) = k at *
  rcases hx with ⟨k0, h1, h2⟩ | ⟨k0, h1, h2⟩ | ⟨k0, h1, h2⟩ <;> rcases hy with ⟨l0, h3, h4⟩ | ⟨l0, h3, h4⟩ | ⟨l0, h3, h4⟩ <;>
    first
    | (exfalso; omega)
    | (refine ⟨⟨?_, ?_⟩, fun hk => ⟨?_, ?_⟩⟩ <;> first | (exact absurd k0 hk) | nlinarith)

example : truncZ ((0.6 : ℝ) / 0.5) = truncZ ((0.9 : ℝ) / 0.5) ∧ truncZ ((0.6 : ℝ) / 0.5) ≠ 0 := by norm_num [truncZ]

/-- The code violates C108: the bins at zero are twice as large as the others. -/
theorem c108_bin_at_zero : bin ![0.5, 0.5, 0.2671] ⟨-0.49, -0.49, -0.26⟩ = bin ![0.5, 0.5, 0.2671] ⟨0.49, 0.49, 0.26⟩ := by
  have h : ∀ {s x : ℝ}, 0 < s → -s < x → x < s → truncZ (x / s) = 0 := fun hs h1 h2 =>
    (c108_extent_of_a_bin hs _ 0).mpr (Or.inr (Or.inl ⟨rfl, h1, h2⟩))
  show ![truncZ (-0.49 / 0.5), truncZ (-0.49 / 0.5), truncZ (-0.26 / 0.2671)] =
    ![truncZ (0.49 / 0.5), truncZ (0.49 / 0.5), truncZ (0.26 / 0.2671)]
  rw [h (by norm_num) (by norm_num) (by norm_num), h (by norm_num) (by norm_num) (by norm_num),
    h (by norm_num) (by norm_num) (by norm_num), h (by norm_num) (by norm_num) (by norm_num)]

/-- The code violates C108: how many particles are drawn depends on where the robot is. With the particles at 0.4 m to either
side of the origin all the 500 allowed are drawn, with the same particles half a metre further less than 330. -/
theorem c108_number_depends_on_place : ∃ f g f' g' : Filter,
    g.particles = f.particles.map (fun p => ⟨p.x + 0.5, p.y, p.theta⟩) ∧
    f.resample 0.01 2.3 (· % 100) = .ok f' ∧ g.resample 0.01 2.3 (· % 100) = .ok g' ∧
    f'.particles.length = 500 ∧ g'.particles.length < 330 := by
  obtain ⟨f, hf, hfp⟩ := twoPlaces_filter (-0.4) 0.4
  obtain ⟨g, hg, hgp⟩ := twoPlaces_filter 0.1 0.9
  obtain ⟨f', hf'⟩ := twoPlaces_resampled (by norm_num [abs_le]) (by norm_num [abs_le]) hf hfp
  obtain ⟨g', hg'⟩ := twoPlaces_resampled (by norm_num [abs_le]) (by norm_num [abs_le]) hg hgp
  refine ⟨f, g, f', g', ?_, hf', hg', c107_close_together hf hfp hf' ?_, (c107_further_apart hg hgp hg' ?_).2⟩
  · rw [hgp, hfp, List.map_map]
    apply List.map_congr_left
    intro i _
    simp only [Function.comp]
    split <;> norm_num
  · norm_num [truncZ]
  · norm_num [truncZ]

/-- The code violates C108: two headings a hundredth of a radian apart, on either side of half a turn, are 22 bins apart. -/
theorem c108_headings_at_half_turn : ∃ a b : ℝ, angularDistance a b ≤ 0.01 ∧
    truncZ (a / 0.2671) = 11 ∧ truncZ (b / 0.2671) = -11 := by
  have h1 := Real.pi_gt_d2
  have h2 := Real.pi_lt_d2
  refine ⟨Real.pi - 0.005, -(Real.pi - 0.005), ?_, ?_, ?_⟩
  · unfold angularDistance
    rw [normalizeAngle_eq_of_congr (b := 0.01) (-1) (by push_cast; ring), normalizeAngle_of_mem ⟨by linarith, by linarith⟩]
    norm_num
  · rw [c108_extent_of_a_bin (by norm_num)]
    left
    norm_num
    constructor <;> linarith
  · rw [c108_extent_of_a_bin (by norm_num)]
    right; right
    norm_num
    constructor <;> linarith

end

end Ndt
