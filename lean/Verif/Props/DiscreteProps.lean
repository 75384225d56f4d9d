import Mathlib.MeasureTheory.Measure.Lebesgue.Basic
import Verif.Proof.Discrete
import Verif.Props.FilterModeProps
import Verif.Props.ChanceProps

/-! # C135: resampling draws particles by their weights -/

namespace Ndt

noncomputable section

open Spec Discrete MeasureTheory

/-- **C135** What is drawn is one of the particles, whatever the weights are, also if they are NaN or infinite or not in proportion, and whatever the
rounding is. -/
theorem c135_in_range (rd : ℝ → ℝ) {ws : List Fl} (h : ws ≠ []) {p : ℝ} (hp : p < 1) : pick rd ws p < ws.length := by
  have hl := List.length_pos_of_ne_nil h
  by_cases h2 : 2 ≤ ws.length
  · exact (pick_spec h2 hp.le).1
  · rw [pick, if_pos (by omega)]
    exact hl

/-! ## Weights that are a distribution, up to a factor -/

/-- The part of the weights that the first `k` particles have. -/
def partOf (v : List ℝ) (k : ℕ) : ℝ := (v.take k).sum / v.sum

theorem realTotal_id (v : List ℝ) : realTotal id v = v.sum := by
  have : ∀ (v : List ℝ) (s : ℝ), v.foldl (fun s w => id (s + w)) s = s + v.sum := by
    intro v
    induction v with
    | nil => simp
    | cons a v ih =>
      intro s
      rw [List.foldl_cons, ih, List.sum_cons]
      simp only [id]
      ring
  rw [realTotal, this, zero_add]

theorem partOf_succ {v : List ℝ} {k : ℕ} (h : k < v.length) : partOf v (k + 1) = partOf v k + v[k] / v.sum := by
  rw [partOf, partOf, List.sum_take_succ _ _ h, add_div]

theorem sumTo_id (v : List ℝ) : ∀ {i : ℕ}, i < v.length → sumTo id (realShares id v) i = partOf v (i + 1) := by
  intro i
  induction i with
  | zero =>
    intro h
    rw [partOf_succ h, sumTo_zero]
    cases v with
    | nil => simp at h
    | cons a v => simp [realShares, partOf, realTotal_id]
  | succ i ih =>
    intro h
    rw [sumTo_succ _ (by simpa [realShares] using h), ih (by omega), partOf_succ h]
    simp [realShares, realTotal_id]

theorem partOf_mono {v : List ℝ} (hv : ∀ w ∈ v, 0 ≤ w) : ∀ {i j : ℕ}, i ≤ j → j ≤ v.length → partOf v i ≤ partOf v j := by
  intro i j hij
  induction j, hij using Nat.le_induction with
  | base => exact fun _ => le_rfl
  | succ j _ ih =>
    intro hj
    rw [partOf_succ (by omega)]
    have := ih (by omega)
    have : 0 ≤ v[j] / v.sum := div_nonneg (hv _ (List.getElem_mem _)) (List.sum_nonneg hv)
    linarith

theorem partOf_all {v : List ℝ} (hs : 0 < v.sum) : partOf v v.length = 1 := by
  rw [partOf, List.take_length, div_self hs.ne']

/-- **C135** The particle `i` is drawn exactly for the numbers between the part of the weights that the particles before it have and that with its own. -/
theorem c135_drawn_iff {v : List ℝ} (hv : ∀ w ∈ v, 0 ≤ w) (hs : 0 < v.sum) {p : ℝ} (hp0 : 0 < p) (hp1 : p < 1) {i : ℕ} (hi : i < v.length) :
    pick id (v.map Fl.fin) p = i ↔ (v.take i).sum / v.sum < p ∧ p ≤ (v.take (i + 1)).sum / v.sum := by
  show _ ↔ partOf v i < p ∧ p ≤ partOf v (i + 1)
  have key : pick id (v.map Fl.fin) p < v.length ∧ partOf v (pick id (v.map Fl.fin) p) < p ∧ p ≤ partOf v (pick id (v.map Fl.fin) p + 1) := by
    by_cases h2 : 2 ≤ v.length
    · obtain ⟨a, b, c⟩ := pick_fin (rd := id) (v := v) (by rw [realTotal_id]; exact hs.ne') h2 hp1.le
      refine ⟨a, ?_, ?_⟩
      · rcases Nat.eq_zero_or_pos (pick id (v.map Fl.fin) p) with h | h
        · rw [h]; simpa [partOf] using hp0
        · obtain ⟨k, hk⟩ : ∃ k, pick id (v.map Fl.fin) p = k + 1 := ⟨_, (Nat.succ_pred_eq_of_pos h).symm⟩
          have := b k hk
          rw [sumTo_id v (by omega)] at this
          rwa [hk]
      · by_cases h : pick id (v.map Fl.fin) p + 1 < v.length
        · have := c h
          rwa [sumTo_id v a] at this
        · rw [show pick id (v.map Fl.fin) p + 1 = v.length by omega, partOf_all hs]
          exact hp1.le
    · have h1 : v.length = 1 := by omega
      have h0 : pick id (v.map Fl.fin) p = 0 := by rw [pick, if_pos (by rw [List.length_map]; omega)]
      have := partOf_all hs
      rw [h1] at this
      rw [h0, h1, zero_add, this]
      exact ⟨one_pos, by simpa [partOf] using hp0, hp1.le⟩
  obtain ⟨a, b, c⟩ := key
  constructor
  · rintro rfl
    exact ⟨b, c⟩
  · rintro ⟨d, e⟩
    rcases lt_trichotomy (pick id (v.map Fl.fin) p) i with h | h | h
    · have := partOf_mono hv (show pick id (v.map Fl.fin) p + 1 ≤ i by omega) (by omega)
      linarith
    · exact h
    · have := partOf_mono hv (show i + 1 ≤ pick id (v.map Fl.fin) p by omega) (by omega)
      linarith

/-- **C135** The chance of a particle is its weight divided by the sum of the weights. -/
theorem c135_share {v : List ℝ} (hv : ∀ w ∈ v, 0 ≤ w) (hs : 0 < v.sum) {i : ℕ} (hi : i < v.length) :
    volume {p : ℝ | 0 < p ∧ p < 1 ∧ pick id (v.map Fl.fin) p = i} = ENNReal.ofReal (v[i] / v.sum) := by
  have h0 : 0 ≤ partOf v i := by
    have := partOf_mono hv (Nat.zero_le i) (by omega)
    simpa [partOf] using this
  have h1 : partOf v (i + 1) ≤ 1 := by
    have := partOf_mono hv (show i + 1 ≤ v.length by omega) le_rfl
    rwa [partOf_all hs] at this
  have e : {p : ℝ | 0 < p ∧ p < 1 ∧ pick id (v.map Fl.fin) p = i} = Set.Ioc (partOf v i) (partOf v (i + 1)) \ {1} := by
    ext p
    simp only [Set.mem_setOf_eq, Set.mem_diff, Set.mem_Ioc, Set.mem_singleton_iff]
    constructor
    · rintro ⟨a, b, c⟩
      exact ⟨(c135_drawn_iff hv hs a b hi).mp c, b.ne⟩
    · rintro ⟨⟨a, b⟩, c⟩
      have h2 : 0 < p := by linarith
      have h3 : p < 1 := lt_of_le_of_ne (b.trans h1) c
      exact ⟨h2, h3, (c135_drawn_iff hv hs h2 h3 hi).mpr ⟨a, b⟩⟩
  rw [e, measure_diff_null (Real.volume_singleton), Real.volume_Ioc, partOf_succ hi]
  congr 1
  ring

/-- **C135** (partial: weights that are numbers, at least zero and not all zero, and a uniform number other than zero) The particle drawn has a positive weight. -/
theorem c135_positive_partial {v : List ℝ} (hv : ∀ w ∈ v, 0 ≤ w) (hs : 0 < v.sum) {p : ℝ} (hp0 : 0 < p) (hp1 : p < 1) :
    ∃ r : ℝ, (v.map Fl.fin)[pick id (v.map Fl.fin) p]? = some (.fin r) ∧ 0 < r := by
  have hne : v ≠ [] := by rintro rfl; simp at hs
  have hlt := c135_in_range id (ws := v.map Fl.fin) (by simpa using hne) hp1
  rw [List.length_map] at hlt
  refine ⟨v[pick id (v.map Fl.fin) p], by rw [List.getElem?_map, List.getElem?_eq_getElem hlt]; rfl, ?_⟩
  have h : partOf v (pick id (v.map Fl.fin) p) < p ∧ p ≤ partOf v (pick id (v.map Fl.fin) p + 1) := (c135_drawn_iff hv hs hp0 hp1 hlt).mp rfl
  rw [partOf_succ hlt] at h
  have : 0 < v[pick id (v.map Fl.fin) p] / v.sum := by linarith [h.1, h.2]
  exact (div_pos_iff_of_pos_right hs).mp this

/-- **C135** (partial: likewise) Resampling a filter whose weights are a distribution is informative in the sense of C22: the hypothesis made there about
the draws is met. -/
theorem c135_informative_partial {f : Filter} (hd : Distribution f.weights) {err z : ℝ} {p : ℕ → ℝ} (hp : ∀ n, 0 < p n ∧ p n < 1) :
    Informative f (.resample err z (f.drawn id p)) := by
  obtain ⟨v, h1, h2, h3⟩ := hd
  intro n
  have := c135_positive_partial h2 (by rw [h3]; exact one_pos) (hp n).1 (hp n).2
  unfold AreNumbers at h1
  unfold Filter.drawn
  rw [h1]
  exact this

/-- **C135** (partial: likewise) Every particle after resampling was one that had a positive weight. -/
theorem c135_resampled_partial {f f' : Filter} (hd : Distribution f.weights) {err z : ℝ} {p : ℕ → ℝ} (hp : ∀ n, 0 < p n ∧ p n < 1)
    (h : f.resample err z (f.drawn id p) = .ok f') :
    ∀ i < f'.particles.length, ∃ (j : ℕ) (r : ℝ), f'.particles[i]? = f.particles[j]? ∧ f.weights[j]? = some (.fin r) ∧ 0 < r := by
  intro i hi
  obtain ⟨r, h1, h2⟩ := c135_informative_partial (err := err) (z := z) hd hp i
  exact ⟨_, r, (c25_resampled_particles_are_old h).2 i hi, h1, h2⟩

/-- **C135** A distribution passes the check of the library. -/
theorem c135_passes_check {f : Filter} (hd : Distribution f.weights) {err z : ℝ} {p : ℕ → ℝ} :
    f.checkedResample id err z p = f.resample err z (f.drawn id p) := by
  obtain ⟨v, h1, h2, h3⟩ := hd
  unfold AreNumbers at h1
  rw [Filter.checkedResample, if_neg]
  rintro ⟨-, h⟩
  rw [h1, total_fin, realTotal_id, h3, Fl.fin_lt] at h
  exact h one_pos

/-! ## Other weights -/

/-- **C135** (where it fails) A uniform number of zero draws the first particle, whatever its weight is. -/
theorem c135_zero_draws_first (rd : ℝ → ℝ) {v : List ℝ} (hs : ∀ w ∈ v, 0 ≤ w) (h0 : ∀ x, 0 ≤ x → 0 ≤ rd x) (ht : realTotal rd v ≠ 0) :
    pick rd (v.map Fl.fin) 0 = 0 := by
  by_cases h2 : 2 ≤ v.length
  · obtain ⟨a, b, -⟩ := pick_fin (rd := rd) ht h2 zero_le_one
    by_contra hne
    obtain ⟨k, hk⟩ : ∃ k, pick rd (v.map Fl.fin) 0 = k + 1 := ⟨_, (Nat.succ_pred_eq_of_pos (Nat.pos_of_ne_zero hne)).symm⟩
    have hlt := b k hk
    have hT : 0 ≤ realTotal rd v := by
      have : ∀ (l : List ℝ) (s : ℝ), 0 ≤ s → (∀ w ∈ l, 0 ≤ w) → 0 ≤ l.foldl (fun s w => rd (s + w)) s := by
        intro l
        induction l with
        | nil => exact fun s hs _ => hs
        | cons a l ih =>
          intro s hs hl
          exact ih _ (h0 _ (add_nonneg hs (hl a List.mem_cons_self))) fun w hw => hl w (List.mem_cons_of_mem _ hw)
      exact this v 0 le_rfl hs
    have hsh : ∀ w ∈ realShares rd v, 0 ≤ w := by
      intro w hw
      obtain ⟨x, hx, rfl⟩ := List.mem_map.mp hw
      exact h0 _ (div_nonneg (hs x hx) hT)
    have hnn : ∀ i < (realShares rd v).length, 0 ≤ sumTo rd (realShares rd v) i := by
      intro i
      induction i with
      | zero =>
        intro hi
        rw [sumTo_zero]
        cases hv : realShares rd v with
        | nil => simp
        | cons a l => rw [hv] at hsh; exact hsh a List.mem_cons_self
      | succ i ih =>
        intro hi
        rw [sumTo_succ _ hi]
        exact h0 _ (add_nonneg (ih (by omega)) (hsh _ (List.getElem_mem _)))
    have := hnn k (by rw [realShares, List.length_map]; omega)
    linarith
  · rw [pick, if_pos (by rw [List.length_map]; omega)]

/-- The weights say nothing: one of them is NaN, or all are zero. -/
def SaysNothing (ws : List Fl) : Prop := Fl.nan ∈ ws ∨ ∀ w ∈ ws, w = .fin 0

theorem shares_nan {rd : ℝ → ℝ} (hz : rd 0 = 0) {ws : List Fl} (h : SaysNothing ws) : ∀ w ∈ shares rd ws, w = .nan := by
  intro w hw
  obtain ⟨x, hx, rfl⟩ := List.mem_map.mp hw
  rcases h with h | h
  · rw [total, foldl_mem_nan h, Fl.div_nan]
    rfl
  · rw [total_zero hz h, h x hx, Fl.zero_div_zero]
    rfl

/-- **C135** (where it fails) If one weight is NaN, or if all are zero, the first particle is drawn every time. -/
theorem c135_nothing_draws_first {rd : ℝ → ℝ} (hz : rd 0 = 0) {ws : List Fl} (h : SaysNothing ws) {p : ℝ} (hp : p < 1) : pick rd ws p = 0 :=
  pick_nan (shares_nan hz h) hp.le

/-- **C135** (where it fails) A node built with the library's assertions ends there, if the filter has more than one particle. -/
theorem c135_nothing_aborts {rd : ℝ → ℝ} (hz : rd 0 = 0) {f : Filter} (h : SaysNothing f.weights) (h2 : 2 ≤ f.weights.length) (err z : ℝ) (p : ℕ → ℝ) :
    f.checkedResample rd err z p = .error .abort := by
  rw [Filter.checkedResample, if_pos]
  refine ⟨h2, ?_⟩
  rcases h with h | h
  · rw [total, foldl_mem_nan h]
    exact Fl.lt_nan _
  · rw [total_zero hz h, Fl.fin_lt]
    exact lt_irrefl 0

/-- **C135** (where it fails) Weighing with scores of which one is NaN, or which are all zero, and resampling: all particles become copies of the first one. -/
theorem c135_blind_scan_collapses {rd : ℝ → ℝ} (hz : rd 0 = 0) {f f1 f2 : Filter} (hl : f.weights.length = f.particles.length)
    {score : Pose2d → Res Fl} (hb : (∃ q ∈ f.particles, score q = .ok .nan) ∨ ∀ q ∈ f.particles, score q = .ok (.fin 0))
    (h1 : f.measure score = .ok f1) {err z : ℝ} {p : ℕ → ℝ} (hp : ∀ n, p n < 1) (h2 : f1.resample err z (f1.drawn rd p) = .ok f2) :
    ∀ q ∈ f2.particles, f.particles[0]? = some q := by
  obtain ⟨ws, hws, hlen, hu⟩ := Filter.measure_ok hl h1
  obtain ⟨-, -, -, e3, -⟩ := Filter.updateStatistics_ok hu
  have e : f1.particles = f.particles := e3
  have hgen : ∀ (l : List Pose2d) (us : List Fl), l.mapM score = .ok us →
      ((∃ q ∈ l, score q = .ok .nan) ∨ ∀ q ∈ l, score q = .ok (.fin 0)) → SaysNothing us := by
    intro l
    induction l with
    | nil =>
      intro us h _
      cases h
      exact Or.inr (by simp)
    | cons a l ih =>
      intro us h hb
      rw [List.mapM_cons] at h
      cases ha : score a with
      | error e => rw [ha] at h; cases h
      | ok s =>
        rw [ha] at h
        cases hr : l.mapM score with
        | error e => rw [hr] at h; cases h
        | ok ts =>
          rw [hr] at h
          cases h
          rcases hb with ⟨q, hq, hs⟩ | hb
          · rcases List.mem_cons.mp hq with rfl | hq
            · rw [ha] at hs
              cases hs
              exact Or.inl List.mem_cons_self
            · have hn : ∀ (l : List Pose2d) (us : List Fl), l.mapM score = .ok us → q ∈ l → Fl.nan ∈ us := by
                intro l
                induction l with
                | nil => intro us _ h; cases h
                | cons b l ih =>
                  intro us h hq
                  rw [List.mapM_cons] at h
                  cases hb : score b with
                  | error e => rw [hb] at h; cases h
                  | ok s =>
                    rw [hb] at h
                    cases hr : l.mapM score with
                    | error e => rw [hr] at h; cases h
                    | ok ts =>
                      rw [hr] at h
                      cases h
                      rcases List.mem_cons.mp hq with rfl | hq
                      · rw [hb] at hs; cases hs; exact List.mem_cons_self
                      · exact List.mem_cons_of_mem _ (ih ts hr hq)
              exact Or.inl (List.mem_cons_of_mem _ (hn l ts hr hq))
          · have h0 := hb a List.mem_cons_self
            rw [ha] at h0
            cases h0
            rcases ih ts hr (Or.inr fun q hq => hb q (List.mem_cons_of_mem _ hq)) with h | h
            · exact Or.inl (List.mem_cons_of_mem _ h)
            · right
              intro w hw
              rcases List.mem_cons.mp hw with rfl | hw
              · rfl
              · exact h w hw
  have hnan : ∀ w ∈ f1.weights, w = .nan := Filter.normalise_nan hu (hgen _ _ hws hb)
  intro q hq
  obtain ⟨i, hi, rfl⟩ := List.getElem_of_mem hq
  have := (c25_resampled_particles_are_old h2).2 i hi
  rw [List.getElem?_eq_getElem hi] at this
  rw [this, ← e]
  congr 1
  refine (c135_nothing_draws_first hz ?_ (hp i)).symm
  by_cases hw : f1.weights = []
  · right; rw [hw]; simp
  · obtain ⟨w, hw⟩ := List.exists_mem_of_ne_nil _ hw
    left
    rw [← hnan w hw]
    exact hw

/-! ## Concrete cases -/

theorem two_defined {f : Filter} (hp : f.particles = twoParticles.particles) (hm : f.maxP = 2) (hk : f.kd.cellSize = ![0.5, 0.5, 0.2671])
    (hw : f.weights.length = 2) {draw : ℕ → ℕ} (hd : ∀ n, draw n < 2) : ∃ g, f.resample 1 0 draw = .ok g := by
  apply c21_resample_defined one_pos le_rfl
  · rw [hw, hp]; rfl
  · exact hk
  · intro n
    rw [hp]
    exact hd n
  · intro p h
    rw [hp] at h
    simp only [twoParticles, List.ofFn_succ, List.ofFn_zero, List.mem_cons, List.not_mem_nil, or_false] at h
    rcases h with rfl | rfl <;> exact binFits_small (by norm_num) (by norm_num) (by norm_num)
  · intro k hk1 hk2
    have : k = 2 := by
      rw [hm] at hk2
      omega
    subst this
    unfold kldBound
    norm_num

theorem twoParticles_distribution : Distribution twoParticles.weights :=
  ⟨[1 / 4, 3 / 4], by simp [AreNumbers, twoParticles], by norm_num, by norm_num⟩

/-- The hypotheses are met: two particles with a quarter and three quarters of the weight. -/
example : Distribution twoParticles.weights ∧ (∃ g, twoParticles.resample 1 0 (twoParticles.drawn id fun _ => 1 / 2) = .ok g) ∧
    pick id ([1 / 4, 3 / 4].map Fl.fin) (1 / 8) = 0 ∧ pick id ([1 / 4, 3 / 4].map Fl.fin) (1 / 2) = 1 ∧
    volume {p : ℝ | 0 < p ∧ p < 1 ∧ pick id ([1 / 4, 3 / 4].map Fl.fin) p = 1} = ENNReal.ofReal (3 / 4) := by
  have hv : ∀ w ∈ [(1 / 4 : ℝ), 3 / 4], 0 ≤ w := by norm_num
  have hs : 0 < [(1 / 4 : ℝ), 3 / 4].sum := by norm_num
  refine ⟨twoParticles_distribution, ?_, ?_, ?_, ?_⟩
  · exact two_defined rfl rfl rfl (by simp [twoParticles]) fun n =>
      c135_in_range id (by simp [twoParticles]) (by norm_num)
  · exact (c135_drawn_iff hv hs (by norm_num) (by norm_num) (by norm_num)).mpr (by norm_num)
  · exact (c135_drawn_iff hv hs (by norm_num) (by norm_num) (by norm_num)).mpr (by norm_num)
  · rw [c135_share hv hs (i := 1) (by norm_num)]
    congr 1
    norm_num

/-- **C135** (refuted in general) Two particles a metre apart; all the weight is with the second one. When the uniform numbers are zero, resampling leaves
copies of the first one only. -/
theorem c135_weightless_particle_drawn : ∃ f g : Filter, Distribution f.weights ∧ f.weights = [.fin 0, .fin 1] ∧
    f.particles = [⟨0, 0, 0⟩, ⟨1, 0, 0⟩] ∧ f.resample 1 0 (f.drawn id fun _ => 0) = .ok g ∧ g.particles ≠ [] ∧ ∀ q ∈ g.particles, q = ⟨0, 0, 0⟩ := by
  let f : Filter := { twoParticles with weights := [.fin 0, .fin 1] }
  have hz : pick id ([0, 1].map Fl.fin) 0 = 0 :=
    c135_zero_draws_first id (by norm_num) (fun _ h => h) (by rw [realTotal_id]; norm_num)
  have hd : ∀ n, f.drawn id (fun _ => 0) n = 0 := fun n => hz
  obtain ⟨g, hg⟩ := two_defined (f := f) rfl rfl rfl rfl (draw := f.drawn id fun _ => 0) fun n => by rw [hd n]; norm_num
  refine ⟨f, g, ⟨[0, 1], rfl, by norm_num, by norm_num⟩, rfl, by simp [f, twoParticles], hg, ?_, ?_⟩
  · obtain ⟨rs, ws, kd, mx, hinv, -, -, hge, hu⟩ := Filter.resample_ok hg
    obtain ⟨-, -, -, e3, -⟩ := Filter.updateStatistics_ok hu
    have e : g.particles = rs := e3
    rw [e]
    rintro rfl
    have h2 : f.minP = 2 := rfl
    have h3 : f.maxP = 2 := rfl
    simp only [List.length_nil, h2, h3] at hge
    omega
  · intro q hq
    obtain ⟨i, hi, rfl⟩ := List.getElem_of_mem hq
    have := (c25_resampled_particles_are_old hg).2 i hi
    rw [List.getElem?_eq_getElem hi, hd i] at this
    simpa [f, twoParticles] using this

/-- **C135** (refuted in general) A filter whose better particle is a metre away from the first one is weighed with a scan that says nothing: all scores are
zero. Resampling leaves copies of the first particle only, whatever is drawn, and ends the node if it was built with the library's assertions. -/
theorem c135_blind_scan_example {p : ℕ → ℝ} (hp : ∀ n, p n < 1) : ∃ f1 f2, Distribution twoParticles.weights ∧
    twoParticles.measure (fun _ => .ok (.fin 0)) = .ok f1 ∧ f1.resample 1 0 (f1.drawn id p) = .ok f2 ∧ f2.particles ≠ [] ∧
    (∀ q ∈ f2.particles, q = ⟨0, 0, 0⟩) ∧ f1.checkedResample id 1 0 p = .error .abort := by
  have hwl : WithinLimits twoParticles := by
    refine ⟨?_, ?_, ?_⟩ <;> simp [twoParticles]
  obtain ⟨f1, h1⟩ := (c21_other_operations_defined hwl).2.2 fun _ => .fin 0
  obtain ⟨ws, hws, hlen, hu⟩ := Filter.measure_ok (by simp [twoParticles]) h1
  have hws' : ws = [.fin 0, .fin 0] := by
    simp only [twoParticles, List.ofFn_succ, List.ofFn_zero, List.mapM_cons, List.mapM_nil] at hws
    cases hws
    rfl
  have hnan : ∀ w ∈ f1.weights, w = .nan := Filter.normalise_nan hu (Or.inr (by rw [hws']; simp))
  obtain ⟨e0, e1, e2, e3, e4, e5, e6⟩ := Filter.updateStatistics_ok hu
  have hl : f1.weights.length = 2 := by
    rw [e4, hws']; rfl
  have hnot : SaysNothing f1.weights := by
    left
    obtain ⟨w, hw⟩ := List.exists_mem_of_ne_nil f1.weights (by intro h; rw [h] at hl; simp at hl)
    rw [← hnan w hw]
    exact hw
  have hd : ∀ n, f1.drawn id p n < 2 := by
    intro n
    show pick id f1.weights (p n) < 2
    rw [c135_nothing_draws_first (rd := id) rfl hnot (hp n)]
    norm_num
  obtain ⟨f2, h2⟩ := two_defined (f := f1) e3 (by first | exact e2 | exact e1 | exact e0) (by first | (rw [e6]; rfl) | (rw [e5]; rfl)) hl hd
  refine ⟨f1, f2, twoParticles_distribution, h1, h2, ?_, ?_, c135_nothing_aborts rfl hnot (by omega) _ _ _⟩
  · obtain ⟨rs, ws, kd, mx, hinv, -, -, hge, hu⟩ := Filter.resample_ok h2
    obtain ⟨-, -, -, e, -⟩ := Filter.updateStatistics_ok hu
    have e : f2.particles = rs := e
    rw [e]
    rintro rfl
    have hm : f1.maxP = 2 := by first | exact e2 | exact e1 | exact e0
    have hm' : f1.minP = 2 := by first | exact e1 | exact e0 | exact e2
    simp only [List.length_nil, hm, hm'] at hge
    omega
  · intro q hq
    have := c135_blind_scan_collapses (rd := id) rfl (by simp [twoParticles]) (Or.inr fun _ _ => rfl) h1 hp h2 q hq
    simpa [twoParticles] using this.symm

end

end Ndt
