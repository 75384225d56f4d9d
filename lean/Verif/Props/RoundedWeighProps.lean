import Verif.Proof.RoundedWeigh
import Verif.Proof.FarWall
import Verif.Props.RoundedEndsProps
import Verif.Props.RoundedMatcherProps
import Verif.Props.RoundedFilterProps

/-! # Property C130: weighing the particles in double precision -/

namespace Ndt

open Rounded

/-- **C130** Weighing the particles returns, for a map and a scan as in C129 and particles within `P` metres of the origin. -/
theorem c130_returns {rd co si : ℝ → ℝ} (hr : Spec.RoundsToNearest rd) (hcs : Spec.Accurate co si) (es : Mat2 ℝ → ℝ × ℝ)
    {P : ℝ} (hP : 1 ≤ P) {mt : Matcher} (hm : Spec.MapWithin P mt) {scans : List Scan} (hne : scans ≠ []) (hs : ∀ s ∈ scans, Spec.ScanWithin P s)
    {points : List Point} (hpts : ∀ p ∈ points, |p.x| ≤ P ∧ |p.y| ≤ P) (hn : points.length ≤ 2 ^ 51)
    {particles : List Pose2d} (hps : ∀ a ∈ particles, |a.x| ≤ P ∧ |a.y| ≤ P) :
    ∃ mt' r, addScans rd co si es mt scans = .ok mt' ∧ measure rd co si mt' points particles = .ok r := by
  have h52 : (2⁻¹ : ℝ) ^ 52 ≤ 1 := pow_le_one₀ (by norm_num) (by norm_num)
  have hco : ∀ x, |co x| ≤ 2 := by
    intro x
    have h1 := abs_le.mp (hcs.cos x)
    have h2 := abs_le.mp (Real.abs_cos_le_one x)
    exact abs_le.mpr ⟨by linarith, by linarith⟩
  have hsi : ∀ x, |si x| ≤ 2 := by
    intro x
    have h1 := abs_le.mp (hcs.sin x)
    have h2 := abs_le.mp (Real.abs_sin_le_one x)
    exact abs_le.mpr ⟨by linarith, by linarith⟩
  have hsq := hm.squares
  obtain ⟨g, h1, gc, ox, oy, gl, gs⟩ := addScans_total (es := es) hr hco hsi hP hm hne hs
  have hmc : 2 ^ 4 * (34 * P) ≤ 2 ^ 31 * g.cellSize := by
    rw [gc]
    norm_num at hsq ⊢
    linarith
  have hpos : 0 < g.cellSize := by
    norm_num at hmc
    linarith
  have hscore : ∀ a ∈ particles, ∃ v, scorePoints rd co si { mt with ndt := some g } points a = .ok v ∧ True := by
    intro a ha
    unfold scorePoints
    simp only
    obtain ⟨w, hw⟩ := foldlM_ok (fun (score : Fl) i => (do
      let p ← beam rd points (min mt.laserMaxBeams points.length) i
      let w ← likelihood rd g (mapPoint rd co si a p)
      pure (Fl.rounded rd (score + -w)) : Res Fl)) (List.range (min mt.laserMaxBeams points.length)) (by
        intro b i hi
        obtain ⟨idx, e, hlt⟩ := (c79_beam_indices hr (maxBeams := mt.laserMaxBeams) hn).1 i (List.mem_range.mp hi)
        unfold beam
        rw [e]
        simp only [Res.ok_bind]
        rw [List.getElem?_eq_getElem hlt]
        simp only [Res.pure_eq, Res.ok_bind]
        obtain ⟨p1, p2⟩ := hpts _ (List.getElem_mem hlt)
        obtain ⟨t1, t2⟩ := turned_le hr hP (hco a.theta) (hsi a.theta) p1 p2
        have k1 := add_twice hr hP (hps a ha).1 t1
        have k2 := add_twice hr hP (hps a ha).2 t2
        obtain ⟨v, hv⟩ := likelihood_total hr (M := 34 * P) hpos (by linarith) hmc (by linarith) (by linarith) gl gs
          (p := mapPoint rd co si a points[idx]) (k1.trans (by linarith)) (k2.trans (by linarith))
        rw [hv]
        exact ⟨_, rfl⟩) (.fin 0)
    rw [hw]
    exact ⟨_, rfl, trivial⟩
  obtain ⟨scores, hsc, -⟩ := Rounded.mapM_ok (scorePoints rd co si { mt with ndt := some g } points) (fun _ => True) particles hscore
  refine ⟨_, ⟨shares rd scores, meanOf rd (·.x) (shares rd scores) particles, meanOf rd (·.y) (shares rd scores) particles⟩, h1, ?_⟩
  unfold Rounded.measure
  rw [hsc]
  rfl

/-- **C130** (partial) If the squares of the map are well spread, every score is a number from -1 to 0, and after weighing every weight is a number
from 0 to 1, exactly, or there is no particle with a score other than zero. Missing: squares that are spread less
(`c130_infinite_score`), and the case of no score other than zero (`c130_no_score`). -/
theorem c130_weights_partial {rd co si : ℝ → ℝ} (hr : Spec.RoundsToNearest rd) {es : Mat2 ℝ → ℝ × ℝ}
    (he : ∀ a b d, 0 < Spec.eigMax a b d → Spec.eigMax a b d / 2 ≤ max (es ⟨a, b, b, d⟩).1 (es ⟨a, b, b, d⟩).2)
    {mt mt' : Matcher} {scans : List Scan} (hm : addScans rd co si es mt scans = .ok mt') {g : NdtGrid} (hg : mt'.ndt = some g)
    (hres : 0 < mt.resolution) (hres2 : mt.resolution ≤ 2 ^ 30) (hox : |g.originX| ≤ 2 ^ 60) (hoy : |g.originY| ≤ 2 ^ 60)
    {B : ℝ} (hB : 2⁻¹ ^ 100 ≤ B) (hB2 : B ≤ 2 ^ 100) (hsq : Spec.WellSpread rd co si g scans B)
    {points : List Point} (hp : points ≠ []) (hp2 : points.length < 2 ^ 53) (hb : 0 < mt.laserMaxBeams)
    {particles : List Pose2d} {r : Weighed} (h : measure rd co si mt' points particles = .ok r) :
    (∀ a ∈ particles, ∃ v, scorePoints rd co si mt' points a = .ok v ∧ Spec.IsScore v) ∧ r.weights.length = particles.length ∧
    ((∃ a ∈ particles, scorePoints rd co si mt' points a ≠ .ok (.fin 0)) → ∀ w ∈ r.weights, Spec.IsShare w) := by
  have hlik := spread_likelihood hr he hm hg hres hres2 hox hoy hB hB2 hsq
  have hb' : 0 < mt'.laserMaxBeams := by
    obtain ⟨g', e, -, -⟩ := addScans_cells hm
    subst e
    exact hb
  have hsc : ∀ a v, scorePoints rd co si mt' points a = .ok v → ScoreD v := fun a v => scorePoints_range hr hg hlik hp hp2 hb'
  obtain ⟨scores, hms, rfl⟩ := measure_ok h
  refine ⟨fun a ha => ?_, ?_, ?_⟩
  · obtain ⟨v, -, hv⟩ := mapM_mem' hms a ha
    obtain ⟨x, rfl, -, h1, h2⟩ := hsc a v hv
    exact ⟨_, hv, x, rfl, h1, h2⟩
  · unfold shares
    rw [List.length_map, mapM_length _ _ hms]
  · rintro ⟨a, ha, hne⟩
    refine shares_range hr ?_ ?_
    · intro w hw
      obtain ⟨b, -, hb⟩ := mapM_mem hms w hw
      exact hsc b w hb
    · obtain ⟨v, hv, e⟩ := mapM_mem' hms a ha
      refine ⟨v, hv, ?_⟩
      rintro rfl
      exact hne e

/-- **C130** The weights add up to one, up to `n 2^-49`, and the mean position that follows is the mean of the particles, weighted with their scores of the opposite sign `a.1`, up to `n 2^-48`
times the largest coordinate. The rounding is one that does not depend on the sign, as ties to even. -/
theorem c130_mean {rd co si : ℝ → ℝ} (hr : Spec.RoundsToNearest rd) (hodd : ∀ x, rd (-x) = -rd x) {mt : Matcher} {points : List Point}
    {l : List (ℝ × Pose2d)} (hs : ∀ a ∈ l, scorePoints rd co si mt points a.2 = .ok (.fin (-a.1))) {B : ℝ}
    (hx : Spec.ModerateCloud (·.x) B l) (hy : Spec.ModerateCloud (·.y) B l) {r : Weighed} (h : measure rd co si mt points (l.map (·.2)) = .ok r) :
    (∃ ws : List ℝ, r.weights = ws.map .fin ∧ (∀ w ∈ ws, 0 ≤ w) ∧ |ws.sum - 1| ≤ l.length * 2⁻¹ ^ 49) ∧
    ∃ x y, r.meanX = .fin x ∧ r.meanY = .fin y ∧ |x - Spec.weightedMean (·.x) l| ≤ l.length * (2⁻¹ ^ 48 * B) ∧
      |y - Spec.weightedMean (·.y) l| ≤ l.length * (2⁻¹ ^ 48 * B) := by
  obtain ⟨scores, hms, rfl⟩ := measure_ok h
  have e : scores = l.map fun a => .fin (-a.1) := by
    clear h hx hy
    induction l generalizing scores with
    | nil => cases hms; rfl
    | cons a l ih =>
      rw [List.map_cons, List.mapM_cons, hs a List.mem_cons_self] at hms
      simp only [Res.ok_bind] at hms
      cases h2 : (l.map (·.2)).mapM (scorePoints rd co si mt points) with
      | error e => rw [h2] at hms; cases hms
      | ok r' =>
        rw [h2] at hms
        cases hms
        rw [List.map_cons, ih (fun a ha => hs a (List.mem_cons_of_mem _ ha)) _ h2]
  subst e
  have hS : 0 < Spec.total (·.1) l := lt_of_lt_of_le (by positivity) hx.sum
  have hs0 : 0 < sumWeights rd l := by
    have h1 := abs_le.mp (sumWeights_near hr hx.nonneg hx.sum hx.count)
    have h2 := length_small hx.count (2⁻¹ ^ 52 * Spec.total (·.1) l) (by positivity)
    norm_num at h1 h2
    linarith [h1.1]
  rw [shares_neg hodd hs0.ne']
  have e2 : l.map (·.2) = (normalised rd l).map (·.2) := by
    unfold normalised
    rw [List.map_map]
    rfl
  refine ⟨?_, mean rd (·.x) l, mean rd (·.y) l, ?_, ?_, c115_mean hr hx, c115_mean hr hy⟩
  · obtain ⟨w1, w2⟩ := c115_weights hr hx
    refine ⟨(normalised rd l).map Prod.fst, by rw [List.map_map]; rfl, ?_, w2⟩
    intro w hw
    obtain ⟨a, ha, rfl⟩ := List.mem_map.mp hw
    exact w1 a ha
  · show meanOf rd (·.x) _ _ = _
    rw [e2, meanOf_eq]; rfl
  · show meanOf rd (·.y) _ _ = _
    rw [e2, meanOf_eq]; rfl

/-- **C130** (where it fails) A score of minus infinity for one particle, and the mean position is NaN, wherever the others are. -/
theorem c130_infinite_score {rd co si : ℝ → ℝ} {mt : Matcher} {points : List Point} {particles : List Pose2d} {r : Weighed}
    (h : measure rd co si mt points particles = .ok r) (a : Pose2d) (ha : a ∈ particles) (hs : scorePoints rd co si mt points a = .ok .ninf) :
    .nan ∈ r.weights ∧ r.meanX = .nan ∧ r.meanY = .nan := by
  obtain ⟨scores, hms, rfl⟩ := measure_ok h
  obtain ⟨v, hv, e⟩ := mapM_mem' hms a ha
  rw [hs] at e
  cases e
  have hn := shares_of_ninf (rd := rd) hv
  have hl : (shares rd scores).length ≤ particles.length := by
    unfold shares
    rw [List.length_map, mapM_length _ _ hms]
  exact ⟨hn, meanOf_nan _ _ _ hl hn, meanOf_nan _ _ _ hl hn⟩

/-- **C130** (where it fails) No score other than zero, and all weights and the mean position are NaN. -/
theorem c130_no_score {rd co si : ℝ → ℝ} (hr : Spec.RoundsToNearest rd) {mt : Matcher} {points : List Point} {particles : List Pose2d}
    (hne : particles ≠ []) {r : Weighed} (h : measure rd co si mt points particles = .ok r)
    (hs : ∀ a ∈ particles, scorePoints rd co si mt points a = .ok (.fin 0)) :
    (∀ w ∈ r.weights, w = .nan) ∧ r.meanX = .nan ∧ r.meanY = .nan := by
  obtain ⟨scores, hms, rfl⟩ := measure_ok h
  have h0 : ∀ w ∈ scores, w = .fin 0 := by
    intro w hw
    obtain ⟨a, ha, e⟩ := mapM_mem hms w hw
    rw [hs a ha] at e
    cases e
    rfl
  have hall : ∀ w ∈ shares rd scores, w = .nan := by
    intro w hw
    obtain ⟨v, hv, rfl⟩ := List.mem_map.mp hw
    rw [sumScores_zero hr scores h0, h0 v hv, Fl.zero_div_zero]
    rfl
  have hlen : (shares rd scores).length = particles.length := by
    unfold shares
    rw [List.length_map, mapM_length _ _ hms]
  have hn : Fl.nan ∈ shares rd scores := by
    obtain ⟨w, hw⟩ := List.exists_mem_of_length_pos (l := shares rd scores) (by rw [hlen]; exact List.length_pos_iff.mpr hne)
    have := hall w hw
    rwa [this] at hw
  exact ⟨hall, meanOf_nan _ _ _ hlen.le hn, meanOf_nan _ _ _ hlen.le hn⟩

/-- **C130** Weighing without a map returns, but no weight is a number afterwards (what C17 says of scores, in doubles). -/
theorem c130_no_map {rd co si : ℝ → ℝ} (hr : Spec.RoundsToNearest rd) {mt : Matcher} (hm : mt.ndt = none) (points : List Point)
    {particles : List Pose2d} (hne : particles ≠ []) :
    (∀ a, scorePoints rd co si mt points a = .ok (.fin 0)) ∧
    ∃ r, measure rd co si mt points particles = .ok r ∧ (∀ w ∈ r.weights, w = .nan) ∧ r.meanX = .nan ∧ r.meanY = .nan := by
  have hs : ∀ a, scorePoints rd co si mt points a = .ok (.fin 0) := by
    intro a
    unfold Rounded.scorePoints
    rw [hm]
  have hall : ∀ l : List Pose2d, l.mapM (scorePoints rd co si mt points) = .ok (l.map fun _ => .fin 0) := by
    intro l
    induction l with
    | nil => rfl
    | cons a l ih => rw [List.mapM_cons, hs, ih]; rfl
  have h : ∃ r, measure rd co si mt points particles = .ok r := by
    unfold Rounded.measure
    rw [hall]
    exact ⟨_, rfl⟩
  obtain ⟨r, h⟩ := h
  exact ⟨hs, r, h, c130_no_score hr hne h fun a _ => hs a⟩

/-- A matcher without a map and two particles. -/
example : ∃ r, measure rnd Demo.cosR Demo.sinR { Demo.matcher 0.25 6.0625 with ndt := none } [⟨1, 2⟩] [⟨0, 0, 0⟩, ⟨1, 0, 0⟩] = .ok r ∧
    ∀ w ∈ r.weights, w = .nan := by
  obtain ⟨-, r, h, hw, -⟩ := c130_no_map rnd_rounds (co := Demo.cosR) (si := Demo.sinR) (mt := { Demo.matcher 0.25 6.0625 with ndt := none }) rfl [⟨1, 2⟩]
    (particles := [⟨0, 0, 0⟩, ⟨1, 0, 0⟩]) (by simp)
  exact ⟨r, h, hw⟩

theorem scorePoints_one {mt : Matcher} {g : NdtGrid} (hg : mt.ndt = some g) (hb : 0 < mt.laserMaxBeams) {p : Point} {a : Pose2d} {v : Fl}
    (hl : likelihood rnd g (mapPoint rnd Demo.cosR Demo.sinR a p) = .ok v) :
    scorePoints rnd Demo.cosR Demo.sinR mt [p] a = .ok (Fl.rounded rnd (Fl.rounded rnd (.fin 0 + -v) / .fin 1)) := by
  have hm : min mt.laserMaxBeams [p].length = 1 := by
    rw [List.length_singleton]
    exact min_eq_right hb
  have hbeam : beam rnd [p] 1 0 = .ok p := by
    obtain ⟨idx, e, hlt⟩ := (c79_beam_indices rnd_rounds (n := [p].length) (maxBeams := 1) (by norm_num)).1 0 (by norm_num)
    have hm1 : min 1 [p].length = 1 := rfl
    rw [hm1] at e
    have hi : idx = 0 := by
      have : idx < 1 := hlt
      omega
    subst hi
    unfold beam
    rw [e]
    rfl
  unfold scorePoints
  rw [hg]
  simp only [hm, List.range_one, List.foldlM_cons, List.foldlM_nil, hbeam, Res.ok_bind, hl, Res.pure_eq]
  rw [Nat.cast_one, rnd_rounds.exact isDouble_one]

theorem demoScan_within (ps : List Point) (h : ∀ p ∈ ps, |p.x| ≤ 100 ∧ |p.y| ≤ 100) : ∀ s ∈ [Demo.scanOf ps], Spec.ScanWithin 100 s := by
  intro s hs
  rw [List.mem_singleton.mp hs]
  refine ⟨?_, ?_, h⟩
  · simp [Demo.scanOf, Scan.new, Pose2d.zero]
  · simp [Demo.scanOf, Scan.new, Pose2d.zero]

/-- **C130** (refuted in general) The map of `c128_score_can_be_infinite` and a scan of one point: whatever the particles are, if one of them is
where the robot is, the mean position after weighing is NaN. -/
theorem c130_mean_can_be_nan : ∃ mt p, addScans rnd Demo.cosR Demo.sinR eigenvalues (Demo.matcher 0.25 6.0625) [Demo.scanOf NegVar.points] = .ok mt ∧
    ∀ particles : List Pose2d, (∀ a ∈ particles, |a.x| ≤ 100 ∧ |a.y| ≤ 100) → Pose2d.zero ∈ particles →
      ∃ r, measure rnd Demo.cosR Demo.sinR mt [p] particles = .ok r ∧ r.meanX = .nan ∧ r.meanY = .nan := by
  obtain ⟨g, h1, hlik, hpts⟩ := line_map
  have hy53 : rnd 5.3 = 5967269506265907 / 2 ^ 50 := NegVar.y_eq
  refine ⟨_, ⟨0.125, rnd 5.3⟩, h1, fun particles hps hz => ?_⟩
  have hdx : Spec.IsDouble (0.125 : ℝ) := by
    have := Demo.isDouble_inv_pow (n := 3) (by norm_num)
    norm_num at this ⊢
    exact this
  have hs := scorePoints_one (mt := { Demo.matcher 0.25 6.0625 with ndt := some g }) (g := g) rfl (by norm_num [Demo.matcher])
    (p := ⟨0.125, rnd 5.3⟩) (a := Pose2d.zero) (v := .pinf) (by rw [Demo.mapPoint_zero hdx (isDouble_rnd _)]; exact hlik)
  have hs' : scorePoints rnd Demo.cosR Demo.sinR { Demo.matcher 0.25 6.0625 with ndt := some g } [⟨0.125, rnd 5.3⟩] Pose2d.zero =
      .ok .ninf := by
    rw [hs]
    show Except.ok (Fl.rounded rnd (if (0 : ℝ) ≤ 1 then Fl.ninf else .pinf)) = _
    rw [if_pos zero_le_one]
    rfl
  obtain ⟨mt', r, e1, e2⟩ := c130_returns rnd_rounds accurate_demo eigenvalues (P := 100) (by norm_num) (mt := Demo.matcher 0.25 6.0625)
    ⟨by norm_num [Demo.matcher], by norm_num [Demo.matcher], by norm_num [Demo.matcher]⟩ (scans := [Demo.scanOf NegVar.points]) (by simp)
    (demoScan_within _ (by
      intro p hp
      obtain ⟨-, a1, a2, a3⟩ := hpts p hp
      rw [a3, hy53]
      refine ⟨abs_le.mpr ⟨?_, ?_⟩, by norm_num [abs_le]⟩
      · norm_num at a1 ⊢; linarith
      · linarith))
    (points := [⟨0.125, rnd 5.3⟩]) (by
      intro p hp
      rw [List.mem_singleton.mp hp, hy53]
      norm_num [abs_le]) (by simp) hps
  rw [h1] at e1
  cases e1
  obtain ⟨-, m1, m2⟩ := c130_infinite_score e2 _ hz hs'
  exact ⟨r, e2, m1, m2⟩

/-- A wall two metres ahead, in a map with the default resolution: a point 6.25 cm behind it has a likelihood of zero in double precision, and a
positive one in exact arithmetic. -/
theorem wall_map : ∃ g, addScans rnd Demo.cosR Demo.sinR eigenvalues (Demo.matcher 0.25 6.0625) [Demo.scanOf FarWall.points] =
      .ok { Demo.matcher 0.25 6.0625 with ndt := some g } ∧ likelihood rnd g ⟨0, 33 / 2 ^ 4⟩ = .ok (.fin 0) ∧
      likelihood rnd g ⟨0, 2⟩ = .ok (.fin 1) := by
  have dy : ∀ (k : ℤ) (e : ℕ), |k| < 2 ^ 53 → e ≤ 1074 → Spec.IsDouble (k / 2 ^ e) := by
    intro k e hk he
    have := isDouble_dyadic (k := k) (e := -(e : ℤ)) hk (by omega)
    rwa [zpow_neg, zpow_natCast, ← div_eq_mul_inv] at this
  have colx : ∀ x : ℝ, -1 / 2 ^ 5 ≤ x → x ≤ 1 / 2 ^ 5 → toU32F (Fl.rounded rnd (.fin (rnd (x - -6.0625)) / .fin 0.25)) = .ok 24 := by
    intro x h1 h2
    refine Demo.axis_at (lo := (6 : ℤ) / 2 ^ 0) (hi := (99 : ℤ) / 2 ^ 4) (top := (99 : ℤ) / 2 ^ 2) (by norm_num)
      (dy _ _ (by norm_num) (by norm_num)) (dy _ _ (by norm_num) (by norm_num)) (dy _ _ (by norm_num) (by norm_num)) ?_ ?_ ?_ ?_ ?_ (by norm_num)
    all_goals norm_num at h1 h2 ⊢
    all_goals linarith
  have coly : ∀ y : ℝ, 2 ≤ y → y ≤ 33 / 2 ^ 4 → toU32F (Fl.rounded rnd (.fin (rnd (y - -6.0625)) / .fin 0.25)) = .ok 32 := by
    intro y h1 h2
    refine Demo.axis_at (lo := (8 : ℤ) / 2 ^ 0) (hi := (130 : ℤ) / 2 ^ 4) (top := (130 : ℤ) / 2 ^ 2) (by norm_num)
      (dy _ _ (by norm_num) (by norm_num)) (dy _ _ (by norm_num) (by norm_num)) (dy _ _ (by norm_num) (by norm_num)) ?_ ?_ ?_ ?_ ?_ (by norm_num)
    all_goals norm_num at h1 h2 ⊢
    all_goals linarith
  have idx : ∀ x y : ℝ, -1 / 2 ^ 5 ≤ x → x ≤ 1 / 2 ^ 5 → 2 ≤ y → y ≤ 33 / 2 ^ 4 → ∀ cells,
      getIndex rnd ⟨0.25, 49, 49, -6.0625, -6.0625, cells⟩ x y = .ok ((1592 : ℕ) : ℤ) := by
    intro x y x1 x2 y1 y2 cells
    exact Demo.getIndex_at (a := 24) (b := 32) (by norm_num at x1 ⊢; linarith) (by norm_num at y1 ⊢; linarith) (colx x x1 x2)
      (coly y y1 y2) (by norm_num) (by norm_num) (by norm_num)
  have hgrid : mapGrid rnd 0.25 6.0625 [Demo.scanOf FarWall.points] =
      .ok ⟨0.25, 49, 49, -6.0625, -6.0625, List.replicate (49 * 49 % 2 ^ 64) Cell.new⟩ := by
    refine Demo.mapGrid_eq (q := 97 / 2) _ (by norm_num) (by norm_num) (by norm_num) ?_ ?_ (by norm_num) ?_ ?_ (by norm_num) (by norm_num)
      (by norm_num)
    · have := dy 97 4 (by norm_num) (by norm_num)
      norm_num at this ⊢
      exact this
    · have := dy 97 3 (by norm_num) (by norm_num)
      norm_num at this ⊢
      exact this
    · have := dy 97 1 (by norm_num) (by norm_num)
      norm_num at this ⊢
      exact this
    · have := dy 99 1 (by norm_num) (by norm_num)
      norm_num at this ⊢
      exact this
  have hpts : ∀ p ∈ FarWall.points, Spec.IsDouble p.x ∧ -1 / 2 ^ 5 ≤ p.x ∧ p.x ≤ 1 / 2 ^ 5 ∧ p.y = 2 := by
    have d1 := dy 1 5 (by norm_num) (by norm_num)
    have d2 := dy (-1) 5 (by norm_num) (by norm_num)
    have d0 := isDouble_zero
    push_cast at d1 d2
    intro p hp
    simp only [FarWall.points, List.mem_cons, List.not_mem_nil, or_false] at hp
    rcases hp with rfl | rfl | rfl | rfl | rfl
    · exact ⟨d0, by norm_num, by norm_num, rfl⟩
    · exact ⟨d0, by norm_num, by norm_num, rfl⟩
    · exact ⟨d0, by norm_num, by norm_num, rfl⟩
    · exact ⟨d1, by norm_num, by norm_num, rfl⟩
    · exact ⟨d2, by norm_num, by norm_num, rfl⟩
  have h2d : Spec.IsDouble (2 : ℝ) := by
    have := dy 2 0 (by norm_num) (by norm_num)
    norm_num at this ⊢
    exact this
  obtain ⟨g, h1, ⟨cells, hc⟩, h2, -, -⟩ := Demo.addScans_one (i := 1592) (es := eigenvalues) hgrid (by norm_num)
    (fun p hp => ⟨(hpts p hp).1, by rw [(hpts p hp).2.2.2]; exact h2d⟩) (by
    intro p hp cells
    obtain ⟨-, a1, a2, a3⟩ := hpts p hp
    rw [a3]
    exact idx p.x 2 a1 a2 le_rfl (by norm_num) cells)
  have hone : score rnd (cellOf rnd eigenvalues FarWall.points) ⟨0, 2⟩ = .fin 1 := by
    unfold score
    rw [FarWall.cell_eq, if_neg (by norm_num)]
    simp only [exponent, sub_self, rnd_zero, mul_zero, zero_mul, Fl.fin_mul, Fl.fin_add, Fl.rounded_fin, add_zero]
    unfold expD
    simp only [Real.exp_zero]
    rw [rnd_rounds.exact isDouble_one, if_neg (not_le.mpr (one_lt_pow₀ (by norm_num) (by norm_num)))]
  refine ⟨g, h1, ?_, ?_⟩
  · unfold likelihood
    rw [hc] at h2 ⊢
    rw [idx 0 (33 / 2 ^ 4) (by norm_num) (by norm_num) (by norm_num) le_rfl]
    simp only [Res.ok_bind]
    rw [if_pos (by positivity), Int.toNat_natCast, h2]
    simp only [FarWall.score_eq, Res.pure_eq]
  · unfold likelihood
    rw [hc] at h2 ⊢
    rw [idx 0 2 (by norm_num) (by norm_num) le_rfl (by norm_num)]
    simp only [Res.ok_bind]
    rw [if_pos (by positivity), Int.toNat_natCast, h2]
    simp only [hone, Res.pure_eq]

/-- The wall two metres ahead, seen 6.25 cm further on. -/
theorem wall_point : mapPoint rnd Demo.cosR Demo.sinR ⟨0, 0.0625, 0⟩ ⟨0, 2⟩ = ⟨0, 33 / 2 ^ 4⟩ := by
  have hc : Demo.cosR 0 = 1 := by unfold Demo.cosR; rw [Real.cos_zero]; exact rnd_rounds.exact isDouble_one
  have hsn : Demo.sinR 0 = 0 := by unfold Demo.sinR; rw [Real.sin_zero]; exact rnd_zero
  have d2 : rnd 2 = 2 := by
    have := rnd_rounds.exact (isDouble_nat (n := 2) (by norm_num))
    simpa using this
  have d33 : rnd (0.0625 + 2) = 33 / 2 ^ 4 := by
    have : Spec.IsDouble (33 / 2 ^ 4 : ℝ) := by
      have := isDouble_dyadic (k := 33) (e := -4) (by norm_num) (by norm_num)
      norm_num at this ⊢
      exact this
    rw [show (0.0625 + 2 : ℝ) = 33 / 2 ^ 4 by norm_num]
    exact rnd_rounds.exact this
  unfold mapPoint turnX turnY
  simp only [hc, hsn, mul_one, mul_zero, rnd_zero, sub_zero, zero_add, d2, d33]

/-- **C130** (refuted in general) A wall two metres ahead, and a particle 6.25 cm nearer to it than the robot: the wall is in the map where the
particle expects it but for those 6.25 cm, and yet all weights and the mean position are NaN. -/
theorem c130_near_the_wall : ∃ mt r, addScans rnd Demo.cosR Demo.sinR eigenvalues (Demo.matcher 0.25 6.0625) [Demo.scanOf FarWall.points] = .ok mt ∧
    measure rnd Demo.cosR Demo.sinR mt [⟨0, 2⟩] [⟨0, 0.0625, 0⟩] = .ok r ∧ r.weights = [.nan] ∧ r.meanX = .nan ∧ r.meanY = .nan := by
  obtain ⟨g, h1, hlik, -⟩ := wall_map
  have hs := scorePoints_one (mt := { Demo.matcher 0.25 6.0625 with ndt := some g }) (g := g) rfl (by norm_num [Demo.matcher])
    (p := ⟨0, 2⟩) (a := ⟨0, 0.0625, 0⟩) (v := .fin 0) (by rw [wall_point]; exact hlik)
  rw [Fl.fin_neg, neg_zero, Fl.fin_add, add_zero, Fl.rounded_fin, rnd_zero, Fl.fin_div one_ne_zero, zero_div, Fl.rounded_fin, rnd_zero] at hs
  have hm : measure rnd Demo.cosR Demo.sinR { Demo.matcher 0.25 6.0625 with ndt := some g } [⟨0, 2⟩] [⟨0, 0.0625, 0⟩] =
      .ok ⟨shares rnd [.fin 0], meanOf rnd (·.x) (shares rnd [.fin 0]) [⟨0, 0.0625, 0⟩], meanOf rnd (·.y) (shares rnd [.fin 0]) [⟨0, 0.0625, 0⟩]⟩ := by
    unfold Rounded.measure
    rw [List.mapM_cons, hs]
    rfl
  obtain ⟨w, m1, m2⟩ := c130_no_score rnd_rounds (by simp) hm (by
    intro a ha
    rw [List.mem_singleton.mp ha]
    exact hs)
  refine ⟨_, _, h1, hm, ?_, m1, m2⟩
  show shares rnd [.fin 0] = _
  have := w (Fl.rounded rnd (.fin 0 / sumScores rnd [.fin 0])) (by simp [shares])
  unfold shares
  rw [List.map_singleton, this]

/-! ### Scans and maps that meet the hypotheses -/

/-- At its mean a cell has a likelihood of one, if it has a finite one. -/
theorem score_at_mean {rd : ℝ → ℝ} (hr : Spec.RoundsToNearest rd) {c : Cell} {v : ℝ} (hn : ¬ c.n < 5) (h : score rd c c.mean = .fin v) : v = 1 := by
  have h0 : rd 0 = 0 := hr.exact isDouble_zero
  have ez : ∀ z : Fl, (Fl.fin 0 * z : Fl) = .fin 0 ∨ (Fl.fin 0 * z : Fl) = .nan := by
    intro z
    cases z with
    | nan => exact Or.inr rfl
    | pinf => exact Or.inr (by show Fl.infMul true 0 = _; unfold Fl.infMul; rw [if_pos rfl])
    | ninf => exact Or.inr (by show Fl.infMul false 0 = _; unfold Fl.infMul; rw [if_pos rfl])
    | fin x => exact Or.inl (by rw [Fl.fin_mul, zero_mul])
  have e : exponent rd c c.mean = .fin 0 ∨ exponent rd c c.mean = .nan := by
    unfold exponent
    simp only [sub_self, h0, mul_zero]
    rcases ez c.information.m00 with a | a <;> rcases ez c.information.m10 with b | b <;> rcases ez c.information.m01 with d | d <;>
      rcases ez c.information.m11 with f | f <;> rw [a, b, d, f]
    · left
      simp only [Fl.rounded_fin, h0, Fl.fin_add, add_zero, Fl.fin_mul, mul_zero]
    all_goals right
    all_goals simp only [rounded_nan, Fl.add_nan, Fl.nan_add, Fl.nan_mul]
  unfold score at h
  rw [if_neg hn] at h
  rcases e with e | e <;> rw [e] at h
  · unfold expD at h
    simp only [Real.exp_zero, hr.exact isDouble_one] at h
    rw [if_neg (not_le.mpr (one_lt_pow₀ (by norm_num) (by norm_num)))] at h
    cases h
    rfl
  · cases h

/-- The hypotheses of `c130_weights_partial`, with a particle of a score other than zero: the map of `matched_corner`, and a scan that sees the
middle of its square. -/
example : ∃ mt p r, measure rnd Demo.cosR Demo.sinR mt [p] [⟨20, 20, 0⟩, Pose2d.zero] = .ok r ∧ ∀ w ∈ r.weights, Spec.IsShare w := by
  obtain ⟨g, h1, ⟨cells, hc⟩, h2, h3, h4, idx⟩ := corner_map
  have hspread : Spec.WellSpread rnd Demo.cosR Demo.sinR g [Demo.scanOf cornersAndMiddle] 1 := by
    intro i hi
    by_cases h : i = 14
    · subst h
      rw [h4]
      refine ⟨by simp [cornersAndMiddle], cornersAndMiddle_within, ?_⟩
      intro v w
      refine le_trans ?_ (cornersAndMiddle_spread v w)
      refine mul_le_mul_of_nonneg_right ?_ (by positivity)
      simp only [cornersAndMiddle, List.length_cons, List.length_nil]
      norm_num
    · rw [h3 i h] at hi
      simp at hi
  have hn5 : ¬ (cellOf rnd eigenvalues cornersAndMiddle).n < 5 := by
    rw [(c98_mean_accurate rnd_rounds 1 (pow_le_one₀ (by norm_num) (by norm_num)) cornersAndMiddle (by simp [cornersAndMiddle])
      cornersAndMiddle_within eigenvalues).2.2]
    simp [cornersAndMiddle]
  have hmean : |(cellOf rnd eigenvalues cornersAndMiddle).mean.x| ≤ 1 ∧ |(cellOf rnd eigenvalues cornersAndMiddle).mean.y| ≤ 1 := by
    obtain ⟨a1, a2, -⟩ := c98_mean_accurate rnd_rounds 1 (pow_le_one₀ (by norm_num) (by norm_num)) cornersAndMiddle (by simp [cornersAndMiddle])
      cornersAndMiddle_within eigenvalues
    have e1 : Spec.avg (·.x) cornersAndMiddle = 0 := by norm_num [Spec.avg, cornersAndMiddle]
    have e2 : Spec.avg (·.y) cornersAndMiddle = 0 := by norm_num [Spec.avg, cornersAndMiddle]
    rw [e1, sub_zero] at a1
    rw [e2, sub_zero] at a2
    simp only [cornersAndMiddle, List.length_cons, List.length_nil] at a1 a2
    exact ⟨a1.trans (by norm_num), a2.trans (by norm_num)⟩
  have hd : Spec.IsDouble (cellOf rnd eigenvalues cornersAndMiddle).mean.x ∧ Spec.IsDouble (cellOf rnd eigenvalues cornersAndMiddle).mean.y := by
    have e : (cellOf rnd eigenvalues cornersAndMiddle).mean = (cornersAndMiddle.foldl (addPoint rnd) Cell.new).mean := by
      unfold cellOf compute
      split <;> rfl
    rw [e]
    exact ⟨isDouble_rnd _, isDouble_rnd _⟩
  set p := (cellOf rnd eigenvalues cornersAndMiddle).mean with hp
  obtain ⟨a1, a2⟩ := abs_le.mp hmean.1
  obtain ⟨b1, b2⟩ := abs_le.mp hmean.2
  have hlik : likelihood rnd g p = .ok (score rnd (cellOf rnd eigenvalues cornersAndMiddle) p) := by
    unfold likelihood
    rw [hc] at h2 ⊢
    rw [idx p.x p.y a1 a2 b1 b2]
    simp only [Res.ok_bind]
    rw [if_pos (by positivity), Int.toNat_natCast, h2]
    rfl
  obtain ⟨x, hx, -, -⟩ := spread_likelihood rnd_rounds eigenvalues_accurate h1 rfl (by norm_num [Demo.matcher])
    (by norm_num [Demo.matcher]) (by rw [hc]; norm_num [abs_le]) (by rw [hc]; norm_num [abs_le]) (B := 1)
    (pow_le_one₀ (by norm_num) (by norm_num)) (one_le_pow₀ (by norm_num)) hspread p _ hlik
  cases score_at_mean rnd_rounds hn5 hx
  rw [hx] at hlik
  have hs := scorePoints_one (mt := { Demo.matcher 4 10 with ndt := some g }) (g := g) rfl (by norm_num [Demo.matcher])
    (p := p) (a := Pose2d.zero) (by rw [Demo.mapPoint_zero hd.1 hd.2]; exact hlik)
  obtain ⟨mt', r, e1, e2⟩ := c130_returns rnd_rounds accurate_demo eigenvalues (P := 100) (by norm_num) (mt := Demo.matcher 4 10)
    ⟨by norm_num [Demo.matcher], by norm_num [Demo.matcher], by norm_num [Demo.matcher]⟩ (scans := [Demo.scanOf cornersAndMiddle]) (by simp)
    (demoScan_within _ (fun q hq => ⟨(cornersAndMiddle_within q hq).1.trans (by norm_num), (cornersAndMiddle_within q hq).2.trans (by norm_num)⟩))
    (points := [p]) (by
      intro q hq
      rw [List.mem_singleton.mp hq]
      exact ⟨hmean.1.trans (by norm_num), hmean.2.trans (by norm_num)⟩) (by simp) (particles := [⟨20, 20, 0⟩, Pose2d.zero]) (by
      intro a ha
      simp only [List.mem_cons, List.not_mem_nil, or_false] at ha
      rcases ha with rfl | rfl <;> norm_num [Pose2d.zero, abs_le])
  rw [h1] at e1
  cases e1
  refine ⟨_, p, r, e2, (c130_weights_partial rnd_rounds eigenvalues_accurate h1 rfl (by norm_num [Demo.matcher])
    (by norm_num [Demo.matcher]) (by rw [hc]; norm_num [abs_le]) (by rw [hc]; norm_num [abs_le]) (B := 1)
    (pow_le_one₀ (by norm_num) (by norm_num)) (one_le_pow₀ (by norm_num)) hspread (by simp) (by simp) (by norm_num [Demo.matcher]) e2).2.2
    ⟨Pose2d.zero, by simp, ?_⟩⟩
  rw [hs]
  simp only [Fl.fin_neg, Fl.fin_add, zero_add, Fl.rounded_fin]
  rw [rnd_rounds.exact (isDouble_neg isDouble_one), Fl.fin_div one_ne_zero, div_one, Fl.rounded_fin,
    rnd_rounds.exact (isDouble_neg isDouble_one)]
  intro h
  have h' := Fl.fin.inj (Except.ok.inj h)
  norm_num at h'

/-- The hypotheses of `c130_mean`: two particles, one where the robot is and one 6.25 cm nearer to the wall. The first gets all the weight. -/
example : ∃ mt r x y, addScans rnd Demo.cosR Demo.sinR eigenvalues (Demo.matcher 0.25 6.0625) [Demo.scanOf FarWall.points] = .ok mt ∧
    measure rnd Demo.cosR Demo.sinR mt [⟨0, 2⟩] [Pose2d.zero, ⟨0, 0.0625, 0⟩] = .ok r ∧ r.meanX = .fin x ∧ r.meanY = .fin y ∧
      |x| ≤ 2⁻¹ ^ 47 ∧ |y| ≤ 2⁻¹ ^ 47 := by
  obtain ⟨g, h1, hl0, hl1⟩ := wall_map
  have d2 : Spec.IsDouble (2 : ℝ) := by simpa using isDouble_nat (n := 2) (by norm_num)
  have hs0 := scorePoints_one (mt := { Demo.matcher 0.25 6.0625 with ndt := some g }) (g := g) rfl (by norm_num [Demo.matcher])
    (p := ⟨0, 2⟩) (a := ⟨0, 0.0625, 0⟩) (v := .fin 0) (by rw [wall_point]; exact hl0)
  have hs1 := scorePoints_one (mt := { Demo.matcher 0.25 6.0625 with ndt := some g }) (g := g) rfl (by norm_num [Demo.matcher])
    (p := ⟨0, 2⟩) (a := Pose2d.zero) (v := .fin 1) (by rw [Demo.mapPoint_zero isDouble_zero d2]; exact hl1)
  rw [Fl.fin_neg, neg_zero, Fl.fin_add, add_zero, Fl.rounded_fin, rnd_zero, Fl.fin_div one_ne_zero, zero_div, Fl.rounded_fin, rnd_zero] at hs0
  rw [Fl.fin_neg, Fl.fin_add, zero_add, Fl.rounded_fin, rnd_rounds.exact (isDouble_neg isDouble_one), Fl.fin_div one_ne_zero, div_one,
    Fl.rounded_fin, rnd_rounds.exact (isDouble_neg isDouble_one)] at hs1
  obtain ⟨mt', r, e1, e2⟩ := c130_returns rnd_rounds accurate_demo eigenvalues (P := 100) (by norm_num) (mt := Demo.matcher 0.25 6.0625)
    ⟨by norm_num [Demo.matcher], by norm_num [Demo.matcher], by norm_num [Demo.matcher]⟩ (scans := [Demo.scanOf FarWall.points]) (by simp)
    (demoScan_within _ (by
      intro q hq
      simp only [FarWall.points, List.mem_cons, List.not_mem_nil, or_false] at hq
      rcases hq with rfl | rfl | rfl | rfl | rfl <;> norm_num [abs_le]))
    (points := [⟨0, 2⟩]) (by
      intro q hq
      rw [List.mem_singleton.mp hq]
      norm_num [abs_le]) (by simp) (particles := [Pose2d.zero, ⟨0, 0.0625, 0⟩]) (by
      intro a ha
      simp only [List.mem_cons, List.not_mem_nil, or_false] at ha
      rcases ha with rfl | rfl <;> norm_num [Pose2d.zero, abs_le])
  rw [h1] at e1
  cases e1
  have hcloud : ∀ f : Pose2d → ℝ, |f Pose2d.zero| ≤ 1 → |f ⟨0, 0.0625, 0⟩| ≤ 1 →
      Spec.ModerateCloud f 1 [((1 : ℝ), Pose2d.zero), (0, ⟨0, 0.0625, 0⟩)] := by
    intro f f1 f2
    refine ⟨?_, ?_, ?_, pow_le_one₀ (by norm_num) (by norm_num), by norm_num⟩
    · intro a ha
      simp only [List.mem_cons, List.not_mem_nil, or_false] at ha
      rcases ha with rfl | rfl <;> norm_num
    · simp only [Spec.total, List.map_cons, List.map_nil, List.sum_cons, List.sum_nil]
      norm_num
    · intro a ha
      simp only [List.mem_cons, List.not_mem_nil, or_false] at ha
      rcases ha with rfl | rfl
      · exact f1
      · exact f2
  obtain ⟨-, x, y, ex, ey, hx, hy⟩ := c130_mean rnd_rounds rnd_neg (l := [((1 : ℝ), Pose2d.zero), (0, ⟨0, 0.0625, 0⟩)]) (B := 1) (by
    intro a ha
    simp only [List.mem_cons, List.not_mem_nil, or_false] at ha
    rcases ha with rfl | rfl
    · exact hs1
    · rw [neg_zero]; exact hs0) (hcloud (·.x) (by norm_num [Pose2d.zero]) (by norm_num)) (hcloud (·.y) (by norm_num [Pose2d.zero])
      (by norm_num [abs_le])) e2
  refine ⟨_, r, x, y, h1, e2, ex, ey, ?_, ?_⟩
  · norm_num [Spec.weightedMean, Spec.total, Pose2d.zero] at hx ⊢
    linarith
  · norm_num [Spec.weightedMean, Spec.total, Pose2d.zero] at hy ⊢
    linarith

end Ndt
